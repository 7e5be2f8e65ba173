import Verif.Props.PanRowPred
import Std.Data.String.ToNat
/-!
# C16: names of row predicates; the parameters check; findings on C15
-/
set_option linter.unusedSimpArgs false
set_option linter.unusedSectionVars false
namespace Ticdat
open Spec
variable {V K D : Type}

/-- Among `length + 1` different names one is free. -/
theorem exists_free {A : Type} [DecidableEq A] (used : List A) (f : Nat → A) (hf : ∀ i j, f i = f j → i = j) :
    ∃ i, i < used.length + 1 ∧ f i ∉ used := by
  apply Classical.byContradiction
  intro h
  have hsub : (List.range (used.length + 1)).map f ⊆ used := by
    intro a ha
    obtain ⟨i, hi, rfl⟩ := List.mem_map.1 ha
    apply Classical.byContradiction
    intro hn
    exact h ⟨i, List.mem_range.1 hi, hn⟩
  have hnd : ((List.range (used.length + 1)).map f).Nodup := by
    rw [List.Nodup, List.pairwise_map]
    exact List.nodup_range.imp (fun h e => h (hf _ _ e))
  have := List.Nodup.length_le_of_subset hnd hsub
  simp at this
  omega

theorem find_range_least (P : Nat → Bool) (n : Nat) (h : ∃ i, i < n ∧ P i = true) :
    ∃ i, (List.range n).find? P = some i ∧ P i = true ∧ ∀ j, j < i → P j = false := by
  cases hf : (List.range n).find? P with
  | none =>
    rw [List.find?_eq_none] at hf
    obtain ⟨i, hi, hp⟩ := h
    exact absurd hp (hf i (List.mem_range.2 hi))
  | some i =>
    refine ⟨i, rfl, List.find?_some hf, ?_⟩
    intro j hj
    rw [List.find?_eq_some_iff_getElem] at hf
    obtain ⟨_, k, hk, e, hmin⟩ := hf
    simp only [List.getElem_range] at e hmin
    subst e
    have := hmin j hj
    simpa using this

theorem leastFree_spec (used : List PName) :
    PName.num (leastFree used) ∉ used ∧ ∀ j, j < leastFree used → PName.num j ∈ used := by
  obtain ⟨i, h1, h2⟩ := exists_free used PName.num (fun i j h => by cases h; rfl)
  obtain ⟨k, h3, h4, h5⟩ := find_range_least (fun i => decide (PName.num i ∉ used)) _ ⟨i, h1, by simpa using h2⟩
  unfold leastFree
  rw [h3]
  refine ⟨by simpa using h4, ?_⟩
  intro j hj
  have := h5 j hj
  simpa using this

/-- The predicate registered under a table and a name. -/
def predAt (ps : Preds V K) (t : String) (n : PName) : Option (RowPred V K) :=
  (ps.lookup t).bind (fun r => (r.find? (fun p => decide (p.1 = n))).map Prod.snd)

theorem get?_eq_find {A B : Type} [DecidableEq A] (d : PyDict A B) (k : A) :
    PyDict.get? d k = (d.find? (fun p => decide (p.1 = k))).map Prod.snd := by
  induction d with
  | nil => rfl
  | cons p d ih =>
    obtain ⟨a, b⟩ := p
    by_cases h : a = k <;> simp [PyDict.get?, List.find?_cons, h, ih]

theorem predAt_eq (ps : Preds V K) (t : String) (n : PName) :
    predAt ps t n = (PyDict.get? ps t).bind (fun r => PyDict.get? r n) := by
  unfold predAt
  rw [get?_eq_lookup]
  cases ps.lookup t with
  | none => rfl
  | some r => simp [get?_eq_find]

/-- The factory's predicates after a history of calls, from a new factory. -/
def predHistory (cs : List (PredCall V K)) : Preds V K := cs.foldl addPred []

/-- Names are unique per table. -/
def PredsNodup (ps : Preds V K) : Prop := (PyDict.keys ps).Nodup ∧ ∀ p ∈ ps, (PyDict.keys p.2).Nodup

theorem mem_set {A B : Type} [DecidableEq A] {d : PyDict A B} {k : A} {v : B} {p : A × B} (h : p ∈ PyDict.set d k v) :
    p = (k, v) ∨ p ∈ d := by
  induction d with
  | nil => simp [PyDict.set] at h; exact Or.inl h
  | cons q d ih =>
    obtain ⟨a, b⟩ := q
    by_cases e : a = k
    · subst e
      simp only [PyDict.set, if_true, List.mem_cons] at h
      rcases h with h | h
      · exact Or.inl h
      · exact Or.inr (List.mem_cons_of_mem _ h)
    · simp only [PyDict.set, e, if_false, List.mem_cons] at h
      rcases h with h | h
      · exact Or.inr (by simp [h])
      · rcases ih h with h | h
        · exact Or.inl h
        · exact Or.inr (List.mem_cons_of_mem _ h)

theorem addPred_nodup {ps : Preds V K} (h : PredsNodup ps) (c : PredCall V K) : PredsNodup (addPred ps c) := by
  have hget : ∀ t r, PyDict.get? ps t = some r → (PyDict.keys r).Nodup := fun t r hg => h.2 (t, r) (PyDict.get?_mem hg)
  have hcur : (PyDict.keys ((PyDict.get? ps c.table).getD [])).Nodup := by
    cases hg : PyDict.get? ps c.table with
    | none => simp [PyDict.keys]
    | some r => exact hget _ r hg
  unfold addPred
  split
  · split
    · rename_i cur n hg _
      refine ⟨PyDict.keys_set_nodup _ _ _ h.1, ?_⟩
      intro p hp
      rcases mem_set hp with rfl | hp
      · exact PyDict.keys_erase_nodup _ _ (hget _ cur hg)
      · exact h.2 p hp
    · exact h
  · refine ⟨PyDict.keys_set_nodup _ _ _ h.1, ?_⟩
    intro p hp
    rcases mem_set hp with rfl | hp
    · exact PyDict.keys_set_nodup _ _ _ hcur
    · exact h.2 p hp

theorem predHistory_nodup (cs : List (PredCall V K)) : PredsNodup (predHistory cs) := by
  have : ∀ (cs : List (PredCall V K)) ps, PredsNodup ps → PredsNodup (cs.foldl addPred ps) := by
    intro cs
    induction cs with
    | nil => intro ps h; exact h
    | cons c cs ih => intro ps h; exact ih _ (addPred_nodup h c)
  exact this cs [] ⟨by simp [PyDict.keys], by simp⟩

/-- **C16.**  After any history of additions and removals, adding a predicate without a name puts it under the least
number that names no predicate of the table; no predicate had that name; every other predicate of every table is what it
was. -/
theorem auto_name_never_clobbers (history : List (PredCall V K)) (t : String) (p : RowPred V K) :
    ∃ i, predAt (predHistory history) t (.num i) = none ∧
      (∀ j, j < i → (predAt (predHistory history) t (.num j)).isSome) ∧
      predAt (addPred (predHistory history) ⟨t, none, some p⟩) t (.num i) = some p ∧
      ∀ t' n, (t', n) ≠ (t, .num i) →
        predAt (addPred (predHistory history) ⟨t, none, some p⟩) t' n = predAt (predHistory history) t' n := by
  generalize predHistory history = ps
  obtain ⟨h1, h2⟩ := leastFree_spec (PyDict.keys ((PyDict.get? ps t).getD []))
  refine ⟨leastFree (PyDict.keys ((PyDict.get? ps t).getD [])), ?_, ?_, ?_, ?_⟩
  · rw [predAt_eq]
    cases hg : PyDict.get? ps t with
    | none => rfl
    | some r => rw [hg] at h1; simpa [PyDict.get?_eq_none] using h1
  · intro j hj
    have := h2 j hj
    rw [predAt_eq]
    cases hg : PyDict.get? ps t with
    | none => rw [hg] at this; simp [PyDict.keys] at this
    | some r =>
      rw [hg] at this
      simp only [Option.getD_some] at this
      exact (PyDict.has_iff r _).2 this
  · rw [predAt_eq]
    simp [addPred, PyDict.get?_set]
  · intro t' n hne
    rw [predAt_eq, predAt_eq]
    simp only [addPred, PyDict.get?_set]
    by_cases ht : t = t'
    · subst ht
      simp only [if_true, Option.bind_some, Option.getD_none, PyDict.get?_set]
      rw [if_neg (by intro e; apply hne; rw [← e])]
      cases PyDict.get? ps t with
      | none => simp
      | some r => rfl
    · simp [ht]

/-- **C16, named additions and removals** touch only the named predicate. -/
theorem named_pred_frame (history : List (PredCall V K)) (t : String) (n : PName) (op : Option (RowPred V K)) :
    predAt (addPred (predHistory history) ⟨t, some n, op⟩) t n = op ∧
      ∀ t' n', (t', n') ≠ (t, n) →
        predAt (addPred (predHistory history) ⟨t, some n, op⟩) t' n' = predAt (predHistory history) t' n' := by
  have hnd := predHistory_nodup history
  generalize predHistory history = ps at hnd
  cases op with
  | some p =>
    constructor
    · rw [predAt_eq]; simp [addPred, PyDict.get?_set]
    · intro t' n' hne
      rw [predAt_eq, predAt_eq]
      simp only [addPred, PyDict.get?_set]
      by_cases ht : t = t'
      · subst ht
        simp only [if_true, Option.bind_some, Option.getD_some, PyDict.get?_set]
        rw [if_neg (by intro e; apply hne; rw [← e])]
        cases PyDict.get? ps t with
        | none => simp
        | some r => rfl
      · simp [ht]
  | none =>
    cases hg : PyDict.get? ps t with
    | none =>
      have : addPred ps ⟨t, some n, none⟩ = ps := by simp [addPred, hg]
      rw [this]
      exact ⟨by rw [predAt_eq, hg]; rfl, fun _ _ _ => rfl⟩
    | some cur =>
      have hcn := hnd.2 (t, cur) (PyDict.get?_mem hg)
      have : addPred ps ⟨t, some n, none⟩ = PyDict.set ps t (PyDict.erase cur n) := by simp [addPred, hg]
      rw [this]
      constructor
      · rw [predAt_eq, PyDict.get?_set]; simp [PyDict.get?_erase _ _ _ hcn]
      · intro t' n' hne
        rw [predAt_eq, predAt_eq, PyDict.get?_set]
        by_cases ht : t = t'
        · subst ht
          simp only [if_true, Option.bind_some, hg, PyDict.get?_erase _ _ _ hcn]
          rw [if_neg (by intro e; apply hne; rw [← e])]
        · simp [ht]

/-- A history that reuses the number freed by a removal. -/
example : let p : RowPred Nat Unit := ⟨fun _ _ => .ret .tru, none, false⟩
    let h : List (PredCall Nat Unit) := [⟨"t", none, some p⟩, ⟨"t", some (.str "x"), some p⟩, ⟨"t", none, some p⟩,
      ⟨"t", some (.num 0), none⟩]
    (predHistory h).map (fun q => (q.1, PyDict.keys q.2)) = [("t", [.str "x", .num 1])] ∧
    (addPred (predHistory h) ⟨"t", none, some p⟩).map (fun q => (q.1, PyDict.keys q.2)) =
      [("t", [.str "x", .num 1, .num 0])] := by decide

/-! ### The parameters check -/

theorem goodName_append_inj {i j : Nat} (h : goodName ++ "_" ++ toString i = goodName ++ "_" ++ toString j) : i = j := by
  have := congrArg String.toList h
  simp only [String.toList_append, List.append_cancel_left_eq] at this
  exact Nat.repr_injective (String.toList_inj.1 this)

theorem paramPredName_spec (used : List PName) : ∃ n, paramPredName used = some n ∧ n ∉ used := by
  unfold paramPredName
  have hex : ∃ x ∈ (List.range (used.length + 1)).map (makeName used), decide (x ∉ used) = true := by
    by_cases h : PName.str goodName ∈ used
    · obtain ⟨i, h1, h2⟩ := exists_free used (fun i => PName.str (goodName ++ "_" ++ toString i)) (by
        intro i j e
        simp only [PName.str.injEq] at e
        exact goodName_append_inj e)
      refine ⟨_, List.mem_map.2 ⟨i, List.mem_range.2 h1, rfl⟩, ?_⟩
      simpa [makeName, h] using h2
    · refine ⟨_, List.mem_map.2 ⟨0, by simp, rfl⟩, ?_⟩
      simpa [makeName, h] using h
  obtain ⟨x, hx, hp⟩ := hex
  cases hf : ((List.range (used.length + 1)).map (makeName used)).find? (fun n => decide (n ∉ used)) with
  | none => rw [List.find?_eq_none] at hf; exact absurd hp (hf x hx)
  | some n => exact ⟨n, rfl, by simpa using List.find?_some hf⟩

/-- **C15, parameters.**  When parameters are declared, `find_data_row_failures` adds one predicate on the parameters
table under a name that no user predicate has; all user predicates stay.  The added predicate rejects a row exactly when
its key is not a declared parameter or its value breaks the parameter's type. -/
theorem param_check_spec (parses : Cell → Bool) (s : Schema) (params : Params) (ps : Preds Cell K) (kf vf : String)
    (hkf : s.pks "parameters" = [kf]) (hvf : s.dfs "parameters" = [vf]) (hp : params ≠ []) :
    ∃ ps' n chk, withParamCheck parses s params ps = some ps' ∧ predAt ps "parameters" n = none ∧
      predAt ps' "parameters" n = some chk ∧
      (∀ t m, (t, m) ≠ ("parameters", n) → predAt ps' t m = predAt ps t m) ∧
      chk.maker = none ∧ chk.message = false ∧
      ∀ (r : Rec Cell) k v, r kf = some k → r vf = some v →
        ((∃ e, Rejects chk none r e) ↔
          ¬ ∃ q ∈ params.find? (fun q => decide (q.1 = k)), ∀ td, q.2.1 = some td → Valid parses td v) := by
  obtain ⟨n, hn1, hn2⟩ := paramPredName_spec (PyDict.keys ((PyDict.get? ps "parameters").getD []))
  refine ⟨PyDict.set ps "parameters" (PyDict.set ((PyDict.get? ps "parameters").getD []) n
      ⟨fun _ r => goodParameter parses params kf vf r, none, false⟩), n,
    ⟨fun _ r => goodParameter parses params kf vf r, none, false⟩, ?_, ?_, ?_, ?_, rfl, rfl, ?_⟩
  · simp [withParamCheck, hp, hkf, hvf, hn1]
  · rw [predAt_eq]
    cases hg : PyDict.get? ps "parameters" with
    | none => rfl
    | some r => rw [hg] at hn2; simpa [PyDict.get?_eq_none] using hn2
  · rw [predAt_eq]; simp [PyDict.get?_set]
  · intro t m hne
    rw [predAt_eq, predAt_eq, PyDict.get?_set]
    by_cases ht : "parameters" = t
    · subst ht
      simp only [if_true, Option.bind_some, PyDict.get?_set]
      rw [if_neg (by intro e; apply hne; rw [← e])]
      cases PyDict.get? ps "parameters" with
      | none => simp
      | some r => rfl
    · simp [ht]
  · intro r k v hk hv
    have hrun : ∀ res, goodParameter parses params kf vf r = res →
        ((∃ e, Rejects (⟨fun _ r => goodParameter parses params kf vf r, none, false⟩ : RowPred Cell K) none r e) ↔
          match res with
          | .ret v => v.truthy = false
          | .raised _ => True) := by
      intro res hres
      constructor
      · rintro ⟨e, hR⟩
        cases hR with
        | falsey _ h => simp only at h; rw [hres] at h; subst h; rfl
        | raisedBool _ h => simp only at h; rw [hres] at h; subst h; trivial
        | notTrue h _ => simp at h
        | raisedMsg h _ => simp at h
      · intro h
        cases res with
        | ret v =>
          cases v with
          | tru => simp [PVal.truthy] at h
          | obj b text => simp [PVal.truthy] at h; subst h; exact ⟨none, .falsey rfl hres⟩
        | raised e => exact ⟨none, .raisedBool rfl hres⟩
    rw [hrun _ rfl]
    unfold goodParameter
    rw [hk, hv]
    dsimp only
    rw [get?_eq_find]
    cases hf : params.find? (fun q => decide (q.1 = k)) with
    | none => simp [PVal.truthy]
    | some q =>
      obtain ⟨k', td, dv⟩ := q
      cases td with
      | none => simp [PVal.truthy]
      | some td =>
        cases hval : td.validData parses v with
        | true => simp [PVal.truthy, hval, (valid_data_iff parses td v).1 hval]
        | false =>
          have : ¬ Valid parses td v := by rw [← valid_data_iff, hval]; simp
          simp [PVal.truthy, hval, this]

/-- A factory that was not cloned with a conversion meets the hypothesis of `find_rows_exact`. -/
theorem makersAgree_of_no_conversion {env : PredEnv K D} (h : env.convert = none)
    (preds : List ((String × PName) × RowPred V K)) : MakersAgree env preds := by
  intro a _ b _ _ _
  simp [WantsConversion, h]

/-! ### Finding: a maker shared by a converted and an unconverted predicate -/

/-- An environment with a conversion, asked for predicate 0 only, and two predicates that share maker 7. -/
def sharedEnv : PredEnv Bool Bool := ⟨fun _ d => .dict d, false, some (fun _ => .dat true), [("t", .num 0)]⟩

def sharedPreds : List ((String × PName) × RowPred Nat Bool) :=
  [(("t", .num 0), ⟨fun _ _ => .ret .tru, some 7, false⟩),
   (("t", .num 1), ⟨fun kw _ => .ret (if kw = some false then .tru else .obj false "False"), some 7, false⟩)]

/-- **Finding.**  `clone(convert_dat=...)` documents that the conversion is not applied to row predicates added afterwards,
but the results of a maker are remembered by the maker alone: a predicate added later with the same maker gets the
arguments made from the converted object.  Here the second predicate accepts every row when it gets its own arguments, and
the code reports the row. -/
theorem shared_maker_gets_converted_dat :
    findRows true sharedEnv [("t", ⟨["k"], []⟩)] sharedPreds
        (fun t => if t = "t" then .dict [(.one 5, [])] else .list []) none =
      some [(("t", .num 1), [.row (.one 5) none])] ∧
    (∀ x, ¬ Entry sharedEnv [(PKey.one 5, fun f => if f = "k" then some 5 else none)] ("t", .num 1)
      (sharedPreds[1]).2 x) := by
  refine ⟨by decide, ?_⟩
  intro x hE
  have ho : ownArgs sharedEnv ("t", .num 1) (sharedPreds[1]).2 = .args (some false) := rfl
  cases hE with
  | notDict h => rw [ho] at h; cases h
  | makerRaised h => rw [ho] at h; cases h
  | row h _ hR =>
    rw [ho] at h; cases h
    cases hR with
    | falsey _ h => simp [sharedPreds] at h
    | raisedBool _ h => simp [sharedPreds] at h
    | notTrue h _ => simp [sharedPreds] at h
    | raisedMsg h _ => simp [sharedPreds] at h

/-! ### Non-vacuity of C15 -/

/-- A predicate of each kind: one that compares two fields, one with messages that raises on a missing value, one whose
maker fails. -/
def demoPreds : List ((String × PName) × RowPred Nat Nat) :=
  [(("t", .num 0), ⟨fun _ r => match r "a", r "b" with
      | some a, some b => .ret (if a ≤ b then .tru else .obj false "False")
      | _, _ => .raised "KeyError", none, false⟩),
   (("t", .str "msg"), ⟨fun kw r => match kw, r "a" with
      | some k, some a => if a = 0 then .raised "boom" else .ret (if a < k then .tru else .obj true "too big")
      | _, _ => .raised "KeyError", some 3, true⟩),
   (("u", .num 0), ⟨fun _ _ => .ret .tru, some 4, false⟩)]

def demoEnv : PredEnv Nat Unit := ⟨fun i _ => if i = 3 then .dict 6 else .raised "bad", (), none, []⟩

def demoSchema : Schema := [("t", ⟨["k"], ["a", "b"]⟩), ("u", ⟨[], ["c"]⟩)]

def demoDB : DB Nat := fun t =>
  if t = "t" then .dict [(.one 1, [2, 3]), (.one 2, [7, 1]), (.one 3, [0, 9])] else .list [[1]]

example : SchemaOK demoSchema ∧ PredsOK demoSchema demoPreds ∧ MakersAgree demoEnv demoPreds ∧ DBOK demoSchema demoDB := by
  refine ⟨schemaOK_of_mem (by decide) (by decide), ⟨by decide, by decide⟩, ?_, ?_⟩
  · intro a _ b _ _ _
    simp [WantsConversion, demoEnv]
  · intro t ts h
    simp only [demoSchema, List.mem_cons, Prod.mk.injEq, List.not_mem_nil, or_false] at h
    rcases h with ⟨rfl, rfl⟩ | ⟨rfl, rfl⟩ <;> simp [demoDB, TableOK, KeyOK]

example : findRows true demoEnv demoSchema demoPreds demoDB none =
    some [(("t", .num 0), [.row (.one 2) none]),
      (("t", .str "msg"), [.row (.one 2) (some "too big"), .row (.one 3) (some "Exception<boom>")]),
      (("u", .num 0), [.star "Exception<bad>"])] := by decide +kernel

example : findRows true demoEnv demoSchema demoPreds demoDB (some 2) =
    some [(("t", .num 0), [.row (.one 2) none]), (("t", .str "msg"), [.row (.one 2) (some "too big")])] := by
  decide +kernel

example : findRows false demoEnv demoSchema demoPreds demoDB none = none := by decide +kernel

end Ticdat

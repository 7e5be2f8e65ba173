import Verif.Spec.Mip
/-!
# C63: the optimization model
-/
set_option linter.unusedSimpArgs false
namespace Ticdat
open Spec

theorem varType_iff (s : String) (t : VarType) : varType s = some t ↔ s = typeName t := by
  unfold varType
  constructor
  · intro h
    split at h
    · cases h; assumption
    · split at h
      · cases h; assumption
      · split at h
        · cases h; assumption
        · cases h
  · rintro rfl
    cases t <;> decide

theorem zeroOne_iff (x : XNum) : zeroOne x = true ↔ x = .fin 0 ∨ x = .fin 1 := by simp [zeroOne]

theorem checkVar_iff (lb ub : Cell) (type : String) (t : VarType) (l u : XNum) :
    checkVar lb ub type = some (t, l, u) ↔ type = typeName t ∧ lb = .num l ∧ ∃ u0, ub = .num u0 ∧ GoodVar t l u0 ∧
      u = if t = .binary ∧ u0 = .pinf then .fin 1 else u0 := by
  unfold checkVar
  cases ht : varType type with
  | none =>
    simp only [reduceCtorEq, false_iff]
    rintro ⟨h, -⟩
    rw [(varType_iff type t).mpr h] at ht
    cases ht
  | some t' =>
    have ht' := (varType_iff type t').mp ht
    have hinj : type = typeName t ↔ t = t' := by
      constructor
      · intro h
        have := (varType_iff type t).mpr h
        rw [ht] at this
        exact (Option.some.inj this).symm
      · rintro rfl; exact ht'
    rw [hinj]
    cases lb with
    | num l' =>
      cases ub with
      | num u' =>
        simp only [Cell.numericish, Bool.and_self, Bool.not_true, Bool.false_eq_true, if_false, boundOf, Cell.num.injEq]
        have h1 : XNum.lt l' .pinf = true ↔ l' ≠ .pinf := by cases l' <;> simp [XNum.lt]
        have h2 : XNum.lt .ninf u' = true ↔ u' ≠ .ninf := by cases u' <;> simp [XNum.lt]
        unfold GoodVar
        constructor
        · intro h
          split at h
          · cases h
          split at h
          · cases h
          split at h
          · cases h
          rename_i g1 g2 g3
          simp only [Bool.not_eq_true', Bool.not_eq_false] at g1 g2 g3
          by_cases hb : t' = .binary
          · rw [if_pos hb] at h
            by_cases hz : (zeroOne l' && zeroOne (if u' = .pinf then .fin 1 else u')) = true
            · rw [if_pos hz] at h
              simp only [Bool.and_eq_true, zeroOne_iff] at hz
              obtain ⟨rfl, rfl, rfl⟩ : t' = t ∧ l' = l ∧ (if u' = .pinf then .fin 1 else u') = u := by simpa using h
              refine ⟨rfl, rfl, u', rfl, ⟨g1, h1.mp g2, h2.mp g3, fun _ => ⟨hz.1, ?_⟩⟩, by simp [hb]⟩
              by_cases hp : u' = .pinf
              · exact .inr (.inr hp)
              · rw [if_neg hp] at hz
                rcases hz.2 with h | h
                · exact .inl h
                · exact .inr (.inl h)
            · rw [if_neg hz] at h
              cases h
          · rw [if_neg hb] at h
            obtain ⟨rfl, rfl, rfl⟩ : t' = t ∧ l' = l ∧ u' = u := by simpa using h
            exact ⟨rfl, rfl, u', rfl, ⟨g1, h1.mp g2, h2.mp g3, fun h => absurd h hb⟩, by simp [hb]⟩
        · rintro ⟨rfl, rfl, u0, rfl, ⟨g1, g2, g3, g4⟩, rfl⟩
          rw [if_neg (by simp [g1]), if_neg (by simp [h1.mpr g2]), if_neg (by simp [h2.mpr g3])]
          by_cases hb : t = .binary
          · rw [if_pos hb, if_pos]
            · simp [hb]
            · simp only [Bool.and_eq_true, zeroOne_iff]
              refine ⟨(g4 hb).1, ?_⟩
              split
              · exact .inr rfl
              · rcases (g4 hb).2 with h | h | h
                · exact .inl h
                · exact .inr h
                · contradiction
          · rw [if_neg hb]; simp [hb]
      | _ => simp [Cell.numericish, boundOf]
    | _ => cases ub <;> simp [Cell.numericish, boundOf]

theorem addVarCall_iff (e : Engine) (lb ub : Cell) (type : String) :
    (addVarCall e lb ub type).isSome = true ↔ ∃ t l u, type = typeName t ∧ lb = .num l ∧ ub = .num u ∧ GoodVar t l u := by
  have h0 : (addVarCall e lb ub type).isSome = (checkVar lb ub type).isSome := by
    unfold addVarCall
    cases checkVar lb ub type with
    | none => rfl
    | some r => obtain ⟨t, l, u⟩ := r; cases e <;> cases t <;> rfl
  rw [h0, Option.isSome_iff_exists]
  constructor
  · rintro ⟨⟨t, l, u⟩, h⟩
    obtain ⟨h1, h2, u0, h3, h4, -⟩ := (checkVar_iff _ _ _ _ _ _).mp h
    exact ⟨t, l, u0, h1, h2, h3, h4⟩
  · rintro ⟨t, l, u, h1, h2, h3, h4⟩
    exact ⟨_, (checkVar_iff _ _ _ t l _).mpr ⟨h1, h2, u, h3, h4, rfl⟩⟩

theorem fin_le (a b : Rat) : XNum.le (.fin a) (.fin b) = true ↔ a ≤ b := by
  simp [XNum.le, XNum.lt, Rat.not_lt]

theorem fixed_within {l u : XNum} {x : Rat} (hl : l = .fin 0 ∨ l = .fin 1) (hu : u = .fin 0 ∨ u = .fin 1) (hlu : XNum.le l u = true)
    (hx : x = 0 ∨ x = 1) : (∀ r, fixedTo l u = some r → XNum.fin x = r) ↔ Within l u x := by
  have e1 : fixedTo (.fin 0) (.fin 0) = some (.fin 0) := by decide
  have e2 : fixedTo (.fin 0) (.fin 1) = none := by decide
  have e3 : fixedTo (.fin 1) (.fin 1) = some (.fin 1) := by decide
  unfold Within
  rcases hl with rfl | rfl <;> rcases hu with rfl | rfl
  · rw [e1]; rcases hx with rfl | rfl <;> simp [fin_le] <;> decide
  · rw [e2]; rcases hx with rfl | rfl <;> simp [fin_le] <;> decide
  · exact absurd hlu (by decide)
  · rw [e3]; rcases hx with rfl | rfl <;> simp [fin_le] <;> decide

/-- **C63.** Whether `add_var` accepts its arguments does not depend on the engine: it does exactly if they make sense.  The values
that the variable may take are the same for all three engines: those of its type between its bounds. -/
theorem add_var_domain (e : Engine) (honours : Bool) (lb ub : Cell) (type : String) :
    ((addVarCall e lb ub type).isSome = true ↔ ∃ t l u, type = typeName t ∧ lb = .num l ∧ ub = .num u ∧ GoodVar t l u) ∧
    (∀ t l u call x, type = typeName t → lb = .num l → ub = .num u → addVarCall e lb ub type = some call →
      (Allowed honours call x ↔ OfType t x ∧ Within l u x)) := by
  refine ⟨addVarCall_iff e lb ub type, ?_⟩
  rintro t l u call x rfl rfl rfl h
  have hgood : GoodVar t l u := by
    obtain ⟨t', l', u', h1, h2, h3, h4⟩ := (addVarCall_iff e (.num l) (.num u) (typeName t)).mp (by rw [h]; rfl)
    have : t' = t := by cases t <;> cases t' <;> first | rfl | exact absurd h1 (by decide)
    subst this
    cases h2; cases h3
    exact h4
  have hc : checkVar (.num l) (.num u) (typeName t) = some (t, l, if t = .binary ∧ u = .pinf then .fin 1 else u) :=
    (checkVar_iff _ _ _ _ _ _).mpr ⟨rfl, rfl, u, rfl, hgood, rfl⟩
  unfold addVarCall at h
  rw [hc] at h
  by_cases hb : t = .binary
  · subst hb
    obtain ⟨g1, g2, g3, g4⟩ := hgood
    obtain ⟨gl, gu⟩ := g4 rfl
    have hwithin : ∀ u', (u' = if VarType.binary = .binary ∧ u = .pinf then XNum.fin 1 else u) →
        (OfType .binary x ∧ Within l u' x ↔ OfType .binary x ∧ Within l u x) := by
      rintro u' rfl
      by_cases hu : u = .pinf
      · subst hu
        simp only [and_self, if_true, OfType, Within]
        constructor
        · rintro ⟨a, b, c⟩; exact ⟨a, b, by simp [XNum.le, XNum.lt]⟩
        · rintro ⟨a, b, c⟩
          refine ⟨a, b, ?_⟩
          rw [fin_le]
          rcases a with rfl | rfl <;> decide
      · simp [hu]
    have hfix : (x = 0 ∨ x = 1) ∧ (∀ r, fixedTo l (if VarType.binary = .binary ∧ u = .pinf then .fin 1 else u) = some r → XNum.fin x = r) ↔
        OfType .binary x ∧ Within l u x := by
      rw [← hwithin _ rfl]
      have hu' : (if VarType.binary = .binary ∧ u = .pinf then XNum.fin 1 else u) = .fin 0 ∨
          (if VarType.binary = .binary ∧ u = .pinf then XNum.fin 1 else u) = .fin 1 := by
        rcases gu with rfl | rfl | rfl
        · exact .inl (by decide)
        · exact .inr (by decide)
        · exact .inr (by decide)
      have hlu : XNum.le l (if VarType.binary = .binary ∧ u = .pinf then XNum.fin 1 else u) = true := by
        split
        · rcases gl with rfl | rfl <;> decide
        · exact g1
      constructor
      · rintro ⟨hx, hf⟩
        exact ⟨hx, (fixed_within gl hu' hlu hx).mp hf⟩
      · rintro ⟨hx, hw⟩
        exact ⟨hx, (fixed_within gl hu' hlu hx).mpr hw⟩
    cases e with
    | gurobi =>
      cases h
      exact hwithin _ rfl
    | cplex =>
      cases h
      exact hfix
    | xpress =>
      cases h
      change (OfType .binary x ∧ _ ∧ ∀ r, (if VarType.binary = .binary then _ else none) = some r → _) ↔ _
      rw [if_pos rfl]
      constructor
      · rintro ⟨a, -, c⟩
        exact hfix.mp ⟨a, c⟩
      · intro hw
        exact ⟨hw.1, .inr ((hwithin _ rfl).mpr hw).2, (hfix.mpr hw).2⟩
  · have hu : (if t = .binary ∧ u = .pinf then XNum.fin 1 else u) = u := by rw [if_neg (by simp [hb])]
    rw [hu] at h
    cases e with
    | gurobi => cases h; rfl
    | cplex =>
      cases t with
      | binary => exact absurd rfl hb
      | continuous => cases h; simp [Allowed, OfType]
      | integer => cases h; simp [Allowed, OfType]
    | xpress =>
      simp only [hb, if_false] at h
      cases h
      simp [Allowed, hb]

example : GoodVar .binary (.fin 1) .pinf ∧ GoodVar .integer (.ninf) (.fin 7) ∧ ¬ GoodVar .binary (.fin 0) (.fin 2) := by
  refine ⟨⟨by decide, by decide, by decide, fun _ => ⟨.inr rfl, .inr (.inr rfl)⟩⟩, ⟨by decide, by decide, by decide, by simp⟩, ?_⟩
  rintro ⟨-, -, -, h⟩
  rcases (h rfl).2 with h | h | h <;> exact absurd h (by decide)

/-! ## The values of a solution -/

theorem lookup_zipIdx (v : Nat) : ∀ (l : List Nat) (n : Nat), v ∈ l → l.Nodup →
    ∃ i : Nat, (l.zipIdx n).lookup v = some (n + i) ∧ l[i]? = some v
  | [], _, h, _ => by cases h
  | x :: l, n, h, hn => by
    rw [List.zipIdx_cons, List.lookup_cons]
    by_cases hx : v = x
    · subst hx
      exact ⟨0, by simp, rfl⟩
    · rw [List.nodup_cons] at hn
      have hm : v ∈ l := by
        rcases List.mem_cons.mp h with h | h
        · exact absurd h hx
        · exact h
      obtain ⟨i, h1, h2⟩ := lookup_zipIdx v l (n + 1) hm hn.2
      have hb : (v == x) = false := by simpa using hx
      refine ⟨i + 1, ?_, h2⟩
      rw [hb]
      simp only []
      rw [h1]
      congr 1
      omega

theorem lookup_zipIdx_none (v : Nat) : ∀ (l : List Nat) (n : Nat), v ∉ l → (l.zipIdx n).lookup v = none
  | [], _, _ => rfl
  | x :: l, n, h => by
    rw [List.zipIdx_cons, List.lookup_cons]
    have hb : (v == x) = false := by
      rw [beq_eq_false_iff_ne]
      rintro rfl
      exact h List.mem_cons_self
    rw [hb]
    exact lookup_zipIdx_none v l (n + 1) (fun hm => h (List.mem_cons_of_mem _ hm))

/-- The columns and the index hold the variables added so far, in this order. -/
theorem xpress_state : ∀ (ops : List MipOp) (m : XpressModel), m.index = m.columns.zipIdx →
    (ops.foldl XpressModel.step m).columns = m.columns ++ added ops ∧
    (ops.foldl XpressModel.step m).index = (ops.foldl XpressModel.step m).columns.zipIdx
  | [], m, h => ⟨by simp [added], h⟩
  | .addVar v :: ops, m, h => by
    obtain ⟨h1, h2⟩ := xpress_state ops (m.addVar v) (by simp [XpressModel.addVar, h, List.zipIdx_append])
    refine ⟨?_, h2⟩
    rw [List.foldl_cons]
    change (ops.foldl XpressModel.step (m.addVar v)).columns = _
    rw [h1]
    simp [XpressModel.addVar, added]
  | .optimize r :: ops, m, h => by
    obtain ⟨h1, h2⟩ := xpress_state ops (m.optimize r) h
    exact ⟨h1, h2⟩

theorem xpress_solution : ∀ (later : List Nat) (m : XpressModel),
    ((later.map MipOp.addVar).foldl XpressModel.step m).solution = m.solution
  | [], _ => rfl
  | v :: later, m => xpress_solution later (m.addVar v)

theorem added_map (l : List Nat) : added (l.map .addVar) = l := by
  induction l with
  | nil => rfl
  | cons v l ih => rw [List.map_cons, added, ih]

theorem added_append : ∀ (a b : List MipOp), added (a ++ b) = added a ++ added b
  | [], _ => rfl
  | .addVar v :: a, b => by rw [List.cons_append, added, added, added_append a b]; rfl
  | .optimize r :: a, b => by rw [List.cons_append, added, added, added_append a b]

/-- **C63.** Over xpress, after any history of adding variables and optimizing: if the last call of `optimize` found values, then
`get_solution_value` gives the value that it found for the variable, and raises for a variable added since; if it found none,
`get_solution_value` raises. -/
theorem xpress_value (before : List MipOp) (r : Option (Nat → Rat)) (later : List Nat)
    (hn : (added before ++ later).Nodup) (v : Nat) :
    ((before ++ MipOp.optimize r :: later.map MipOp.addVar).foldl XpressModel.step .init).value v =
      if v ∈ added before then r.map (fun f => f v) else none := by
  obtain ⟨hc, hi⟩ := xpress_state (before ++ MipOp.optimize r :: later.map MipOp.addVar) .init rfl
  have hadd : added (before ++ MipOp.optimize r :: later.map MipOp.addVar) = added before ++ later := by
    rw [added_append, added, added_map]
  rw [hadd] at hc
  have hsol : ((before ++ MipOp.optimize r :: later.map MipOp.addVar).foldl XpressModel.step .init).solution =
      match r with | some f => (added before).map f | none => [] := by
    rw [List.foldl_append, List.foldl_cons, xpress_solution]
    change (XpressModel.optimize _ r).solution = _
    obtain ⟨hc', -⟩ := xpress_state before .init rfl
    unfold XpressModel.optimize
    rw [hc']
    cases r <;> rfl
  unfold XpressModel.value
  rw [hi, hc, hsol]
  change (match ((added before ++ later).zipIdx 0).lookup v with | none => none | some i => _) = _
  by_cases hv : v ∈ added before ++ later
  · obtain ⟨i, h1, h2⟩ := lookup_zipIdx v _ 0 hv hn
    rw [h1]
    simp only [Nat.zero_add]
    by_cases hb : v ∈ added before
    · rw [if_pos hb]
      have hi' : (added before)[i]? = some v := by
        by_cases hlt : i < (added before).length
        · rwa [List.getElem?_append_left hlt] at h2
        · exfalso
          rw [List.getElem?_append_right (Nat.le_of_not_lt hlt)] at h2
          exact (List.nodup_append.mp hn).2.2 v hb v (List.mem_of_getElem? h2) rfl
      cases r with
      | none => rfl
      | some f => simp [hi']
    · rw [if_neg hb]
      have hge : (added before).length ≤ i := by
        by_cases hlt : i < (added before).length
        · exfalso
          rw [List.getElem?_append_left hlt] at h2
          exact hb (List.mem_of_getElem? h2)
        · exact Nat.le_of_not_lt hlt
      cases r with
      | none => rfl
      | some f => simp [hge]
  · rw [lookup_zipIdx_none v _ 0 hv]
    have : v ∉ added before := fun h => hv (List.mem_append_left _ h)
    rw [if_neg this]

theorem cplex_columns : ∀ (ops : List MipOp) (m : CplexModel),
    (ops.foldl CplexModel.step m).columns = m.columns ++ added ops
  | [], m => by simp [added]
  | .addVar v :: ops, m => by
    rw [List.foldl_cons, cplex_columns ops]
    simp [CplexModel.step, CplexModel.addVar, added]
  | .optimize r :: ops, m => by
    rw [List.foldl_cons, cplex_columns ops]
    cases r <;> rfl

/-- Nothing but a successful `optimize` changes the values. -/
theorem cplex_keeps : ∀ (later : List MipOp), (∀ f, MipOp.optimize (some f) ∉ later) → ∀ m : CplexModel,
    (later.foldl CplexModel.step m).solution = m.solution
  | [], _, _ => rfl
  | .addVar v :: later, h, m => by
    rw [List.foldl_cons, cplex_keeps later (fun f hf => h f (List.mem_cons_of_mem _ hf))]
    rfl
  | .optimize none :: later, h, m => by
    rw [List.foldl_cons, cplex_keeps later (fun f hf => h f (List.mem_cons_of_mem _ hf))]
    rfl
  | .optimize (some f) :: later, h, _ => absurd List.mem_cons_self (h f)

theorem lookup_map_self (f : Nat → Rat) (v : Nat) : ∀ l : List Nat,
    (l.map (fun v => (v, f v))).lookup v = if v ∈ l then some (f v) else none
  | [] => rfl
  | x :: l => by
    rw [List.map_cons, List.lookup_cons, lookup_map_self f v l]
    by_cases h : v = x
    · subst h; simp
    · have : (v == x) = false := by rw [beq_eq_false_iff_ne]; exact h
      rw [this]
      simp [h]

/-- **C63.** Over cplex, after any history of adding variables and optimizing: `get_solution_value` gives the value that the last
successful `optimize` found for the variable, and raises for a variable added since; if no `optimize` has succeeded, it raises. -/
theorem cplex_value (before later : List MipOp) (hl : ∀ f, MipOp.optimize (some f) ∉ later) (f : Nat → Rat) (v : Nat) :
    ((before ++ MipOp.optimize (some f) :: later).foldl CplexModel.step .init).value v =
      (if v ∈ added before then some (f v) else none) ∧
    (later.foldl CplexModel.step .init).value v = none := by
  constructor
  · unfold CplexModel.value
    rw [List.foldl_append, List.foldl_cons, cplex_keeps later hl]
    change ((((before.foldl CplexModel.step .init).columns).map (fun v => (v, f v))).lookup v) = _
    rw [cplex_columns, lookup_map_self]
    rfl
  · unfold CplexModel.value
    rw [cplex_keeps later hl]
    rfl

example : (([MipOp.addVar 4, .addVar 7, .optimize (some (fun v => (v : Rat))), .addVar 9, .optimize none]).foldl
    CplexModel.step .init).value 7 = some 7 :=
  (cplex_value [.addVar 4, .addVar 7] [.addVar 9, .optimize none] (by simp) _ 7).1

/-- **C63, a finding.** Over cplex, `get_solution_value` after a failed `optimize` gives the value of an earlier solution. -/
theorem cplex_stale : ∃ ops : List MipOp, ∃ v, ((ops ++ [MipOp.optimize none]).foldl CplexModel.step .init).value v ≠ none ∧
    ((ops ++ [MipOp.optimize none]).foldl XpressModel.step .init).value v = none :=
  ⟨[.addVar 0, .optimize (some (fun _ => 3))], 0, by decide, by decide⟩

example : (([MipOp.addVar 4, .addVar 7, .optimize (some (fun v => (v : Rat))), .addVar 9]).foldl XpressModel.step .init).value 7 =
    some 7 := by decide

end Ticdat

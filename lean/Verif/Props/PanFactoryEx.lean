import Verif.Props.PanEdit
/-!
# C69: `set_default_values` of the two classes; cases and findings
-/
set_option linter.unusedSectionVars false
set_option linter.unusedSimpArgs false
namespace Ticdat
open Spec PyDict
variable {V K : Type}

/-! ### `set_default_values` -/

theorem foldl_set_same {A B : Type} [DecidableEq A] (v : List (A × B)) (r1 r2 : PyDict A B) (h : SameDict r1 r2) :
    SameDict (v.foldl (fun d p => PyDict.set d p.1 p.2) r1) (v.foldl (fun d p => PyDict.set d p.1 p.2) r2) := by
  induction v generalizing r1 r2 with
  | nil => exact h
  | cons p v ih =>
    refine ih _ _ ?_
    intro k
    rw [get?_set, get?_set, h k]

theorem get2_foldl_row {A B C : Type} [DecidableEq A] [DecidableEq B] (t : A) (v : List (B × C)) (d : PyDict A (PyDict B C))
    (a : A) (b : B) :
    get2 (v.foldl (fun d p => set2 d t p.1 p.2) d) a b =
      if t = a then get? (v.foldl (fun r p => PyDict.set r p.1 p.2) ((get? d t).getD [])) b else get2 d a b := by
  induction v generalizing d with
  | nil =>
    simp only [List.foldl_nil]
    split
    · rename_i e
      subst e
      unfold get2
      cases get? d t <;> rfl
    · rfl
  | cons p v ih =>
    simp only [List.foldl_cons]
    rw [ih]
    split
    · have : get? (set2 d t p.1 p.2) t = some (((get? d t).getD []).set p.1 p.2) := by
        unfold set2
        rw [get?_set, if_pos rfl]
      rw [this]
      rfl
    · rename_i e
      rw [get2_set2, if_neg (fun h => e h.1)]

theorem panDefaultsRow_eq (t : String) (v : List (String × Cell)) (f : Factory V K) (hu : f.used = false)
    (hf : ∀ p ∈ v, f.hasField t p.1 = true) :
    ((∀ p ∈ v, acceptableDefault p.2 = true) → Factory.panDefaultsRow t v f =
      ({ f with defaults := v.foldl (fun d p => set2 d t p.1 p.2) f.defaults }, false)) ∧
    ((¬ ∀ p ∈ v, acceptableDefault p.2 = true) → (Factory.panDefaultsRow t v f).2 = true) := by
  induction v generalizing f with
  | nil =>
    refine ⟨fun _ => rfl, fun h => absurd (fun p hp => absurd hp List.not_mem_nil) h⟩
  | cons p v ih =>
    obtain ⟨x, c⟩ := p
    have hx := hf (x, c) List.mem_cons_self
    by_cases ha : acceptableDefault c = true
    · have e : f.setDefault t x c = some { f with defaults := set2 f.defaults t x c } := by
        simp only [Factory.setDefault, hu, hx, ha, Bool.not_false, Bool.and_self, if_true]
      have ih' := ih { f with defaults := set2 f.defaults t x c } hu (fun p hp => hf p (List.mem_cons_of_mem _ hp))
      simp only [Factory.panDefaultsRow, e]
      refine ⟨fun h => ?_, fun h => ?_⟩
      · rw [ih'.1 (fun p hp => h p (List.mem_cons_of_mem _ hp))]
        rfl
      · refine ih'.2 (fun hh => h ?_)
        intro p hp
        rcases List.mem_cons.1 hp with rfl | hp
        · exact ha
        · exact hh p hp
    · have e : f.setDefault t x c = none := by
        simp only [Factory.setDefault]
        rw [if_neg]
        simp [ha]
      simp only [Factory.panDefaultsRow, e]
      exact ⟨fun h => absurd (h (x, c) List.mem_cons_self) ha, fun _ => by trivial⟩

theorem hasField_of_keys {f : Factory V K} {t : String} {v : PyDict String Cell} (h : f.panGoodDefaults t v = true) :
    ∀ p ∈ v, f.hasField t p.1 = true := by
  intro p hp
  unfold Factory.panGoodDefaults at h
  split at h
  · rename_i pks dfs hg
    rw [List.all_eq_true] at h
    have := h p.1 (List.mem_map.2 ⟨p, hp, rfl⟩)
    rw [decide_eq_true_eq, List.mem_append] at this
    unfold Factory.hasField
    rw [hg]
    simp only [decide_eq_true_eq, List.mem_append]
    exact this.symm
  · simp at h

theorem goodDefaults_split (f : Factory V K) (t : String) (v : PyDict String Cell) :
    f.goodDefaults t v = (f.panGoodDefaults t v && v.all (fun p => acceptableDefault p.2)) := by
  unfold Factory.goodDefaults Factory.panGoodDefaults
  cases hg : get? f.tables t with
  | none => rfl
  | some d =>
    cases d with
    | generic => rfl
    | fields pks dfs =>
      simp only
      congr 2
      funext x
      simp [or_comm]

theorem defaults_loops (l : List (String × PyDict String Cell)) (f g : Factory V K) (hu : f.used = false)
    (hs : g = { f with defaults := g.defaults }) (hd : SameDict2 f.defaults g.defaults) :
    (Factory.panDefaultsLoop l f).2 = (Factory.setDefaultsLoop l g).2 ∧
      ((Factory.setDefaultsLoop l g).2 = false →
        (Factory.setDefaultsLoop l g).1 = { (Factory.panDefaultsLoop l f).1 with defaults := (Factory.setDefaultsLoop l g).1.defaults } ∧
        SameDict2 (Factory.panDefaultsLoop l f).1.defaults (Factory.setDefaultsLoop l g).1.defaults) := by
  induction l generalizing f g with
  | nil => exact ⟨rfl, fun _ => ⟨hs, hd⟩⟩
  | cons p l ih =>
    obtain ⟨t, v⟩ := p
    rw [Factory.panDefaultsLoop, Factory.setDefaultsLoop]
    have eg : g.goodDefaults t v = f.goodDefaults t v := by rw [hs]; rfl
    rw [eg, goodDefaults_split]
    cases hp : f.panGoodDefaults t v with
    | false => simp
    | true =>
      have hr := panDefaultsRow_eq t v f hu (hasField_of_keys hp)
      simp only [if_true, Bool.true_and]
      by_cases ha : ∀ p ∈ v, acceptableDefault p.2 = true
      · rw [hr.1 ha, if_pos (List.all_eq_true.2 ha)]
        simp only
        refine ih _ _ hu ?_ ?_
        · rw [hs]
        · intro a b
          simp only
          rw [get2_foldl_row]
          have hrow : SameDict ((get? f.defaults t).getD []) ((get? g.defaults t).getD []) := by
            intro k
            have := hd t k
            unfold get2 at this
            generalize get? f.defaults t = a1 at this ⊢
            generalize get? g.defaults t = a2 at this ⊢
            cases a1 <;> cases a2 <;> exact this
          have hfold := foldl_set_same v _ _ hrow b
          by_cases e : t = a
          · subst e
            rw [if_pos rfl, hfold]
            unfold get2
            rw [get?_set, if_pos rfl]
            rfl
          · rw [if_neg e, hd a b]
            unfold get2
            rw [get?_set, if_neg e]
      · rw [if_neg (fun hh => ha (List.all_eq_true.1 hh))]
        have h2 := hr.2 ha
        have e2 : (match Factory.panDefaultsRow t v f with
          | (g, false) => Factory.panDefaultsLoop l g
          | (g, true) => (g, true)).2 = true := by
          cases hrow : Factory.panDefaultsRow t v f with
          | mk g' b =>
            rw [hrow] at h2
            simp only at h2
            subst h2
            rfl
        refine ⟨e2, ?_⟩
        simp

/-- **C69.**  `set_default_values` of the two classes: on factories in the same state it raises for both or for neither, and
if it does not raise it leaves both with the same default values and everything else as it was. -/
theorem set_defaults_agree (f : Factory V K) (l : PyDict String (PyDict String Cell)) :
    (f.panSetDefaults l).2 = (f.setDefaults l).2 ∧
      ((f.setDefaults l).2 = false →
        (f.setDefaults l).1 = { (f.panSetDefaults l).1 with defaults := (f.setDefaults l).1.defaults } ∧
        SameDict2 (f.panSetDefaults l).1.defaults (f.setDefaults l).1.defaults) := by
  unfold Factory.panSetDefaults Factory.setDefaults
  cases hu : f.used with
  | true => simp
  | false =>
    simp only [Bool.false_eq_true, if_false]
    exact defaults_loops l f f hu rfl (fun _ _ => rfl)

/-! ### Examples -/

def pfOps : List (FOp Nat Nat) :=
  [.addFK "links" "foods" [("source", "name")], .setDataType "links" "cap" exArgs, .setDefaults [("foods", [("cost", .none)])],
   .addParam (.str "p") (.num (.fin 3)) (some exArgs), .addParam (.str "q") (.str "x") none, .setTooltip "foods" "" "eat",
   .setFlag (.num (.fin 1000)), .addRowPred ⟨"foods", some (.str "good"), some ⟨fun _ _ => .raised "no", none, false⟩⟩,
   .addRowPred ⟨"links", some (.str "made"), some ⟨fun _ _ => .raised "no", some 4, false⟩⟩, .use]

def pfFactory : Factory Nat Nat := clFactory0.applyPanAll exEnv pfOps

theorem pfFactory_reachable : PanReachable exEnv pfFactory := ⟨clTables, clFactory0, pfOps, by decide +kernel, clFactory0_new, rfl⟩

theorem pfFactory_plain : NoGeneric pfFactory := by
  intro t h
  have : ∀ p ∈ pfFactory.tables, p.2 ≠ .generic := by decide +kernel
  exact this _ (get?_mem h) rfl

theorem pfFactory_expressible : Expressible exEnv pfFactory := ⟨by decide +kernel, by decide +kernel, by decide +kernel⟩

theorem pfFactory_canClone (dst : FKind) (convert : Bool) : CanClone exEnv .pan dst convert pfFactory := by
  refine ⟨pfFactory_expressible, fun h => by simp at h, fun _ t n p hg _ => ?_⟩
  have hm : ∀ q ∈ flat pfFactory.preds, q.1 = "foods" ∨ q.1 = "links" := by
    have e : (flat pfFactory.preds).map Prod.fst = ["foods", "links"] := rfl
    intro q hq
    have := List.mem_map_of_mem (f := Prod.fst) hq
    rw [e] at this
    simpa using this
  have h1 := hm (t, n, p) ((mem_flat (editOk_of pfFactory_reachable).dict t n p).2 hg)
  have e1 : get? pfFactory.tables "foods" = some (.fields ["name"] ["cost"]) := by decide +kernel
  have e2 : get? pfFactory.tables "links" = some (.fields ["source", "dest"] ["cap", "kind"]) := by decide +kernel
  have e3 : pfFactory.generators = [] := by decide +kernel
  rw [e3]
  refine ⟨?_, List.not_mem_nil⟩
  rcases h1 with h1 | h1 <;> simp only at h1 <;> subst h1
  · exact ⟨_, _, e1⟩
  · exact ⟨_, _, e2⟩

/-- A used `PanDatFactory` with foreign keys, types, parameters, a tooltip and two data row predicates, one of them with a
maker, meets the conditions of the theorems, and the clones exist. -/
example : PanReachable exEnv pfFactory ∧ pfFactory.used = true ∧ PlainParams exEnv pfFactory ∧ pfFactory.fks ≠ [] ∧
    pfFactory.params.length = 2 ∧ pfFactory.types ≠ [] ∧
    (∀ dst convert, CanClone exEnv .pan dst convert pfFactory) ∧ CanRemove exEnv pfFactory "links" "source" ∧
    CanRename exEnv pfFactory "links" "source" "Origin" ∧ CanAdd exEnv pfFactory "links" "unit" .data 1 ∧
    CanAddTable exEnv pfFactory "extra" ["a"] ["b"] := by
  have hg : NoGeneratorPreds pfFactory := by
    intro t n p _
    have : pfFactory.generators = [] := by decide +kernel
    rw [this]
    simp
  have hfields : ∀ x, HasField pfFactory.tables "links" x → x ∈ ["source", "dest", "cap", "kind"] := by
    rintro x ⟨pks, dfs, h1, h2⟩
    have e : get? pfFactory.tables "links" = some (.fields ["source", "dest"] ["cap", "kind"]) := by decide +kernel
    rw [e] at h1
    simp only [Option.some.injEq, Decl.fields.injEq] at h1
    obtain ⟨rfl, rfl⟩ := h1
    simpa using h2
  have hrem : CanRemove exEnv pfFactory "links" "source" :=
    ⟨pfFactory_expressible, pfFactory_plain, hg, ⟨["source", "dest"], ["cap", "kind"], by decide +kernel, by simp⟩,
      ⟨"cap", by decide, ["source", "dest"], ["cap", "kind"], by decide +kernel, by simp⟩, fun _ => by decide⟩
  refine ⟨pfFactory_reachable, by decide +kernel, (expressible_pan pfFactory_reachable).1 pfFactory_expressible,
    by decide +kernel, by decide +kernel, by decide +kernel, pfFactory_canClone, hrem, ⟨hrem, ?_, by decide, by decide, by decide⟩,
    ⟨pfFactory_expressible, pfFactory_plain, hg, ⟨["source", "dest"], ["cap", "kind"], by decide +kernel, by decide⟩, ?_,
      fun _ => by decide, ?_⟩,
    ⟨pfFactory_expressible, pfFactory_plain, hg, by decide +kernel, by decide +kernel, by decide +kernel, by decide +kernel⟩⟩
  · intro x _ hx
    have := hfields x hx
    simp only [List.mem_cons, List.not_mem_nil, or_false] at this
    rcases this with rfl | rfl | rfl | rfl <;> decide +kernel
  · intro x hx
    have := hfields x hx
    simp only [List.mem_cons, List.not_mem_nil, or_false] at this
    rcases this with rfl | rfl | rfl | rfl <;> decide +kernel
  · simp

/-- The predicate with a maker is dropped in a `TicDatFactory` clone without `convert_dat`, and kept with it. -/
example : ((pfFactory.cloneTo exEnv .pan .tic none false).map (fun g => (flat g.preds).map Prod.fst)) = some ["foods"] ∧
    ((pfFactory.cloneTo exEnv .pan .tic none true).map (fun g => (flat g.preds).map Prod.fst)) = some ["foods", "links"] ∧
    ((pfFactory.cloneTo exEnv .pan .pan none false).map (fun g => (flat g.preds).map Prod.fst)) = some ["foods", "links"] := by
  decide +kernel

/-- Two tables and three values, all of them taken: the case of `set_defaults_agree` in which nothing is raised. -/
example : (clFactory0.setDefaults [("foods", [("cost", .none)]), ("links", [("cap", .num (.fin 2)), ("kind", .str "k")])]).2 = false := by
  decide +kernel

/-! ### Findings -/

/-- **Finding (C69).**  A `TicDatFactory` with enabled foreign key links cannot be cloned to a `PanDatFactory`. -/
theorem links_block_pan_clone : Reachable exEnv clFactory ∧ (∃ g, clFactory.cloneTo exEnv .tic .tic none false = some g) ∧
    clFactory.cloneTo exEnv .tic .pan none false = none := by
  have hc := clone_between exEnv .tic .tic false clFactory clFactory_reachable
  have hp := clone_between exEnv .tic .pan false clFactory clFactory_reachable
  refine ⟨clFactory_reachable, ?_, hp.2 ?_⟩
  · have hcan : CanClone exEnv .tic .tic false clFactory := by
      refine ⟨clFactory_expressible, fun _ h => by simp at h, fun _ t n p hg _ => ?_⟩
      have hn : get2 clFactory.preds t n = none := rfl
      rw [hn] at hg
      cases hg
    obtain ⟨g, h, _⟩ := hc.1 hcan
    exact ⟨g, h⟩
  · intro h
    have := h.links rfl rfl
    exact absurd this (by decide +kernel)

def gpTables : PyDict String Decl := [("notes", .generic), ("foods", .fields ["name"] ["cost"])]

def gpFactory0 : Factory Nat Nat :=
  { tables := gpTables, defaults := zeroDefaults gpTables, types := [], preds := [], tooltips := [], generators := [],
    fks := [], links := false, params := [], flag := .na, prune := true, dups := .assert, automunge := true, used := false }

def gpCall : FOp Nat Nat := .addRowPred ⟨"notes", none, some ⟨fun _ _ => .raised "no", none, false⟩⟩

theorem gpFactory0_new : newFactory exEnv gpTables = some gpFactory0 := by
  unfold newFactory
  rw [if_pos (by decide +kernel)]
  rfl

/-- **Finding (C69).**  A `PanDatFactory` takes a data row predicate on a generic table, a `TicDatFactory` does not; with
one, the clone to a `TicDatFactory` raises. -/
theorem generic_pred_blocks_tic_clone : ∃ f : Factory Nat Nat, PanReachable exEnv f ∧ (gpFactory0.applyPan exEnv gpCall) = (f, false) ∧
    (gpFactory0.apply exEnv gpCall).2 = true ∧ (f.cloneTo exEnv .pan .pan none false).isSome = true ∧
    f.cloneTo exEnv .pan .tic none false = none := by
  have hr : PanReachable exEnv (gpFactory0.applyPan exEnv gpCall).1 :=
    ⟨gpTables, gpFactory0, [gpCall], by decide +kernel, gpFactory0_new, rfl⟩
  refine ⟨_, hr, rfl, by decide +kernel, by decide +kernel, ?_⟩
  refine (clone_between exEnv .pan .tic false _ hr).2 ?_
  intro h
  obtain ⟨⟨pks, dfs, e⟩, _⟩ := h.preds rfl "notes" (.num 0) ⟨fun _ _ => .raised "no", none, false⟩ rfl (.inr (.inr rfl))
  have e2 : get? (gpFactory0.applyPan exEnv gpCall).1.tables "notes" = some .generic := by decide +kernel
  rw [e2] at e
  cases e

/-- **Finding (C69).**  When `set_default_values` meets an unacceptable value, a `PanDatFactory` has already taken the values
before it in the same table, a `TicDatFactory` none of that table. -/
theorem half_applied_defaults :
    let l : PyDict String (PyDict String Cell) := [("links", [("cap", .num (.fin 2)), ("kind", .other 0)])]
    (clFactory0.panSetDefaults l).2 = true ∧ (clFactory0.setDefaults l).2 = true ∧
    get2 (clFactory0.panSetDefaults l).1.defaults "links" "cap" = some (.num (.fin 2)) ∧
    (clFactory0.setDefaults l).1.defaults = clFactory0.defaults := by
  refine ⟨by decide +kernel, by decide +kernel, by decide +kernel, by decide +kernel⟩

end Ticdat

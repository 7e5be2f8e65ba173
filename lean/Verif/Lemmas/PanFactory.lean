import Verif.Spec.PanFactory
import Verif.Props.CloneTables
import Verif.Props.CloneRename
import Verif.Props.Used
/-!
# Lemmas on `PanDatFactory` states (C69)
-/
set_option linter.unusedSectionVars false
set_option linter.unusedSimpArgs false
namespace Ticdat
open Spec PyDict
variable {V K : Type}

/-- The factory with other data row predicates. -/
def Factory.withPreds (f : Factory V K) (P : Preds V K) : Factory V K := { f with preds := P }

/-- The factory without data row predicates. -/
def Factory.bare (f : Factory V K) : Factory V K := { f with preds := [] }

theorem wp_setDataType (f : Factory V K) (P : Preds V K) (t x : String) (a : TypeArgs) :
    (f.withPreds P).setDataType t x a = (f.setDataType t x a).map (fun g => g.withPreds P) := by
  unfold Factory.setDataType
  split
  · rename_i h
    rw [if_pos (by exact h)]
    cases TypeDict.safeCreator a <;> rfl
  · rename_i h
    rw [if_neg (by exact h)]
    rfl

theorem wp_clearDataType (f : Factory V K) (P : Preds V K) (t x : String) :
    (f.withPreds P).clearDataType t x = (f.clearDataType t x).map (fun g => g.withPreds P) := by
  unfold Factory.clearDataType
  have e : (f.withPreds P).types = f.types := rfl
  have e2 : (f.withPreds P).used = f.used := rfl
  rw [e, e2]
  cases get? f.types t with
  | none => rfl
  | some r =>
    simp only
    split
    · split <;> rfl
    · rfl

theorem wp_setDefault (f : Factory V K) (P : Preds V K) (t x : String) (c : Cell) :
    (f.withPreds P).setDefault t x c = (f.setDefault t x c).map (fun g => g.withPreds P) := by
  unfold Factory.setDefault
  split
  · rename_i h
    rw [if_pos (by exact h)]
    rfl
  · rename_i h
    rw [if_neg (by exact h)]
    rfl

theorem wp_addFK (f : Factory V K) (P : Preds V K) (n m : String) (mp : List (String × String)) :
    (f.withPreds P).addFK n m mp = (f.addFK n m mp).map (fun g => g.withPreds P) := by
  unfold Factory.addFK
  have e : (f.withPreds P).tables = f.tables := rfl
  have e2 : (f.withPreds P).used = f.used := rfl
  rw [e, e2]
  split
  · rfl
  · split
    · split <;> rfl
    · rfl

theorem wp_clearFKs (f : Factory V K) (P : Preds V K) (n : Option String) :
    (f.withPreds P).clearFKs n = (f.clearFKs n).map (fun g => g.withPreds P) := by
  unfold Factory.clearFKs
  have e : (f.withPreds P).tables = f.tables := rfl
  have e2 : (f.withPreds P).used = f.used := rfl
  rw [e, e2]
  split
  · rfl
  · split
    · rfl
    · split <;> rfl

theorem wp_addParam (env : FactoryEnv) (f : Factory V K) (P : Preds V K) (n d : Cell) (a : Option TypeArgs) :
    (f.withPreds P).addParam env n d a = (f.addParam env n d a).map (fun g => g.withPreds P) := by
  unfold Factory.addParam
  have e : (f.withPreds P).tables = f.tables := rfl
  have e2 : (f.withPreds P).used = f.used := rfl
  have e3 : (f.withPreds P).types = f.types := rfl
  have e4 : (f.withPreds P).params = f.params := rfl
  rw [e, e2, e3, e4]
  split
  · split
    · rfl
    · cases addParameter env.text f.params n d a <;> rfl
  · rfl

theorem wp_removeParam (f : Factory V K) (P : Preds V K) (n : Cell) :
    (f.withPreds P).removeParam n = (f.removeParam n).map (fun g => g.withPreds P) := by
  unfold Factory.removeParam
  have e4 : (f.withPreds P).params = f.params := rfl
  rw [e4]
  split <;> rfl

theorem wp_setTooltip (f : Factory V K) (P : Preds V K) (t x tip : String) :
    (f.withPreds P).setTooltip t x tip = (f.setTooltip t x tip).map (fun g => g.withPreds P) := by
  unfold Factory.setTooltip
  have e : (has (f.withPreds P).tables t && (decide (x = "") || (f.withPreds P).hasField t x)) =
      (has f.tables t && (decide (x = "") || f.hasField t x)) := rfl
  rw [e]
  cases (has f.tables t && (decide (x = "") || f.hasField t x)) <;> rfl

theorem wp_tryOp (f : Factory V K) (P : Preds V K) (o : Option (Factory V K)) :
    (f.withPreds P).tryOp (o.map (fun g => g.withPreds P)) = ((f.tryOp o).1.withPreds P, (f.tryOp o).2) := by
  cases o <;> rfl

/-- The calls that both classes have with the same text. -/
def SharedCall : FOp V K → Prop
  | .setDefaults _ => False
  | .addImplied => False
  | .setGenerators _ => False
  | .addRowPred _ => False
  | .enableLinks => False
  | _ => True

theorem shared_apply (env : FactoryEnv) (f : Factory V K) (op : FOp V K) (h : SharedCall op) :
    f.applyPan env op = f.apply env op := by
  cases op <;> first | rfl | exact absurd h id

theorem wp_apply (env : FactoryEnv) (f : Factory V K) (P : Preds V K) (op : FOp V K) (h : SharedCall op) :
    (f.withPreds P).apply env op = ((f.apply env op).1.withPreds P, (f.apply env op).2) := by
  have e : ∀ (A : Type) (o : Option A) (k : Factory V K → A → Factory V K)
      (_ : ∀ x, k (f.withPreds P) x = (k f x).withPreds P),
      o.map (fun x => k (f.withPreds P) x) = (o.map (fun x => k f x)).map (fun g => g.withPreds P) := by
    intro A o k hk
    cases o with
    | none => rfl
    | some x => simp only [Option.map_some, hk]
  cases op with
  | setDataType t x a => simp only [Factory.apply]; rw [wp_setDataType, wp_tryOp]
  | clearDataType t x => simp only [Factory.apply]; rw [wp_clearDataType, wp_tryOp]
  | setDefault t x c => simp only [Factory.apply]; rw [wp_setDefault, wp_tryOp]
  | setDefaults l => exact absurd h id
  | addFK n m mp => simp only [Factory.apply]; rw [wp_addFK, wp_tryOp]
  | clearFKs n => simp only [Factory.apply]; rw [wp_clearFKs, wp_tryOp]
  | addImplied => exact absurd h id
  | addParam n d a => simp only [Factory.apply]; rw [wp_addParam, wp_tryOp]
  | removeParam n => simp only [Factory.apply]; rw [wp_removeParam, wp_tryOp]
  | setGenerators g => exact absurd h id
  | setTooltip t x tip => simp only [Factory.apply]; rw [wp_setTooltip, wp_tryOp]
  | addRowPred c => exact absurd h id
  | setFlag c =>
    simp only [Factory.apply]
    rw [← wp_tryOp]
    congr 1
    exact e _ (setInfFlag c) (fun f x => { f with flag := x }) (fun _ => rfl)
  | setTrailing s =>
    simp only [Factory.apply]
    rw [← wp_tryOp]
    congr 1
    exact e _ (parseTrailing s) (fun f x => { f with prune := x }) (fun _ => rfl)
  | setDups s =>
    simp only [Factory.apply]
    rw [← wp_tryOp]
    congr 1
    exact e _ (parseDups s) (fun f x => { f with dups := x }) (fun _ => rfl)
  | setAutomunge b => rfl
  | enableLinks => exact absurd h id
  | use => rfl

/-- What every state of a `PanDatFactory` satisfies. -/
structure PInv (env : FactoryEnv) (f : Factory V K) : Prop where
  bare : Reachable env f.bare
  generators : f.generators = []
  links : f.links = false
  preds_dict : IsDict2 f.preds
  preds : ∀ t n p, get2 f.preds t n = some p → has f.tables t = true
  fks : ∀ k ∈ f.fks, k.mapping ≠ []

theorem ofList_ne_nil {A B : Type} [DecidableEq A] (l : List (A × B)) (h : l ≠ []) : PyDict.ofList l ≠ [] := by
  obtain ⟨p, hp⟩ := List.exists_mem_of_ne_nil _ h
  intro e
  have : p.1 ∈ keys (PyDict.ofList l) := (keys_ofList_mem l p.1).2 (List.mem_map.2 ⟨p, hp, rfl⟩)
  rw [e] at this
  simp [keys] at this

theorem step_shared {env : FactoryEnv} {f : Factory V K} (hf : PInv env f) (op : FOp V K) (h : SharedCall op)
    (hfk : ∀ k ∈ (f.apply env op).1.fks, k ∈ f.fks ∨ k.mapping ≠ []) (hp : (f.apply env op).1.preds = f.preds)
    (hg : (f.apply env op).1.generators = f.generators) (hl : (f.apply env op).1.links = f.links) :
    PInv env (f.apply env op).1 := by
  have e := wp_apply env f [] op h
  have hne : op ≠ .addImplied := by rintro rfl; exact h
  have hst : FStep env f.bare op (f.apply env op).1.bare (f.apply env op).2 := .plain hne e
  have ht := tables_step env _ _ _ _ hst
  refine ⟨hf.bare.step hst, hg.trans hf.generators, hl.trans hf.links, hp ▸ hf.preds_dict, ?_, ?_⟩
  · intro t n p hh
    rw [hp] at hh
    have := hf.preds t n p hh
    have e2 : (f.apply env op).1.tables = f.tables := ht
    rw [e2]
    exact this
  · intro k hk
    rcases hfk k hk with h1 | h1
    · exact hf.fks k h1
    · exact h1

/-- What a call of a shared setter leaves alone. -/
theorem shared_frame (env : FactoryEnv) (f : Factory V K) (op : FOp V K) (h : SharedCall op) :
    (∀ k ∈ (f.apply env op).1.fks, k ∈ f.fks ∨ k.mapping ≠ []) ∧ (f.apply env op).1.preds = f.preds ∧
      (f.apply env op).1.generators = f.generators ∧ (f.apply env op).1.links = f.links := by
  have tr : ∀ (o : Option (Factory V K)), (∀ g, o = some g → (∀ k ∈ g.fks, k ∈ f.fks ∨ k.mapping ≠ []) ∧ g.preds = f.preds ∧
      g.generators = f.generators ∧ g.links = f.links) →
      (∀ k ∈ (f.tryOp o).1.fks, k ∈ f.fks ∨ k.mapping ≠ []) ∧ (f.tryOp o).1.preds = f.preds ∧
      (f.tryOp o).1.generators = f.generators ∧ (f.tryOp o).1.links = f.links := by
    intro o ho
    cases o with
    | none => exact ⟨fun k hk => .inl hk, rfl, rfl, rfl⟩
    | some g => exact ho g rfl
  cases op with
  | setDefaults l => exact absurd h id
  | addImplied => exact absurd h id
  | setGenerators g => exact absurd h id
  | addRowPred c => exact absurd h id
  | enableLinks => exact absurd h id
  | setAutomunge b => exact ⟨fun k hk => .inl hk, rfl, rfl, rfl⟩
  | use => exact ⟨fun k hk => .inl hk, rfl, rfl, rfl⟩
  | setFlag c =>
    refine tr _ ?_
    intro g e
    obtain ⟨x, _, rfl⟩ := Option.map_eq_some_iff.1 e
    exact ⟨fun k hk => .inl hk, rfl, rfl, rfl⟩
  | setTrailing c =>
    refine tr _ ?_
    intro g e
    obtain ⟨x, _, rfl⟩ := Option.map_eq_some_iff.1 e
    exact ⟨fun k hk => .inl hk, rfl, rfl, rfl⟩
  | setDups c =>
    refine tr _ ?_
    intro g e
    obtain ⟨x, _, rfl⟩ := Option.map_eq_some_iff.1 e
    exact ⟨fun k hk => .inl hk, rfl, rfl, rfl⟩
  | setDataType t fld a =>
    refine tr _ ?_
    intro g e
    unfold Factory.setDataType at e
    split at e
    · obtain ⟨x, _, rfl⟩ := Option.map_eq_some_iff.1 e
      exact ⟨fun k hk => .inl hk, rfl, rfl, rfl⟩
    · simp at e
  | addParam n d a =>
    refine tr _ ?_
    intro g e
    unfold Factory.addParam at e
    split at e
    · split at e
      · simp at e
      · obtain ⟨x, _, rfl⟩ := Option.map_eq_some_iff.1 e
        exact ⟨fun k hk => .inl hk, rfl, rfl, rfl⟩
    · simp at e
  | addFK n m mp =>
    refine tr _ ?_
    intro g e
    unfold Factory.addFK at e
    split at e
    · simp at e
    · split at e
      · split at e
        · rename_i hc
          simp only [Option.some.injEq] at e
          subst e
          refine ⟨fun k hk => ?_, rfl, rfl, rfl⟩
          rcases (mem_setAdd _ _ _).1 hk with h1 | h1
          · exact .inl h1
          · exact .inr (by rw [h1]; exact ofList_ne_nil _ hc.1)
        · simp at e
      · simp at e
  | clearFKs n =>
    refine tr _ ?_
    intro g e
    unfold Factory.clearFKs at e
    split at e
    · simp at e
    · split at e
      · simp only [Option.some.injEq] at e
        subst e
        exact ⟨fun k hk => absurd hk List.not_mem_nil, rfl, rfl, rfl⟩
      · split at e
        · simp only [Option.some.injEq] at e
          subst e
          exact ⟨fun k hk => .inl (List.mem_filter.1 hk).1, rfl, rfl, rfl⟩
        · simp at e
  | _ =>
    refine tr _ ?_
    intro g e
    simp only [Factory.clearDataType, Factory.setDefault, Factory.removeParam, Factory.setTooltip] at e
    repeat' split at e
    all_goals first
      | (simp only [Option.some.injEq] at e; subst e; exact ⟨fun k hk => .inl hk, rfl, rfl, rfl⟩)
      | simp at e

theorem pinv_shared {env : FactoryEnv} {f : Factory V K} (hf : PInv env f) (op : FOp V K) (h : SharedCall op) :
    PInv env (f.apply env op).1 := by
  obtain ⟨h1, h2, h3, h4⟩ := shared_frame env f op h
  exact step_shared hf op h h1 h2 h3 h4

theorem pinv_setDefault {env : FactoryEnv} {f g : Factory V K} (hf : PInv env f) (t x : String) (c : Cell)
    (h : f.setDefault t x c = some g) : PInv env g := by
  have := pinv_shared hf (.setDefault t x c) trivial
  simp only [Factory.apply, h, Factory.tryOp] at this
  exact this

theorem pinv_row {env : FactoryEnv} (t : String) (l : List (String × Cell)) (f : Factory V K) (hf : PInv env f) :
    PInv env (Factory.panDefaultsRow t l f).1 := by
  induction l generalizing f with
  | nil => exact hf
  | cons p l ih =>
    obtain ⟨x, c⟩ := p
    rw [Factory.panDefaultsRow]
    split
    · rename_i g e
      exact ih g (pinv_setDefault hf t x c e)
    · exact hf

theorem pinv_loop {env : FactoryEnv} (l : List (String × PyDict String Cell)) (f : Factory V K) (hf : PInv env f) :
    PInv env (Factory.panDefaultsLoop l f).1 := by
  induction l generalizing f with
  | nil => exact hf
  | cons p l ih =>
    obtain ⟨t, v⟩ := p
    rw [Factory.panDefaultsLoop]
    have hr := pinv_row (env := env) t v f hf
    split
    · split
      · rename_i g e
        rw [e] at hr
        exact ih g hr
      · rename_i g e
        rw [e] at hr
        exact hr
    · exact hf

theorem pinv_step {env : FactoryEnv} {f : Factory V K} (hf : PInv env f) (op : FOp V K) : PInv env (f.applyPan env op).1 := by
  by_cases hs : SharedCall op
  · rw [shared_apply env f op hs]
    exact pinv_shared hf op hs
  · cases op with
    | setDefaults l =>
      simp only [Factory.applyPan, Factory.panSetDefaults]
      split
      · exact hf
      · exact pinv_loop l f hf
    | addImplied => exact hf
    | setGenerators g => exact hf
    | enableLinks => exact hf
    | addRowPred c =>
      simp only [Factory.applyPan, Factory.panAddRowPred]
      split
      · exact hf
      · split
        · rename_i hc
          refine ⟨hf.bare, hf.generators, hf.links, (addPred_inv hf.preds_dict c).1, ?_, hf.fks⟩
          intro t n p hp
          rcases (addPred_inv hf.preds_dict c).2 t n p hp with h1 | h1
          · exact hf.preds t n p h1
          · rw [h1]; exact hc
        · exact hf
    | _ => exact absurd trivial hs

theorem pinv_new {env : FactoryEnv} {tables : PyDict String Decl} {f : Factory V K} (hn : (keys tables).Nodup)
    (h : newFactory env tables = some f) : PInv env f := by
  have e : f.bare = f ∧ f.generators = [] ∧ f.links = false ∧ f.preds = [] ∧ f.fks = [] := by
    unfold newFactory at h
    split at h
    · simp only [Option.some.injEq] at h
      subst h
      exact ⟨rfl, rfl, rfl, rfl, rfl⟩
    · simp at h
  obtain ⟨e1, e2, e3, e4, e5⟩ := e
  refine ⟨?_, e2, e3, ?_, ?_, ?_⟩
  · rw [e1]
    exact ⟨tables, f, [], hn, h, .nil⟩
  · rw [e4]
    exact ⟨List.nodup_nil, fun p hp => absurd hp List.not_mem_nil⟩
  · intro t n p hp
    rw [e4] at hp
    simp [get2, get?] at hp
  · intro k hk
    rw [e5] at hk
    exact absurd hk List.not_mem_nil

theorem pinv_all {env : FactoryEnv} (ops : List (FOp V K)) (f : Factory V K) (hf : PInv env f) :
    PInv env (f.applyPanAll env ops) := by
  induction ops generalizing f with
  | nil => exact hf
  | cons op ops ih => exact ih _ (pinv_step hf op)

theorem pan_inv {env : FactoryEnv} {f : Factory V K} (h : PanReachable env f) : PInv env f := by
  obtain ⟨tables, f0, ops, h1, h2, rfl⟩ := h
  exact pinv_all ops f0 (pinv_new h1 h2)

theorem Spec.PanReachable.step {env : FactoryEnv} {f : Factory V K} (h : PanReachable env f) (op : FOp V K) :
    PanReachable env (f.applyPan env op).1 := by
  obtain ⟨tables, f0, ops, h1, h2, rfl⟩ := h
  refine ⟨tables, f0, ops ++ [op], h1, h2, ?_⟩
  unfold Factory.applyPanAll
  rw [List.foldl_append]
  rfl

/-! ### `clone` -/

/-- `add_data_row_predicate` of the class `dst` accepts the table. -/
def AddOk (dst : FKind) (T : PyDict String Decl) (gens : List String) (t : String) : Prop :=
  match dst with
  | .tic => (∃ pks dfs, get? T t = some (.fields pks dfs)) ∧ t ∉ gens
  | .pan => has T t = true

theorem addAs_ok (dst : FKind) (g : Factory V K) (hu : g.used = false) (t : String) (n : PName) (p : RowPred V K)
    (h : AddOk dst g.tables g.generators t) :
    Factory.addRowPredAs dst g ⟨t, some n, some p⟩ = some { g with preds := set2 g.preds t n p } := by
  cases dst with
  | tic =>
    obtain ⟨⟨pks, dfs, h1⟩, h2⟩ := h
    simp only [Factory.addRowPredAs, Factory.addRowPred, hu, Bool.false_eq_true, if_false, h1, h2, addPred, Option.getD_some]
    rfl
  | pan =>
    have h : has g.tables t = true := h
    simp only [Factory.addRowPredAs, Factory.panAddRowPred, hu, Bool.false_eq_true, if_false, h, if_true, addPred,
      Option.getD_some]
    rfl

theorem addAs_bad (dst : FKind) (g : Factory V K) (c : PredCall V K) (h : ¬ AddOk dst g.tables g.generators c.table) :
    Factory.addRowPredAs dst g c = none := by
  cases dst with
  | tic =>
    simp only [Factory.addRowPredAs, Factory.addRowPred]
    split
    · rfl
    · split
      · split
        · rfl
        · rename_i h1 h2
          exact absurd ⟨⟨_, _, h1⟩, h2⟩ h
      · rfl
  | pan =>
    simp only [Factory.addRowPredAs, Factory.panAddRowPred]
    split
    · rfl
    · split
      · rename_i h1
        exact absurd h1 h
      · rfl

theorem addAs_fold (dst : FKind) (l : List (String × PName × RowPred V K)) (g : Factory V K) (hu : g.used = false)
    (hl : ∀ p ∈ l, AddOk dst g.tables g.generators p.1) :
    l.foldlM (fun g p => Factory.addRowPredAs dst g ⟨p.1, some p.2.1, some p.2.2⟩) g =
      some { g with preds := l.foldl (fun d p => set2 d p.1 p.2.1 p.2.2) g.preds } := by
  induction l generalizing g with
  | nil => rfl
  | cons p l ih =>
    rw [List.foldlM_cons, addAs_ok dst g hu _ _ _ (hl p List.mem_cons_self), Option.bind_eq_bind, Option.bind_some, ih]
    · rfl
    · exact hu
    · intro q hq
      exact hl q (List.mem_cons_of_mem _ hq)

theorem addAs_fold_none (dst : FKind) (l : List (String × PName × RowPred V K)) (g : Factory V K) (hu : g.used = false)
    (hl : ¬ ∀ p ∈ l, AddOk dst g.tables g.generators p.1) :
    l.foldlM (fun g p => Factory.addRowPredAs dst g ⟨p.1, some p.2.1, some p.2.2⟩) g = none := by
  induction l generalizing g with
  | nil => exact absurd (fun p hp => absurd hp List.not_mem_nil) hl
  | cons p l ih =>
    rw [List.foldlM_cons]
    by_cases h : AddOk dst g.tables g.generators p.1
    · rw [addAs_ok dst g hu _ _ _ h, Option.bind_eq_bind, Option.bind_some, ih]
      · exact hu
      · intro hh
        apply hl
        intro q hq
        rcases List.mem_cons.1 hq with rfl | hq
        · exact h
        · exact hh q hq
    · rw [addAs_bad dst g _ h]
      rfl

theorem get?_filter_vals {A B : Type} [DecidableEq A] (k : B → Bool) (d : PyDict A B) (hn : (keys d).Nodup) (n : A) :
    get? (d.filter (fun x => k x.2)) n = (get? d n).filter k := by
  have hn' : (keys (d.filter (fun x => k x.2))).Nodup := (keys_filter_sublist _ _).nodup hn
  apply Option.ext
  intro v
  rw [get?_iff_mem hn', List.mem_filter, Option.filter_eq_some_iff, get?_iff_mem hn]

theorem flat_filter_both {A : Type} [DecidableEq A] {B C : Type} (q : A → Bool) (k : C → Bool) (d : PyDict A (PyDict B C)) :
    (flat d).filter (fun p => q p.1 && k p.2.2) =
      flat ((d.filter (fun p => q p.1)).map (fun p => (p.1, p.2.filter (fun x => k x.2)))) := by
  have : (fun p : A × B × C => q p.1 && k p.2.2) = (fun p => (fun p : A × B × C => k p.2.2) p && (fun p : A × B × C => q p.1) p) := by
    funext p
    exact Bool.and_comm _ _
  rw [this, ← List.filter_filter, filter_flat]
  unfold flat
  rw [List.filter_flatMap, List.flatMap_map]
  congr 1
  funext p
  rw [List.filter_map]
  rfl

/-- The data row predicates that `clone` hands to the new factory. -/
def keptPreds (f : Factory V K) (q : String → Bool) (k : RowPred V K → Bool) : Preds V K :=
  (f.preds.filter (fun p => q p.1)).map (fun p => (p.1, p.2.filter (fun x => k x.2)))

theorem keptPreds_dict {f : Factory V K} (hd : IsDict2 f.preds) (q : String → Bool) (k : RowPred V K → Bool) :
    IsDict2 (keptPreds f q k) := by
  refine ⟨?_, ?_⟩
  · unfold keptPreds
    rw [keys_map_val (fun (_ : String) (r : PyDict PName (RowPred V K)) => (List.filter (fun x => k x.2) r : PyDict PName (RowPred V K)))
      (f.preds.filter (fun p => q p.1))]
    exact (keys_filter_sublist _ _).nodup hd.1
  · intro p hp
    obtain ⟨x, hx, rfl⟩ := List.mem_map.1 hp
    exact (keys_filter_sublist _ _).nodup (hd.2 x (List.mem_filter.1 hx).1)

theorem keptPreds_get2 {f : Factory V K} (hd : IsDict2 f.preds) (q : String → Bool) (k : RowPred V K → Bool) (t : String)
    (n : PName) (p : RowPred V K) :
    get2 (keptPreds f q k) t n = some p ↔ get2 f.preds t n = some p ∧ q t = true ∧ k p = true := by
  unfold get2 keptPreds
  rw [get?_map_val (fun (_ : String) (r : PyDict PName (RowPred V K)) => (List.filter (fun x => k x.2) r : PyDict PName (RowPred V K)))
    (f.preds.filter (fun p => q p.1)), get?_filter_key]
  cases hq : q t with
  | false => simp
  | true =>
    simp only [if_true, true_and]
    cases hg : get? f.preds t with
    | none => simp
    | some r =>
      simp only [Option.map_some, Option.bind_some]
      rw [get?_filter_vals k r (hd.2 _ (get?_mem hg)), Option.filter_eq_some_iff]

/-- The generator tables of a clone. -/
def cloneGens (src dst : FKind) (f g : Factory V K) : List String :=
  match src, dst with
  | .tic, .tic => f.generators
  | _, _ => g.generators

/-- The foreign key links of a clone. -/
def cloneLink (src dst : FKind) (f g : Factory V K) : Bool :=
  match src, dst with
  | .tic, .tic => g.links || f.links
  | _, _ => g.links

theorem cloneAs_some {src dst : FKind} {f g0 : Factory V K} {restr : Option (List String)} {drop : Bool}
    {make : FullSchema → Option (Factory V K)}
    (hm : (restr.elim (some f.schema) (fun ts => restrictSchema f.schema ts [])).bind make = some g0)
    (hu : g0.used = false) (hd : IsDict2 f.preds)
    (hg : src = .tic → dst = .tic → ∀ t ∈ f.generators, g0.pkless t = true)
    (hp : ∀ t n p, get2 f.preds t n = some p → restr.elim true (fun ts => decide (t ∈ ts)) = true →
      (!(drop && p.maker.isSome)) = true → AddOk dst g0.tables (cloneGens src dst f g0) t)
    (hl : src = .tic → dst = .pan → f.links = false) :
    f.cloneAs src dst restr drop make = some { g0 with
      generators := cloneGens src dst f g0, links := cloneLink src dst f g0,
      preds := (flat (keptPreds f (fun t => restr.elim true (fun ts => decide (t ∈ ts)))
        (fun p => !(drop && p.maker.isSome)))).foldl (fun d p => set2 d p.1 p.2.1 p.2.2) g0.preds } := by
  have e1 : Factory.cloneGenerators src dst f.generators g0 = some { g0 with generators := cloneGens src dst f g0 } := by
    cases src <;> cases dst <;> try rfl
    simp only [Factory.cloneGenerators, Factory.setGenerators, hu, Bool.false_eq_true, if_false]
    rw [if_pos (List.all_eq_true.2 (hg rfl rfl))]
    rfl
  have e2 := addAs_fold dst (flat (keptPreds f (fun t => restr.elim true (fun ts => decide (t ∈ ts)))
        (fun p => !(drop && p.maker.isSome)))) { g0 with generators := cloneGens src dst f g0 } hu (by
    rintro ⟨t, n, p⟩ hx
    rw [mem_flat (keptPreds_dict hd _ _), keptPreds_get2 hd] at hx
    exact hp t n p hx.1 hx.2.1 hx.2.2)
  unfold Factory.cloneAs
  simp only [Option.bind_eq_bind]
  rw [← Option.bind_assoc, hm, Option.bind_some, e1, Option.bind_some]
  have e3 := flat_filter_both (fun t => restr.elim true (fun ts => decide (t ∈ ts)))
    (fun p : RowPred V K => !(drop && p.maker.isSome)) f.preds
  rw [e3]
  unfold keptPreds at e2
  rw [e2, Option.bind_some]
  cases src <;> cases dst
  · simp only [Factory.cloneLinks, cloneLink]
    cases f.links <;> simp [keptPreds]
  · simp only [Factory.cloneLinks, hl rfl rfl]
    rfl
  · rfl
  · rfl

theorem cloneAs_none_pred {src dst : FKind} {f g0 : Factory V K} {restr : Option (List String)} {drop : Bool}
    {make : FullSchema → Option (Factory V K)}
    (hm : (restr.elim (some f.schema) (fun ts => restrictSchema f.schema ts [])).bind make = some g0)
    (hu : g0.used = false) (hd : IsDict2 f.preds)
    (hp : ¬ ∀ t n p, get2 f.preds t n = some p → restr.elim true (fun ts => decide (t ∈ ts)) = true →
      (!(drop && p.maker.isSome)) = true → AddOk dst g0.tables (cloneGens src dst f g0) t) :
    f.cloneAs src dst restr drop make = none := by
  have e2 := addAs_fold_none dst (flat (keptPreds f (fun t => restr.elim true (fun ts => decide (t ∈ ts)))
        (fun p => !(drop && p.maker.isSome)))) { g0 with generators := cloneGens src dst f g0 } hu (by
    intro hx
    apply hp
    intro t n p h1 h2 h3
    exact hx (t, n, p) ((mem_flat (keptPreds_dict hd _ _) _ _ _).2 ((keptPreds_get2 hd _ _ _ _ _).2 ⟨h1, h2, h3⟩)))
  have e3 := flat_filter_both (fun t => restr.elim true (fun ts => decide (t ∈ ts)))
    (fun p : RowPred V K => !(drop && p.maker.isSome)) f.preds
  unfold Factory.cloneAs
  simp only [Option.bind_eq_bind]
  rw [← Option.bind_assoc, hm, Option.bind_some]
  have e1 : Factory.cloneGenerators src dst f.generators g0 = none ∨
      Factory.cloneGenerators src dst f.generators g0 = some { g0 with generators := cloneGens src dst f g0 } := by
    cases src <;> cases dst <;> try exact .inr rfl
    simp only [Factory.cloneGenerators, Factory.setGenerators, hu, Bool.false_eq_true, if_false]
    split
    · exact .inr rfl
    · exact .inl rfl
  rcases e1 with e1 | e1
  · rw [e1]
    rfl
  · rw [e1, Option.bind_some, e3]
    unfold keptPreds at e2
    rw [e2]
    rfl

theorem cloneAs_none_links {f : Factory V K} {restr : Option (List String)} {drop : Bool}
    {make : FullSchema → Option (Factory V K)} (hl : f.links = true) : f.cloneAs .tic .pan restr drop make = none := by
  unfold Factory.cloneAs
  simp only [Option.bind_eq_bind, hl, Factory.cloneLinks]
  simp

theorem cloneAs_none_make {src dst : FKind} {f : Factory V K} {restr : Option (List String)} {drop : Bool}
    {make : FullSchema → Option (Factory V K)}
    (hm : (restr.elim (some f.schema) (fun ts => restrictSchema f.schema ts [])).bind make = none) :
    f.cloneAs src dst restr drop make = none := by
  unfold Factory.cloneAs
  simp only [Option.bind_eq_bind]
  rw [← Option.bind_assoc, hm]
  rfl

/-- The `clone` of `TicDatFactory` modelled for C35 is this one. -/
theorem cloneAs_tic (f : Factory V K) (restr : Option (List String)) (make : FullSchema → Option (Factory V K)) :
    f.cloneAs .tic .tic restr false make = f.cloneWith restr make := by
  unfold Factory.cloneAs Factory.cloneWith
  simp only [Option.bind_eq_bind, Factory.cloneGenerators, Bool.false_and, Bool.not_false, Bool.and_true, Factory.addRowPredAs]
  congr 1
  funext fs
  congr 1
  funext g
  congr 1
  funext g
  congr 1
  funext g
  cases hl : f.links <;> simp [Factory.cloneLinks]

end Ticdat

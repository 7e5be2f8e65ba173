import Verif.Spec.Used
import Verif.Props.SchemaTrip
/-!
# C28: a factory's schema is fixed once used
-/
set_option linter.unusedSectionVars false
set_option linter.unusedSimpArgs false
namespace Ticdat
open Spec PyDict
variable {V K : Type}

theorem get2_none_of_has {A B C : Type} [DecidableEq A] [DecidableEq B] (d : PyDict A (PyDict B C)) (a : A) (b : B)
    (r : PyDict B C) (h : get? d a = some r) : get2 d a b = none ↔ has r b = false := by
  unfold get2 has
  rw [h, Option.bind_some]
  cases get? r b <;> simp

/-- **C28.**  Once the factory has produced a data object, every call that sets foreign keys, default values, data types,
generator tables, data row predicates or adds a parameter raises and leaves the factory exactly as it was.  (The only such
call that does not raise clears the data type of a field that has none.) -/
theorem used_setters_raise (env : FactoryEnv) (f g : Factory V K) (op : FOp V K) (r : Bool) (hu : f.used = true)
    (hop : SetsRules op) (h : FStep env f op g r) : g = f ∧ (r = true ∨ ClearsNothing f op) := by
  cases h with
  | impliedUsed _ => exact ⟨rfl, .inl rfl⟩
  | implied h _ => rw [hu] at h; simp at h
  | plain hne h =>
    have key : ∀ o : Option (Factory V K), o = none → f.tryOp o = (g, r) → g = f ∧ (r = true ∨ ClearsNothing f op) := by
      rintro o rfl e
      simp only [Factory.tryOp, Prod.mk.injEq] at e
      exact ⟨e.1.symm, .inl e.2.symm⟩
    cases hop with
    | setDataType t fld a => exact key _ (by simp [Factory.setDataType, hu]) h
    | clearDataType t fld =>
      simp only [Factory.apply, Factory.clearDataType] at h
      cases hg : get? f.types t with
      | none =>
        simp only [hg, Factory.tryOp, Prod.mk.injEq] at h
        exact ⟨h.1.symm, .inr ⟨t, fld, rfl, by simp [get2, hg]⟩⟩
      | some r' =>
        simp only [hg] at h
        cases hh : has r' fld with
        | true =>
          simp only [hh, hu, if_true, Factory.tryOp, Prod.mk.injEq] at h
          exact ⟨h.1.symm, .inl h.2.symm⟩
        | false =>
          simp only [hh, Bool.false_eq_true, if_false, Factory.tryOp, Prod.mk.injEq] at h
          exact ⟨h.1.symm, .inr ⟨t, fld, rfl, (get2_none_of_has _ _ _ _ hg).2 hh⟩⟩
    | setDefault t fld c => exact key _ (by simp [Factory.setDefault, hu]) h
    | setDefaults l =>
      simp only [Factory.apply, Factory.setDefaults, hu, if_true, Prod.mk.injEq] at h
      exact ⟨h.1.symm, .inl h.2.symm⟩
    | addFK n m mp => exact key _ (by simp [Factory.addFK, hu]) h
    | clearFKs n => exact key _ (by simp [Factory.clearFKs, hu]) h
    | addImplied => exact absurd rfl hne
    | addParam n d e =>
      refine key _ ?_ h
      unfold Factory.addParam
      split
      · simp [hu]
      · rfl
    | setGenerators gs => exact key _ (by simp [Factory.setGenerators, hu]) h
    | addRowPred c => exact key _ (by simp [Factory.addRowPred, hu]) h

theorem used_step (env : FactoryEnv) (f g : Factory V K) (op : FOp V K) (r : Bool) (hu : f.used = true)
    (h : FStep env f op g r) : g.used = true ∧ SameRules f g ∧ (∀ n v, get? f.params n = none → get? g.params n ≠ some v) ∧
      (∀ n v, (keys f.params).Nodup → get? g.params n = some v → get? f.params n = some v) := by
  have triv : g = f → g.used = true ∧ SameRules f g ∧ (∀ n v, get? f.params n = none → get? g.params n ≠ some v) ∧
      (∀ n v, (keys f.params).Nodup → get? g.params n = some v → get? f.params n = some v) := by
    rintro rfl
    refine ⟨hu, ⟨rfl, rfl, rfl, rfl, rfl, rfl⟩, ?_, fun _ _ _ h => h⟩
    intro n v e
    rw [e]
    simp
  by_cases hop : SetsRules op
  · exact triv (used_setters_raise env f g op r hu hop h).1
  · cases h with
    | impliedUsed _ => exact triv rfl
    | implied h _ => rw [hu] at h; simp at h
    | plain hne h =>
      cases op with
      | removeParam n =>
        simp only [Factory.apply, Factory.removeParam] at h
        split at h
        · simp only [Factory.tryOp, Prod.mk.injEq] at h
          obtain ⟨rfl, _⟩ := h
          refine ⟨hu, ⟨rfl, rfl, rfl, rfl, rfl, rfl⟩, ?_, ?_⟩
          · intro n' v e e'
            exact absurd (List.mem_map.2 ⟨_, erase_mem (get?_mem e'), rfl⟩) ((get?_eq_none _ _).1 e)
          · intro n' v hn e
            exact get?_of_mem hn (erase_mem (get?_mem e))
        · simp only [Factory.tryOp, Prod.mk.injEq] at h
          exact triv h.1.symm
      | setTooltip t fld tip =>
        simp only [Factory.apply, Factory.setTooltip] at h
        split at h
        · simp only [Factory.tryOp, Prod.mk.injEq] at h
          obtain ⟨rfl, _⟩ := h
          exact ⟨hu, ⟨rfl, rfl, rfl, rfl, rfl, rfl⟩, fun n v e => by simp only [e]; simp, fun _ _ _ h => h⟩
        · simp only [Factory.tryOp, Prod.mk.injEq] at h
          exact triv h.1.symm
      | setFlag c =>
        simp only [Factory.apply] at h
        cases e : setInfFlag c with
        | none =>
          simp only [e, Option.map_none, Factory.tryOp, Prod.mk.injEq] at h
          exact triv h.1.symm
        | some x =>
          simp only [e, Option.map_some, Factory.tryOp, Prod.mk.injEq] at h
          obtain ⟨rfl, _⟩ := h
          exact ⟨hu, ⟨rfl, rfl, rfl, rfl, rfl, rfl⟩, fun n v e => by simp only [e]; simp, fun _ _ _ h => h⟩
      | setTrailing s =>
        simp only [Factory.apply] at h
        cases e : parseTrailing s with
        | none =>
          simp only [e, Option.map_none, Factory.tryOp, Prod.mk.injEq] at h
          exact triv h.1.symm
        | some x =>
          simp only [e, Option.map_some, Factory.tryOp, Prod.mk.injEq] at h
          obtain ⟨rfl, _⟩ := h
          exact ⟨hu, ⟨rfl, rfl, rfl, rfl, rfl, rfl⟩, fun n v e => by simp only [e]; simp, fun _ _ _ h => h⟩
      | setDups s =>
        simp only [Factory.apply] at h
        cases e : parseDups s with
        | none =>
          simp only [e, Option.map_none, Factory.tryOp, Prod.mk.injEq] at h
          exact triv h.1.symm
        | some x =>
          simp only [e, Option.map_some, Factory.tryOp, Prod.mk.injEq] at h
          obtain ⟨rfl, _⟩ := h
          exact ⟨hu, ⟨rfl, rfl, rfl, rfl, rfl, rfl⟩, fun n v e => by simp only [e]; simp, fun _ _ _ h => h⟩
      | setAutomunge b =>
        simp only [Factory.apply, Prod.mk.injEq] at h
        obtain ⟨rfl, _⟩ := h
        exact ⟨hu, ⟨rfl, rfl, rfl, rfl, rfl, rfl⟩, fun n v e => by simp only [e]; simp, fun _ _ _ h => h⟩
      | enableLinks =>
        simp only [Factory.apply, Prod.mk.injEq] at h
        obtain ⟨rfl, _⟩ := h
        exact ⟨hu, ⟨rfl, rfl, rfl, rfl, rfl, rfl⟩, fun n v e => by simp only [e]; simp, fun _ _ _ h => h⟩
      | use =>
        simp only [Factory.apply, Prod.mk.injEq] at h
        obtain ⟨rfl, _⟩ := h
        exact ⟨rfl, ⟨rfl, rfl, rfl, rfl, rfl, rfl⟩, fun n v e => by simp only [e]; simp, fun _ _ _ h => h⟩
      | setDataType t fld a => exact absurd (.setDataType t fld a) hop
      | clearDataType t fld => exact absurd (.clearDataType t fld) hop
      | setDefault t fld c => exact absurd (.setDefault t fld c) hop
      | setDefaults l => exact absurd (.setDefaults l) hop
      | addFK n m mp => exact absurd (.addFK n m mp) hop
      | clearFKs n => exact absurd (.clearFKs n) hop
      | addImplied => exact absurd .addImplied hop
      | addParam n d e => exact absurd (.addParam n d e) hop
      | setGenerators gs => exact absurd (.setGenerators gs) hop
      | addRowPred c => exact absurd (.addRowPred c) hop

theorem used_params_nodup (env : FactoryEnv) (f g : Factory V K) (op : FOp V K) (r : Bool) (hf : FInv env f)
    (h : FStep env f op g r) : (keys g.params).Nodup := (fstep_inv env f g op r h hf).params_nodup

/-- **C28.**  Whatever calls follow its first use, raising or not: the factory stays used and keeps its tables, foreign keys,
default values, data types, generator tables and data row predicates; no parameter is added or changed. -/
theorem used_fixed (env : FactoryEnv) (f g : Factory V K) (ops : List (FOp V K)) (hr : Reachable env f) (hu : f.used = true)
    (h : FRun env f ops g) : g.used = true ∧ SameRules f g ∧ ∀ n v, get? g.params n = some v → get? f.params n = some v := by
  induction h with
  | nil => exact ⟨hu, ⟨rfl, rfl, rfl, rfl, rfl, rfl⟩, fun _ _ h => h⟩
  | cons hst _ ih =>
    obtain ⟨u1, s1, _, p1⟩ := used_step env _ _ _ _ hu hst
    have hn := (reachable_inv env _ hr).params_nodup
    obtain ⟨u2, s2, p2⟩ := ih (hr.step hst) u1
    refine ⟨u2, ⟨s2.tables.trans s1.tables, s2.fks.trans s1.fks, s2.defaults.trans s1.defaults, s2.types.trans s1.types,
      s2.generators.trans s1.generators, s2.preds.trans s1.preds⟩, ?_⟩
    intro n v e
    exact p1 n v hn (p2 n v e)

theorem tables_step (env : FactoryEnv) (f g : Factory V K) (op : FOp V K) (r : Bool) (hst : FStep env f op g r) :
    g.tables = f.tables := by
  have tr : ∀ (f g : Factory V K) (r : Bool) (o : Option (Factory V K)), (∀ g, o = some g → g.tables = f.tables) →
      f.tryOp o = (g, r) → g.tables = f.tables := by
    intro f g r o ho h
    cases o with
    | none => simp only [Factory.tryOp, Prod.mk.injEq] at h; rw [← h.1]
    | some g' => simp only [Factory.tryOp, Prod.mk.injEq] at h; rw [← h.1]; exact ho _ rfl
  cases hst with
  | impliedUsed _ => rfl
  | implied _ _ => rfl
  | plain hne h =>
    cases op with
    | addImplied => exact absurd rfl hne
    | setDefaults l =>
      simp only [Factory.apply, Factory.setDefaults] at h
      split at h
      · simp only [Prod.mk.injEq] at h; rw [← h.1]
      · have : ∀ (l : List (String × PyDict String Cell)) (f : Factory V K), (Factory.setDefaultsLoop l f).1.tables = f.tables := by
          intro l
          induction l with
          | nil => intro f; rfl
          | cons p l ih =>
            intro f
            rw [Factory.setDefaultsLoop]
            split
            · rw [ih]
            · rfl
        have e := this l f
        rw [h] at e
        exact e
    | setAutomunge b => simp only [Factory.apply, Prod.mk.injEq] at h; rw [← h.1]
    | enableLinks => simp only [Factory.apply, Prod.mk.injEq] at h; rw [← h.1]
    | use => simp only [Factory.apply, Prod.mk.injEq] at h; rw [← h.1]
    | setFlag c =>
      refine tr f g r _ ?_ h
      intro g e
      obtain ⟨x, _, rfl⟩ := Option.map_eq_some_iff.1 e
      rfl
    | setTrailing c =>
      refine tr f g r _ ?_ h
      intro g e
      obtain ⟨x, _, rfl⟩ := Option.map_eq_some_iff.1 e
      rfl
    | setDups c =>
      refine tr f g r _ ?_ h
      intro g e
      obtain ⟨x, _, rfl⟩ := Option.map_eq_some_iff.1 e
      rfl
    | setDataType t fld a =>
      refine tr f g r _ ?_ h
      intro g e
      unfold Factory.setDataType at e
      split at e
      · obtain ⟨x, _, rfl⟩ := Option.map_eq_some_iff.1 e
        rfl
      · simp at e
    | addParam n d a =>
      refine tr f g r _ ?_ h
      intro g e
      unfold Factory.addParam at e
      split at e
      · split at e
        · simp at e
        · obtain ⟨x, _, rfl⟩ := Option.map_eq_some_iff.1 e
          rfl
      · simp at e
    | _ =>
      refine tr f g r _ ?_ h
      intro g e
      simp only [Factory.clearDataType, Factory.setDefault, Factory.addFK, Factory.clearFKs, Factory.removeParam,
        Factory.setGenerators, Factory.setTooltip, Factory.addRowPred] at e
      repeat' split at e
      all_goals first
        | (simp only [Option.some.injEq] at e; subst e; rfl)
        | simp at e

/-- **C28.**  The tables and fields of a factory never change, used or not. -/
theorem tables_fixed (env : FactoryEnv) (f g : Factory V K) (ops : List (FOp V K)) (h : FRun env f ops g) :
    g.tables = f.tables := by
  induction h with
  | nil => rfl
  | cons hst _ ih => rw [ih, tables_step env _ _ _ _ hst]

/-- The factory used here is reachable and used, and each kind of call succeeded on it before its first use. -/
example : Reachable exEnv exFactory ∧ exFactory.used = true ∧
    (exFactory0.apply exEnv (.addFK "links" "foods" [("source", "name")])).2 = false ∧
    (exFactory0.apply exEnv (.setDataType "links" "cap" exArgs)).2 = false ∧
    (exFactory0.apply exEnv (.setDefault "foods" "cost" .none)).2 = false ∧
    (exFactory0.apply exEnv (.addParam (.str "p") (.num (.fin 3)) (some exArgs))).2 = false ∧
    (exFactory0.apply exEnv .use).1.used = true :=
  ⟨exFactory_reachable, by decide +kernel, by decide +kernel, by decide +kernel, by decide +kernel, by decide +kernel, rfl⟩

/-- **Finding (C28).**  `remove_parameter` still works on a used factory, and so do `set_infinity_io_flag` and `set_tooltip`:
not everything in the schema is fixed. -/
theorem remove_parameter_after_use : ∃ f g h i : Factory Nat Nat, Reachable exEnv f ∧ f.used = true ∧
    FStep exEnv f (.removeParam (.str "p")) g false ∧ g.params ≠ f.params ∧
    FStep exEnv f (.setFlag .none) h false ∧ h.flag ≠ f.flag ∧
    FStep exEnv f (.setTooltip "foods" "" "") i false ∧ i.tooltips ≠ f.tooltips :=
  ⟨exFactory, (exFactory.apply exEnv (.removeParam (.str "p"))).1, (exFactory.apply exEnv (.setFlag .none)).1,
    (exFactory.apply exEnv (.setTooltip "foods" "" "")).1, exFactory_reachable, by decide +kernel,
    .plain (by simp) (Prod.ext rfl (by decide +kernel)), by decide +kernel,
    .plain (by simp) (Prod.ext rfl (by decide +kernel)), by decide +kernel,
    .plain (by simp) (Prod.ext rfl (by decide +kernel)), by decide +kernel⟩

end Ticdat

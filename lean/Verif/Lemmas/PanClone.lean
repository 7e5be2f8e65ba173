import Verif.Lemmas.PanFactory
/-!
# Lemmas on clones of a `PanDatFactory` (C69)
-/
set_option linter.unusedSectionVars false
set_option linter.unusedSimpArgs false
namespace Ticdat
open Spec PyDict
variable {V K : Type}

/-! ### What `create_from_full_schema` leaves alone -/

/-- `g` has the tables, data row predicates, generator tables, links and use of `f`. -/
structure FKeeps (f g : Factory V K) : Prop where
  tables : g.tables = f.tables
  preds : g.preds = f.preds
  generators : g.generators = f.generators
  links : g.links = f.links
  used : g.used = f.used

theorem FKeeps.refl (f : Factory V K) : FKeeps f f := ⟨rfl, rfl, rfl, rfl, rfl⟩

theorem FKeeps.trans {f g h : Factory V K} (a : FKeeps f g) (b : FKeeps g h) : FKeeps f h :=
  ⟨b.tables.trans a.tables, b.preds.trans a.preds, b.generators.trans a.generators, b.links.trans a.links,
    b.used.trans a.used⟩

theorem keeps_foldlM {A : Type} (c : Factory V K → A → Option (Factory V K)) (hc : ∀ f a g, c f a = some g → FKeeps f g)
    (l : List A) (f g : Factory V K) (h : l.foldlM c f = some g) : FKeeps f g := by
  induction l generalizing f with
  | nil =>
    simp only [List.foldlM_nil, Option.pure_def, Option.some.injEq] at h
    exact h ▸ FKeeps.refl f
  | cons a l ih =>
    rw [List.foldlM_cons, Option.bind_eq_bind, Option.bind_eq_some_iff] at h
    obtain ⟨f1, h1, h2⟩ := h
    exact (hc _ _ _ h1).trans (ih f1 h2)

theorem keeps_setDataType {f g : Factory V K} {t x : String} {a : TypeArgs} (h : f.setDataType t x a = some g) : FKeeps f g := by
  unfold Factory.setDataType at h
  split at h
  · obtain ⟨x, _, rfl⟩ := Option.map_eq_some_iff.1 h
    exact ⟨rfl, rfl, rfl, rfl, rfl⟩
  · simp at h

theorem keeps_setDefault {f g : Factory V K} {t x : String} {a : Cell} (h : f.setDefault t x a = some g) : FKeeps f g := by
  unfold Factory.setDefault at h
  split at h
  · simp only [Option.some.injEq] at h
    subst h
    exact ⟨rfl, rfl, rfl, rfl, rfl⟩
  · simp at h

theorem keeps_addFK {f g : Factory V K} {n m : String} {mp : List (String × String)} (h : f.addFK n m mp = some g) :
    FKeeps f g := by
  unfold Factory.addFK at h
  split at h
  · simp at h
  · split at h
    · split at h
      · simp only [Option.some.injEq] at h
        subst h
        exact ⟨rfl, rfl, rfl, rfl, rfl⟩
      · simp at h
    · simp at h

theorem keeps_addParam {env : FactoryEnv} {f g : Factory V K} {n d : Cell} {a : Option TypeArgs}
    (h : f.addParam env n d a = some g) : FKeeps f g := by
  unfold Factory.addParam at h
  split at h
  · split at h
    · simp at h
    · obtain ⟨x, _, rfl⟩ := Option.map_eq_some_iff.1 h
      exact ⟨rfl, rfl, rfl, rfl, rfl⟩
  · simp at h

theorem keeps_setTooltip {f g : Factory V K} {t x tip : String} (h : f.setTooltip t x tip = some g) : FKeeps f g := by
  unfold Factory.setTooltip at h
  split at h
  · simp only [Option.some.injEq] at h
    subst h
    exact ⟨rfl, rfl, rfl, rfl, rfl⟩
  · simp at h

theorem keeps_withFlag {f g : Factory V K} {x : Option InfFlag} (h : f.withFlag x = some g) : FKeeps f g := by
  cases x with
  | none =>
    simp only [Factory.withFlag, Option.some.injEq] at h
    exact h ▸ FKeeps.refl f
  | some y =>
    simp only [Factory.withFlag] at h
    obtain ⟨x, _, rfl⟩ := Option.map_eq_some_iff.1 h
    exact ⟨rfl, rfl, rfl, rfl, rfl⟩

/-- The factories that `create_from_full_schema` makes: unused, with the tables of the schema, and no data row predicates,
generator tables or links. -/
theorem create_plain {env : FactoryEnv} {fs : FullSchema} {g : Factory V K} (h : createFromFullSchema env fs = some g) :
    g.tables = fs.tables ∧ g.preds = [] ∧ g.generators = [] ∧ g.links = false ∧ g.used = false := by
  unfold createFromFullSchema at h
  simp only at h
  split at h
  · simp only [Option.bind_eq_bind, Option.bind_eq_some_iff] at h
    obtain ⟨f0, h0, f1, h1, f2, h2, f3, h3, f4, h4, f5, h5, h6⟩ := h
    have k1 := keeps_foldlM _ (fun f a g e => keeps_addFK e) _ _ _ h1
    have k2 := keeps_foldlM _ (fun f a g e => keeps_setDataType e) _ _ _ h2
    have k3 := keeps_foldlM _ (fun f a g e => keeps_setDefault e) _ _ _ h3
    have k4 := keeps_foldlM _ (fun f a g e => keeps_addParam e) _ _ _ h4
    have k5 := keeps_withFlag h5
    have k6 := keeps_foldlM _ (fun f a g e => keeps_setTooltip e) _ _ _ h6
    have k56 : FKeeps f5 g := ⟨k6.tables, k6.preds, k6.generators, k6.links, k6.used⟩
    have k := ((((k1.trans k2).trans k3).trans k4).trans k5).trans k56
    have e0 : f0.tables = fs.tables ∧ f0.preds = [] ∧ f0.generators = [] ∧ f0.links = false ∧ f0.used = false := by
      unfold newFactory at h0
      split at h0
      · simp only [Option.some.injEq] at h0
        subst h0
        exact ⟨rfl, rfl, rfl, rfl, rfl⟩
      · simp at h0
    exact ⟨k.tables.trans e0.1, k.preds.trans e0.2.1, k.generators.trans e0.2.2.1, k.links.trans e0.2.2.2.1,
      k.used.trans e0.2.2.2.2⟩
  · simp at h

/-! ### `create_from_full_schema` and `clone` make states of the class -/

theorem Spec.PanReachable.foldlM {env : FactoryEnv} {A : Type} (c : Factory V K → A → Option (Factory V K)) (op : A → FOp V K)
    (hc : ∀ f a g, c f a = some g → (f.applyPan env (op a)).1 = g) (l : List A) (f g : Factory V K) (hf : PanReachable env f)
    (h : l.foldlM c f = some g) : PanReachable env g := by
  induction l generalizing f with
  | nil =>
    simp only [List.foldlM_nil, Option.pure_def, Option.some.injEq] at h
    exact h ▸ hf
  | cons a l ih =>
    rw [List.foldlM_cons, Option.bind_eq_bind, Option.bind_eq_some_iff] at h
    obtain ⟨f1, h1, h2⟩ := h
    exact ih f1 (hc _ _ _ h1 ▸ hf.step (op a)) h2

/-- A `PanDatFactory` made by `create_from_full_schema` can be made by the other public calls. -/
theorem create_pan_reachable {env : FactoryEnv} {fs : FullSchema} (hn : (keys fs.tables).Nodup) {g : Factory V K}
    (h : createFromFullSchema env fs = some g) : PanReachable env g := by
  unfold createFromFullSchema at h
  simp only at h
  split at h
  · simp only [Option.bind_eq_bind, Option.bind_eq_some_iff] at h
    obtain ⟨f0, h0, f1, h1, f2, h2, f3, h3, f4, h4, f5, h5, h6⟩ := h
    have r0 : PanReachable env f0 := ⟨fs.tables, f0, [], hn, h0, rfl⟩
    have r1 := PanReachable.foldlM (env := env) _ (fun k : FK => FOp.addFK k.native k.foreign k.mapping)
      (fun f k g e => by simp only [Factory.applyPan, Factory.tryOp, e]) _ _ _ r0 h1
    have r2 := PanReachable.foldlM (env := env) _ (fun p : String × String × TypeDict => FOp.setDataType p.1 p.2.1 p.2.2.toArgs)
      (fun f k g e => by simp only [Factory.applyPan, Factory.tryOp, e]) _ _ _ r1 h2
    have r3 := PanReachable.foldlM (env := env) _ (fun p : String × String × Cell => FOp.setDefault p.1 p.2.1 p.2.2)
      (fun f k g e => by simp only [Factory.applyPan, Factory.tryOp, e]) _ _ _ r2 h3
    have r4 := PanReachable.foldlM (env := env) _ (fun p : Cell × Option TypeDict × Cell => FOp.addParam p.1 p.2.2 (p.2.1.map TypeDict.toArgs))
      (fun f k g e => by simp only [Factory.applyPan, Factory.tryOp, e]) _ _ _ r3 h4
    have r5 : PanReachable env f5 := by
      cases hx : fs.flag with
      | none =>
        simp only [hx, Factory.withFlag, Option.some.injEq] at h5
        exact h5 ▸ r4
      | some x =>
        simp only [hx, Factory.withFlag] at h5
        have := r4.step (.setFlag x.toCell)
        simp only [Factory.applyPan, Factory.tryOp, h5] at this
        exact this
    have r6 : PanReachable env { f5 with prune := fs.prune.getD f5.prune } := by
      have e : Factory.applyPan env f5 (.setTrailing (if fs.prune.getD f5.prune then "prune" else "ignore")) =
          ({ f5 with prune := fs.prune.getD f5.prune }, false) := by
        cases e : fs.prune.getD f5.prune <;> simp [Factory.applyPan, parseTrailing, Factory.tryOp]
      have := r5.step (.setTrailing (if fs.prune.getD f5.prune then "prune" else "ignore"))
      rw [e] at this
      exact this
    have r7 : PanReachable env { f5 with prune := fs.prune.getD f5.prune, dups := fs.dups.getD f5.dups } := by
      have e : Factory.applyPan env { f5 with prune := fs.prune.getD f5.prune } (.setDups (match fs.dups.getD f5.dups with
          | .assert => "assert" | .warn => "warn" | .ignore => "ignore")) =
          ({ f5 with prune := fs.prune.getD f5.prune, dups := fs.dups.getD f5.dups }, false) := by
        cases e : fs.dups.getD f5.dups <;> simp [Factory.applyPan, parseDups, Factory.tryOp]
      have := r6.step (.setDups (match fs.dups.getD f5.dups with
          | .assert => "assert" | .warn => "warn" | .ignore => "ignore"))
      rw [e] at this
      exact this
    have r8 : PanReachable env { f5 with prune := fs.prune.getD f5.prune, dups := fs.dups.getD f5.dups, automunge := fs.automunge.getD f5.automunge } :=
      r7.step (.setAutomunge (fs.automunge.getD f5.automunge))
    exact PanReachable.foldlM (env := env) _ (fun p : String × String × String => FOp.setTooltip p.1 p.2.1 p.2.2)
      (fun f k g e => by simp only [Factory.applyPan, Factory.tryOp, e]) _ _ _ r8 h6
  · simp at h

/-- The clone of a factory is in a state of its class. -/
theorem cloneAs_of (env : FactoryEnv) (src dst : FKind) (f : Factory V K) (restr : Option (List String)) (drop : Bool)
    (make : FullSchema → Option (Factory V K))
    (hmk : ∀ fs g, (restr.elim (some f.schema) (fun ts => restrictSchema f.schema ts [])) = some fs →
      make fs = some g → FactoryOf env dst g)
    (g : Factory V K) (h : f.cloneAs src dst restr drop make = some g) : FactoryOf env dst g := by
  unfold Factory.cloneAs at h
  simp only [Option.bind_eq_bind, Option.bind_eq_some_iff] at h
  obtain ⟨fs, h0, g0, h1, g1, h2, g2, h3, h4⟩ := h
  have r0 := hmk fs g0 h0 h1
  cases dst with
  | pan =>
    have r0 : PanReachable env g0 := r0
    have e1 : g1 = g0 := by
      cases src <;> simpa [Factory.cloneGenerators] using h2.symm
    have e2 : g = g2 := by
      cases src
      · simp only [Factory.cloneLinks] at h4
        cases hx : f.links
        · rw [hx] at h4
          simpa using h4.symm
        · rw [hx] at h4
          simp at h4
      · simpa [Factory.cloneLinks] using h4.symm
    subst e1 e2
    exact PanReachable.foldlM (env := env) _ (fun p : String × PName × RowPred V K => FOp.addRowPred ⟨p.1, some p.2.1, some p.2.2⟩)
      (fun f k g e => by
        simp only [Factory.addRowPredAs] at e
        simp only [Factory.applyPan, Factory.tryOp, e]) _ _ _ r0 h3
  | tic =>
    have r0 : Reachable env g0 := r0
    have r1 : Reachable env g1 := by
      cases src with
      | pan =>
        simp only [Factory.cloneGenerators, Option.some.injEq] at h2
        exact h2 ▸ r0
      | tic =>
        simp only [Factory.cloneGenerators] at h2
        exact r0.step (op := .setGenerators f.generators) (r := false)
          (.plain (by simp) (by simp only [Factory.apply, Factory.tryOp, h2]))
    have r2 := Spec.Reachable.foldlM _ (fun p : String × PName × RowPred V K => FOp.addRowPred ⟨p.1, some p.2.1, some p.2.2⟩)
      (fun f k g e => ⟨false, .plain (by simp) (by
        simp only [Factory.addRowPredAs] at e
        simp only [Factory.apply, Factory.tryOp, e])⟩) _ _ _ r1 h3
    cases src with
    | pan =>
      simp only [Factory.cloneLinks, Option.some.injEq] at h4
      exact h4 ▸ r2
    | tic =>
      cases hl : f.links with
      | true =>
        simp only [hl, Factory.cloneLinks, Option.some.injEq] at h4
        exact h4 ▸ r2.step (op := .enableLinks) (r := false) (.plain (by simp) rfl)
      | false =>
        simp only [hl, Factory.cloneLinks, Option.some.injEq] at h4
        exact h4 ▸ r2

/-! ### Edited clones -/

/-- The edit of a `PanDatFactory` is that of the `TicDatFactory` with the same schema, plus the data row predicates. -/
theorem edit_transfer {f g : Factory V K} (hg : f.generators = []) (hl : f.links = false) (hd : IsDict2 f.preds)
    (hp : ∀ t n p, get2 f.preds t n = some p → has f.tables t = true)
    (make : FullSchema → Option (Factory V K))
    (hmk : ∀ fs g, make fs = some g → g.preds = [] ∧ g.generators = [] ∧ g.links = false ∧ g.used = false)
    (h : f.bare.cloneWith none make = some g) (ht : ∀ t, has f.tables t = true → has g.tables t = true) :
    g.preds = [] ∧ ∃ P, f.cloneAs .pan .pan none false make = some (g.withPreds P) ∧ IsDict2 P ∧ SameDict2 P f.preds := by
  unfold Factory.cloneWith at h
  have es : f.bare.schema = f.schema := rfl
  have eg : f.bare.generators = [] := hg
  have ep : f.bare.preds = [] := rfl
  have el : f.bare.links = false := hl
  simp only [Option.elim, Option.bind_eq_bind, Option.bind_some, es, eg, ep, el, Bool.or_false] at h
  obtain ⟨g0, h1, h2⟩ := Option.bind_eq_some_iff.1 h
  obtain ⟨k1, k2, k3, k4⟩ := hmk _ _ h1
  have e2 : g0.setGenerators [] = some g0 := by
    have : ({ g0 with generators := [] } : Factory V K) = g0 := by rw [← k2]
    simp only [Factory.setGenerators, k4, Bool.false_eq_true, if_false, List.all_nil, if_true]
    rw [← k4, this]
  have e3 : (flat ([] : Preds V K)).filter (fun _ => true) = [] := rfl
  rw [e2] at h2
  simp only [Option.bind_some, e3, List.foldlM_nil, Option.pure_def, Option.some.injEq] at h2
  have h2 : g0 = g := h2
  subst h2
  refine ⟨k1, ?_⟩
  have := cloneAs_some (src := .pan) (dst := .pan) (f := f) (restr := none) (drop := false) (make := make) (g0 := g0)
    (by simpa using h1) k4 hd (fun e => by cases e) (fun t n p hh _ _ => ht t (hp t n p hh)) (fun e => by cases e)
  refine ⟨_, this, ?_, ?_⟩
  · rw [k1]
    exact isDict2_foldl _ _ isDict2_nil
  · intro t n
    rw [get2_foldl_flat _ (keptPreds_dict hd _ _), k1]
    cases hx : get2 (keptPreds f (fun t => Option.elim (none : Option (List String)) true fun ts => decide (t ∈ ts))
        (fun p => !(false && p.maker.isSome))) t n with
    | some p => exact ((keptPreds_get2 hd _ _ _ _ _).1 hx).1.symm
    | none =>
      cases hy : get2 f.preds t n with
      | none => rfl
      | some p =>
        rw [(keptPreds_get2 hd _ _ _ _ _).2 ⟨hy, rfl, rfl⟩] at hx
        cases hx

theorem wp_foldlM {A : Type} (c : Factory V K → A → Option (Factory V K)) (P : Preds V K)
    (hc : ∀ f a, c (f.withPreds P) a = (c f a).map (fun g => g.withPreds P)) (l : List A) (f : Factory V K) :
    l.foldlM c (f.withPreds P) = (l.foldlM c f).map (fun g => g.withPreds P) := by
  induction l generalizing f with
  | nil => rfl
  | cons a l ih =>
    rw [List.foldlM_cons, List.foldlM_cons, hc]
    cases c f a with
    | none => rfl
    | some g => exact ih g

theorem wp_copyType (f : Factory V K) (P : Preds V K) (t x : String) (o : Option TypeDict) :
    (f.withPreds P).copyType t x o = (f.copyType t x o).map (fun g => g.withPreds P) := by
  cases o with
  | none => rfl
  | some a => exact wp_setDataType f P t x _

theorem wp_copyDefault (f : Factory V K) (P : Preds V K) (t x : String) (o : Option Cell) :
    (f.withPreds P).copyDefault t x o = (f.copyDefault t x o).map (fun g => g.withPreds P) := by
  cases o with
  | none => rfl
  | some a => exact wp_setDefault f P t x _

theorem wp_copyTip (f : Factory V K) (P : Preds V K) (t x : String) (o : Option String) :
    (f.withPreds P).copyTip t x o = (f.copyTip t x o).map (fun g => g.withPreds P) := by
  cases o with
  | none => rfl
  | some a => exact wp_setTooltip f P t x _

end Ticdat

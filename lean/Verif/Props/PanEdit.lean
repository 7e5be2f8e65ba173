import Verif.Props.PanFactory
/-!
# C69: edited clones and default values of a `PanDatFactory`
-/
set_option linter.unusedSectionVars false
set_option linter.unusedSimpArgs false
namespace Ticdat
open Spec PyDict
variable {V K : Type}

/-! ### Edited clones -/

theorem keepsRest_pan {f g : Factory V K} {P : Preds V K} (h : KeepsRest f.bare g) (hP : SameDict2 P f.preds) :
    KeepsRest f (g.withPreds P) :=
  ⟨h.params, h.flag, h.prune, h.dups, h.automunge, h.generators, h.links, hP, h.fresh⟩

theorem bare_canRemove {env : FactoryEnv} {f : Factory V K} {t x : String} (h : CanRemove env f t x) : CanRemove env f.bare t x :=
  ⟨⟨h.expressible.fks, h.expressible.names, h.expressible.defaults⟩, h.plain, fun t n p hg => by simp [Factory.bare, get2, get?] at hg, h.field, h.other,
    h.params⟩

/-- What a `PanDatFactory` state needs for its edits: see `PInv`. -/
structure EditOk (f : Factory V K) : Prop where
  generators : f.generators = []
  links : f.links = false
  dict : IsDict2 f.preds
  preds : ∀ t n p, get2 f.preds t n = some p → has f.tables t = true

theorem has_of_get? {A B : Type} [DecidableEq A] {d : PyDict A B} {k : A} {v : B} (h : get? d k = some v) : has d k = true := by
  unfold has; rw [h]; rfl

theorem create_make {env : FactoryEnv} {fs : FullSchema} {g : Factory V K} (h : createFromFullSchema env fs = some g) :
    g.preds = [] ∧ g.generators = [] ∧ g.links = false ∧ g.used = false :=
  have hc := create_plain h
  ⟨hc.2.1, hc.2.2.1, hc.2.2.2.1, hc.2.2.2.2⟩

theorem removed_has {f g : Factory V K} {t x : String} (c : ColumnRemoved f g t x) (hf : HasField f.tables t x) (t' : String)
    (h : has f.tables t' = true) : has g.tables t' = true := by
  by_cases e : t' = t
  · obtain ⟨pks, dfs, hd, _⟩ := hf
    rw [e]
    exact has_of_get? (c.table _ _ hd)
  · unfold has
    rw [c.others t' e]
    exact h

theorem added_has {f g : Factory V K} {t x : String} {kind : FieldKind} {i : Nat} (c : ColumnAdded f g t x kind i)
    (hf : ∃ pks dfs, get? f.tables t = some (.fields pks dfs)) (t' : String) (h : has f.tables t' = true) :
    has g.tables t' = true := by
  by_cases e : t' = t
  · obtain ⟨pks, dfs, hd⟩ := hf
    rw [e]
    have := c.table _ _ hd
    cases kind with
    | primaryKey => obtain ⟨_, _, _, _, h⟩ := this; exact has_of_get? h
    | data => obtain ⟨_, _, _, _, h⟩ := this; exact has_of_get? h
  · unfold has
    rw [c.others t' e]
    exact h

theorem pan_remove_transfer {env : FactoryEnv} {f g : Factory V K} (ok : EditOk f) {t x : String}
    (h : f.bare.cloneRemove env t x = some g) (ht : ∀ t, has f.tables t = true → has g.tables t = true) :
    g.preds = [] ∧ ∃ P, f.panCloneRemove env t x = some (g.withPreds P) ∧ IsDict2 P ∧ SameDict2 P f.preds := by
  unfold Factory.cloneRemove at h
  unfold Factory.panCloneRemove
  have e : f.bare.hasField t x = f.hasField t x := rfl
  rw [e] at h
  split at h
  · rename_i hh
    rw [if_pos hh]
    refine edit_transfer ok.generators ok.links ok.dict ok.preds _ ?_ h ht
    intro fs g hg
    obtain ⟨_, _, h2⟩ := Option.bind_eq_some_iff.1 hg
    exact create_make h2
  · simp at h

theorem pan_add_transfer {env : FactoryEnv} {f g : Factory V K} (ok : EditOk f) {t x : String} {kind : FieldKind}
    {pos : Option Int} (h : f.bare.cloneAdd env t x kind pos = some g)
    (ht : ∀ t, has f.tables t = true → has g.tables t = true) :
    g.preds = [] ∧ ∃ P, f.panCloneAdd env t x kind pos = some (g.withPreds P) ∧ IsDict2 P ∧ SameDict2 P f.preds := by
  unfold Factory.cloneAdd at h
  unfold Factory.panCloneAdd
  have e : f.bare.kindFields t kind = f.kindFields t kind := rfl
  rw [e] at h
  obtain ⟨cur, h1, h2⟩ := Option.bind_eq_some_iff.1 h
  rw [h1, Option.bind_some]
  split at h2
  · simp at h2
  · rename_i hc
    rw [if_neg hc]
    simp only at h2 ⊢
    split at h2
    · rename_i hi
      rw [if_pos hi]
      refine edit_transfer ok.generators ok.links ok.dict ok.preds _ ?_ h2 ht
      intro fs g hg
      obtain ⟨_, _, h2⟩ := Option.bind_eq_some_iff.1 hg
      exact create_make h2
    · simp at h2

theorem editOk_of {env : FactoryEnv} {f : Factory V K} (h : PanReachable env f) : EditOk f :=
  have hi := pan_inv h
  ⟨hi.generators, hi.links, hi.preds_dict, hi.preds⟩

/-- **C69.**  `PanDatFactory.clone_remove_a_column`: everything that mentions the column is gone, everything else is as it
was. -/
theorem pan_clone_remove_column (env : FactoryEnv) (f : Factory V K) (hr : PanReachable env f) (t x : String)
    (h : CanRemove env f t x) : ∃ g, f.panCloneRemove env t x = some g ∧ ColumnRemoved f g t x := by
  obtain ⟨g, e, c⟩ := clone_remove_column env f.bare (pan_inv hr).bare t x (bare_canRemove h)
  obtain ⟨_, P, e2, _, hP⟩ := pan_remove_transfer (editOk_of hr) e (removed_has (f := f.bare) c h.field)
  exact ⟨_, e2, ⟨keepsRest_pan c.rest hP, c.table, c.others, c.fks, c.types, c.defaults, c.tooltips⟩⟩

theorem bare_canAdd {env : FactoryEnv} {f : Factory V K} {t x : String} {kind : FieldKind} {i : Nat}
    (h : CanAdd env f t x kind i) : CanAdd env f.bare t x kind i :=
  ⟨⟨h.expressible.fks, h.expressible.names, h.expressible.defaults⟩, h.plain, fun t n p hg => by simp [Factory.bare, get2, get?] at hg, h.place, h.fresh,
    h.params, h.generator⟩

/-- **C69.**  `PanDatFactory.clone_add_a_column` inserts the column and changes nothing else; a new data field has the default
value 0. -/
theorem pan_clone_add_column (env : FactoryEnv) (f : Factory V K) (hr : PanReachable env f) (t x : String) (kind : FieldKind)
    (i : Nat) (h : CanAdd env f t x kind i) :
    ∃ g, f.panCloneAdd env t x kind (some i) = some g ∧ ColumnAdded f g t x kind i := by
  obtain ⟨g, e, c⟩ := clone_add_column env f.bare (pan_inv hr).bare t x kind i (bare_canAdd h)
  obtain ⟨pks, dfs, hd, _⟩ := h.place
  obtain ⟨_, P, e2, _, hP⟩ := pan_add_transfer (editOk_of hr) e (added_has (f := f.bare) c ⟨pks, dfs, hd⟩)
  exact ⟨_, e2, ⟨keepsRest_pan c.rest hP, c.table, c.others, c.fks, c.types, c.defaults, c.tooltips⟩⟩

/-- **C69.**  `PanDatFactory.clone_add_a_table` adds the table and changes nothing else. -/
theorem pan_clone_add_table (env : FactoryEnv) (f : Factory V K) (hr : PanReachable env f) (t : String) (pks dfs : List String)
    (h : CanAddTable env f t pks dfs) :
    ∃ g, f.panCloneAddTable env t pks dfs = some g ∧ TableAdded f g t pks dfs := by
  have hb : CanAddTable env f.bare t pks dfs := ⟨⟨h.expressible.fks, h.expressible.names, h.expressible.defaults⟩, h.plain,
    fun t n p hg => by simp [Factory.bare, get2, get?] at hg, h.some_table, h.fresh, h.name, h.decl⟩
  obtain ⟨g, e, c⟩ := clone_add_table env f.bare (pan_inv hr).bare t pks dfs hb
  have ok := editOk_of hr
  have : g.preds = [] ∧ ∃ P, f.panCloneAddTable env t pks dfs = some (g.withPreds P) ∧ IsDict2 P ∧ SameDict2 P f.preds := by
    unfold Factory.cloneAddTable at e
    unfold Factory.panCloneAddTable
    have e' : f.bare.tables = f.tables := rfl
    rw [e'] at e
    split at e
    · simp at e
    · rename_i hh
      rw [if_neg hh]
      refine edit_transfer ok.generators ok.links ok.dict ok.preds _ ?_ e ?_
      · intro fs g hg
        obtain ⟨_, _, h2⟩ := Option.bind_eq_some_iff.1 hg
        exact create_make h2
      · intro t' ht'
        by_cases et : t' = t
        · rw [et]; exact has_of_get? c.table
        · unfold has
          rw [c.others t' et]
          exact ht'
  obtain ⟨_, P, e2, _, hP⟩ := this
  exact ⟨_, e2, ⟨keepsRest_pan c.rest hP, c.table, c.others, c.fks, c.types, c.defaults, c.tooltips⟩⟩

/-- **C69.**  `PanDatFactory.clone_rename_a_column` yields the factory in which the column has its new name, at the same
place, in the table and in everything that mentions it; everything else is as it was. -/
theorem pan_clone_rename_column (env : FactoryEnv) (f : Factory V K) (hr : PanReachable env f) (t x new : String)
    (h : CanRename env f t x new) : ∃ g, f.panCloneRename env t x new = some g ∧ ColumnRenamed f g t x new := by
  have hb : CanRename env f.bare t x new := ⟨bare_canRemove h.remove, h.fresh, h.other, h.field, h.name⟩
  obtain ⟨g, e, c⟩ := clone_rename_column env f.bare (pan_inv hr).bare t x new hb
  obtain ⟨g1', e1', c1⟩ := clone_remove_column env f.bare (pan_inv hr).bare t x hb.remove
  unfold Factory.cloneRename at e
  have es : f.bare.placeOf t x = f.placeOf t x := rfl
  have eh : f.bare.hasField t new = f.hasField t new := rfl
  have ety : f.bare.types = f.types := rfl
  have ede : f.bare.defaults = f.defaults := rfl
  have efk : f.bare.fks = f.fks := rfl
  have eti : f.bare.tooltips = f.tooltips := rfl
  simp only [Option.bind_eq_bind, es, eh, ety, ede, efk, eti] at e
  obtain ⟨place, hpl, e⟩ := Option.bind_eq_some_iff.1 e
  split at e
  · simp at e
  · rename_i hnf
    obtain ⟨g1, e1, e⟩ := Option.bind_eq_some_iff.1 e
    rw [e1'] at e1
    simp only [Option.some.injEq] at e1
    subst e1
    obtain ⟨g2, e2, e⟩ := Option.bind_eq_some_iff.1 e
    obtain ⟨g3, e3, e⟩ := Option.bind_eq_some_iff.1 e
    obtain ⟨g4, e4, e⟩ := Option.bind_eq_some_iff.1 e
    obtain ⟨g5, e5, e6⟩ := Option.bind_eq_some_iff.1 e
    obtain ⟨pks, dfs, hd, _⟩ := h.remove.field
    obtain ⟨np, P1, p1, d1, s1⟩ := pan_remove_transfer (editOk_of hr) e1' (removed_has (f := f.bare) c1 h.remove.field)
    have hbare1 : (g1'.withPreds P1).bare = g1' := by
      have : ({ g1' with preds := [] } : Factory V K) = g1' := by rw [← np]
      exact this
    have k3 : FKeeps g2 g3 := by
      cases hty : get2 f.types t x with
      | none => rw [hty] at e3; simp only [Factory.copyType, Option.some.injEq] at e3; exact e3 ▸ FKeeps.refl _
      | some td => rw [hty] at e3; exact keeps_setDataType e3
    have k4 : FKeeps g3 g4 := by
      cases hty : get2 f.defaults t x with
      | none => rw [hty] at e4; simp only [Factory.copyDefault, Option.some.injEq] at e4; exact e4 ▸ FKeeps.refl _
      | some td => rw [hty] at e4; exact keeps_setDefault e4
    have k5 := keeps_foldlM _ (fun f a g e => keeps_addFK e) _ _ _ e5
    have k6 : FKeeps g5 g := by
      cases hty : (if x = "" then none else get? f.tooltips (t, x)) with
      | none => rw [hty] at e6; simp only [Factory.copyTip, Option.some.injEq] at e6; exact e6 ▸ FKeeps.refl _
      | some td => rw [hty] at e6; exact keeps_setTooltip e6
    have kk := ((k3.trans k4).trans k5).trans k6
    have ok1 : EditOk (g1'.withPreds P1) := by
      refine ⟨c1.rest.generators.trans (pan_inv hr).generators, c1.rest.links.trans (pan_inv hr).links, d1, ?_⟩
      intro t' n p hp
      have hp : get2 P1 t' n = some p := hp
      rw [s1] at hp
      exact removed_has (f := f.bare) c1 h.remove.field t' ((pan_inv hr).preds t' n p hp)
    have hadd : ∀ t', has (g1'.withPreds P1).tables t' = true → has g2.tables t' = true := by
      intro t' ht'
      rw [← kk.tables]
      have ht' : has g1'.tables t' = true := ht'
      by_cases et : t' = t
      · rw [et]; exact has_of_get? (c.table _ _ hd)
      · unfold has at ht' ⊢
        rw [c1.others t' et] at ht'
        rw [c.others t' et]
        exact ht'
    rw [← hbare1] at e2
    obtain ⟨_, P2, p2, _, s2⟩ := pan_add_transfer ok1 e2 hadd
    have hP : SameDict2 P2 f.preds := fun a b => (s2 a b).trans (s1 a b)
    refine ⟨g.withPreds P2, ?_, ⟨keepsRest_pan c.rest hP, c.table, c.others, c.fks, c.types, c.defaults, c.tooltips⟩⟩
    unfold Factory.panCloneRename
    simp only [Option.bind_eq_bind]
    rw [hpl, Option.bind_some, if_neg hnf, p1, Option.bind_some, p2, Option.bind_some, wp_copyType, e3, Option.map_some,
      Option.bind_some, wp_copyDefault, e4, Option.map_some, Option.bind_some, wp_foldlM _ _ (fun f a => wp_addFK f P2 _ _ _),
      e5, Option.map_some, Option.bind_some, wp_copyTip, e6, Option.map_some]

end Ticdat

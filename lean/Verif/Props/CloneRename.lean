import Verif.Props.CloneEdit
/-!
# C35: renaming a column
-/
set_option linter.unusedSectionVars false
set_option linter.unusedSimpArgs false
namespace Ticdat
open Spec PyDict
variable {V K : Type}

theorem cloneWith_reachable (env : FactoryEnv) (f : Factory V K) (restr : Option (List String))
    (make : FullSchema → Option (Factory V K)) (hmk : ∀ fs g, (restr.elim (some f.schema) (fun ts => restrictSchema f.schema ts [])) = some fs →
      make fs = some g → Reachable env g) (g : Factory V K) (h : f.cloneWith restr make = some g) : Reachable env g := by
  unfold Factory.cloneWith at h
  simp only [Option.bind_eq_bind, Option.bind_eq_some_iff] at h
  obtain ⟨fs, h0, g0, h1, g1, h2, g2, h3, h4⟩ := h
  have r0 := hmk fs g0 h0 h1
  have r1 : Reachable env g1 := r0.step (op := .setGenerators f.generators) (r := false)
    (.plain (by simp) (by simp only [Factory.apply, Factory.tryOp, h2]))
  have r2 := Spec.Reachable.foldlM _ (fun p : String × PName × RowPred V K => FOp.addRowPred ⟨p.1, some p.2.1, some p.2.2⟩)
    (fun f k g e => ⟨false, .plain (by simp) (by simp only [Factory.apply, Factory.tryOp, e])⟩) _ _ _ r1 h3
  simp only [Option.some.injEq] at h4
  subst h4
  cases hl : f.links with
  | true =>
    simp only [Bool.or_true]
    exact r2.step (op := .enableLinks) (r := false) (.plain (by simp) rfl)
  | false =>
    simp only [Bool.or_false]
    exact r2

theorem restrictSchema_nodup {fs fs' : FullSchema} {ts : List String} {removed : List (String × String)}
    (hn : (keys fs.tables).Nodup) (h : restrictSchema fs ts removed = some fs') : (keys fs'.tables).Nodup := by
  unfold restrictSchema at h
  simp only [Option.ite_none_right_eq_some, Option.ite_none_left_eq_some, Option.some.injEq] at h
  have h' := h.2.2.2
  subst h'
  simp only
  rw [keys_map_val (fun t d => Decl.keepFields removed t d)]
  exact (keys_filter_sublist _ _).nodup hn

/-- Edited clones are reachable factories. -/
theorem cloneRemove_reachable (env : FactoryEnv) (f : Factory V K) (hr : Reachable env f) (t fld : String) (g : Factory V K)
    (h : f.cloneRemove env t fld = some g) : Reachable env g := by
  unfold Factory.cloneRemove at h
  split at h
  · refine cloneWith_reachable env f none _ ?_ g h
    intro fs g' h1 h2
    simp only [Option.elim, Option.some.injEq] at h1
    subst h1
    obtain ⟨fs, h3, h4⟩ := Option.bind_eq_some_iff.1 h2
    exact create_reachable env fs (restrictSchema_nodup (reachable_inv env f hr).tables_nodup h3) g' h4
  · simp at h

theorem cloneAdd_reachable (env : FactoryEnv) (f : Factory V K) (hr : Reachable env f) (t fld : String) (kind : FieldKind)
    (pos : Option Int) (g : Factory V K) (h : f.cloneAdd env t fld kind pos = some g) : Reachable env g := by
  unfold Factory.cloneAdd at h
  obtain ⟨cur, _, h⟩ := Option.bind_eq_some_iff.1 h
  split at h
  · simp at h
  · simp only at h
    split at h
    · refine cloneWith_reachable env f none _ ?_ g h
      intro fs g' h1 h2
      simp only [Option.elim, Option.some.injEq] at h1
      subst h1
      obtain ⟨fs, h3, h4⟩ := Option.bind_eq_some_iff.1 h2
      refine create_reachable env _ ?_ g' h4
      simp only [withField_eq]
      rw [show keys (withField fs.tables t fld kind _) = keys fs.tables from
        keys_map_val (fun t' d => if t' = t then Decl.insertField kind _ fld d else d) fs.tables]
      exact restrictSchema_nodup (reachable_inv env f hr).tables_nodup h3
    · simp at h

/-- `"append"` is the last position. -/
theorem clone_add_append (env : FactoryEnv) (f : Factory V K) (t fld : String) (kind : FieldKind) (cur : List String)
    (h : f.kindFields t kind = some cur) :
    f.cloneAdd env t fld kind none = f.cloneAdd env t fld kind (some (cur.length : Int)) := by
  unfold Factory.cloneAdd
  rw [h]
  rfl

/-- When `clone_rename_a_column` works. -/
structure CanRename (env : FactoryEnv) (f : Factory V K) (t fld new : String) : Prop where
  remove : CanRemove env f t fld
  fresh : ∀ x, x ≠ fld → HasField f.tables t x → env.case.lower x.toList ≠ env.case.lower new.toList
  other : new ≠ fld
  field : fld ≠ ""
  name : new ≠ ""

theorem map_eq_self {α : Type} (f : α → α) (l : List α) (h : ∀ x ∈ l, f x = x) : l.map f = l := by
  induction l with
  | nil => rfl
  | cons a l ih => rw [List.map_cons, h a (by simp), ih (fun x hx => h x (by simp [hx]))]

theorem idxOf_cons_other (y fld : String) (l : List String) (e : ¬ y = fld) : (y :: l).idxOf fld = l.idxOf fld + 1 := by
  have : (y == fld) = false := beq_eq_false_iff_ne.2 e
  simp [List.idxOf_cons, this]

theorem filter_insert (l : List String) (fld new : String) (hn : l.Nodup) (hm : fld ∈ l) (a b : List String)
    (h : l.filter (fun x => decide (x ≠ fld)) = a ++ b) (hl : a.length = l.idxOf fld) :
    a ++ new :: b = l.map (fun x => if x = fld then new else x) := by
  induction l generalizing a with
  | nil => simp at hm
  | cons y l ih =>
    rw [List.nodup_cons] at hn
    by_cases e : y = fld
    · subst e
      have ha : a = [] := by
        rw [List.idxOf_cons_self] at hl
        exact List.length_eq_zero_iff.1 hl
      subst ha
      have hf : l.filter (fun x => decide (x ≠ y)) = l := by
        rw [List.filter_eq_self]
        intro x hx
        rw [decide_eq_true_eq]
        rintro rfl
        exact hn.1 hx
      rw [List.filter_cons] at h
      simp only [ne_eq, not_true_eq_false, decide_false, Bool.false_eq_true, if_false, List.nil_append] at h
      simp only [ne_eq] at hf
      rw [hf] at h
      subst h
      rw [List.nil_append, List.map_cons, if_pos rfl]
      congr 1
      refine (map_eq_self _ l ?_).symm
      intro x hx
      rw [if_neg]
      rintro rfl; exact hn.1 hx
    · have hm' : fld ∈ l := by
        rcases List.mem_cons.1 hm with h | h
        · exact absurd h.symm e
        · exact h
      rw [List.filter_cons] at h
      simp only [ne_eq, e, not_false_eq_true, decide_true, if_true] at h
      rw [idxOf_cons_other _ _ _ e] at hl
      cases a with
      | nil => simp at hl
      | cons z a =>
        simp only [List.cons_append, List.cons.injEq] at h
        obtain ⟨rfl, h⟩ := h
        simp only [List.length_cons, Nat.add_right_cancel_iff] at hl
        rw [List.map_cons, if_neg e, List.cons_append, ih hn.2 hm' a (by simpa using h) hl]

theorem filter_id_of_not_mem (l : List String) (fld : String) (h : fld ∉ l) : l.filter (fun x => decide (x ≠ fld)) = l := by
  rw [List.filter_eq_self]
  intro x hx
  rw [decide_eq_true_eq]
  rintro rfl
  exact h hx

theorem map_id_of_not_mem (l : List String) (fld new : String) (h : fld ∉ l) : l.map (fun x => if x = fld then new else x) = l := by
  refine map_eq_self _ l ?_
  intro x hx
  rw [if_neg]
  rintro rfl; exact h hx

theorem idxOf_le_filter (l : List String) (fld : String) : l.idxOf fld ≤ (l.filter (fun x => decide (x ≠ fld))).length := by
  induction l with
  | nil => simp
  | cons y l ih =>
    by_cases e : y = fld
    · subst e; simp
    · rw [idxOf_cons_other _ _ _ e, List.filter_cons]
      simp only [ne_eq, e, not_false_eq_true, decide_true, if_true, List.length_cons]
      exact Nat.succ_le_succ ih

theorem mentions_iff (k : FK) (t fld : String) : k.mentions t fld = true ↔ Mentions k t fld := by
  simp [FK.mentions, Mentions]

theorem renamedFK_of_not (k : FK) (t fld new : String) (h : ¬ Mentions k t fld) : renamedFK t fld new k = k := by
  unfold renamedFK
  obtain ⟨n, m, mp⟩ := k
  simp only [FK.mk.injEq, true_and]
  refine map_eq_self _ mp ?_
  intro p hp
  have h1 : ¬ (n = t ∧ p.1 = fld) := fun hh => h ⟨p, hp, .inl hh⟩
  have h2 : ¬ (m = t ∧ p.2 = fld) := fun hh => h ⟨p, hp, .inr hh⟩
  rw [if_neg h1, if_neg h2]

/-- **C35.**  `clone_rename_a_column(t, fld, new)` yields the factory in which the column has its new name, at the same
place, in the table and in everything that mentions it; everything else is as it was. -/
theorem clone_rename_column (env : FactoryEnv) (f : Factory V K) (hr : Reachable env f) (t fld new : String)
    (h : CanRename env f t fld new) : ∃ g, f.cloneRename env t fld new = some g ∧ ColumnRenamed f g t fld new := by
  have hf := reachable_inv env f hr
  obtain ⟨pks, dfs, hd, hm⟩ := h.remove.field
  have hnd := ((goodDecl_iff _ _ _).1 (hf.decls _ (get?_mem hd))).2.1
  have hnew : ¬ HasField f.tables t new := fun hx => h.fresh new h.other hx rfl
  -- the place
  obtain ⟨kind, i, hplace, hi⟩ : ∃ kind i, f.placeOf t fld = some (kind, i) ∧
      (match kind with
        | .primaryKey => fld ∈ pks ∧ fld ∉ dfs ∧ i = pks.idxOf fld
        | .data => fld ∈ dfs ∧ fld ∉ pks ∧ i = dfs.idxOf fld) := by
    unfold Factory.placeOf
    rw [hd]
    have dis := (List.nodup_append.1 hnd).2.2
    by_cases hp : fld ∈ pks
    · exact ⟨.primaryKey, _, by simp only [hp, if_true], hp, fun hq => dis _ hp _ hq rfl, rfl⟩
    · have hq : fld ∈ dfs := (List.mem_append.1 hm).resolve_left hp
      exact ⟨.data, _, by simp only [hp, if_false, hq, if_true], hq, hp, rfl⟩
  obtain ⟨g1, e1, c1⟩ := clone_remove_column env f hr t fld h.remove
  have r1 := cloneRemove_reachable env f hr t fld g1 e1
  have f1 := reachable_inv env g1 r1
  have hH1 : ∀ t' x, HasField g1.tables t' x ↔ HasField f.tables t' x ∧ ¬ (t' = t ∧ x = fld) := by
    intro t' x
    unfold HasField
    by_cases e : t' = t
    · subst e
      rw [c1.table _ _ hd, hd]
      simp only [Option.some.injEq, Decl.fields.injEq, true_and]
      constructor
      · rintro ⟨_, _, ⟨rfl, rfl⟩, hx⟩
        rw [← List.filter_append, List.mem_filter, decide_eq_true_eq] at hx
        exact ⟨⟨_, _, ⟨rfl, rfl⟩, hx.1⟩, hx.2⟩
      · rintro ⟨⟨_, _, ⟨rfl, rfl⟩, hx⟩, hne⟩
        refine ⟨_, _, ⟨rfl, rfl⟩, ?_⟩
        rw [← List.filter_append, List.mem_filter, decide_eq_true_eq]
        exact ⟨hx, hne⟩
    · rw [c1.others t' e]
      simp [e]
  have hsp : ∀ n v, get? g1.params n = some v ↔ get? f.params n = some v := fun n v => by rw [c1.rest.params n]
  have pm : ∀ p ∈ g1.params, p ∈ f.params := fun p hp => get?_mem ((hsp _ _).1 (get?_of_mem f1.params_nodup hp))
  have hpn : g1.params ≠ [] → f.params ≠ [] := sameDict_nil c1.rest.params
  have can : CanAdd env g1 t new kind i := by
    refine ⟨⟨fun k hk => h.remove.expressible.fks k ((c1.fks k).1 hk).1, fun p hp => h.remove.expressible.names p (pm p hp),
      fun p hp => h.remove.expressible.defaults p (pm p hp)⟩, ?_, ?_, ?_, ?_, fun hn => h.remove.params (hpn hn), ?_⟩
    · intro t' hg
      by_cases e : t' = t
      · rw [e, c1.table _ _ hd] at hg; cases hg
      · rw [c1.others t' e] at hg
        exact h.remove.plain t' hg
    · intro t' n p hg
      rw [c1.rest.preds] at hg
      rw [c1.rest.generators]
      exact h.remove.preds t' n p hg
    · refine ⟨_, _, c1.table _ _ hd, ?_⟩
      cases kind with
      | primaryKey => exact hi.2.2 ▸ idxOf_le_filter pks fld
      | data => exact hi.2.2 ▸ idxOf_le_filter dfs fld
    · intro x hx
      obtain ⟨h1, h2⟩ := (hH1 t x).1 hx
      exact h.fresh x (fun e => h2 ⟨rfl, e⟩) h1
    · rintro rfl hg
      rw [c1.rest.generators] at hg
      have := hf.generators t hg
      unfold Factory.pkless at this
      rw [hd] at this
      cases pks with
      | nil => simp at hi
      | cons a b => simp at this
  obtain ⟨g2, e2, c2⟩ := clone_add_column env g1 r1 t new kind i can
  have f2 := reachable_inv env g2 (cloneAdd_reachable env g1 r1 t new kind _ g2 e2)
  have htab2 : get? g2.tables t = some (.fields (pks.map (fun x => if x = fld then new else x)) (dfs.map (fun x => if x = fld then new else x))) := by
    have := c2.table _ _ (c1.table _ _ hd)
    cases kind with
    | primaryKey =>
      obtain ⟨a, b, h1, h2, h3⟩ := this
      rw [h3, map_id_of_not_mem dfs fld new hi.2.1, filter_id_of_not_mem dfs fld hi.2.1,
        filter_insert pks fld new (List.nodup_append.1 hnd).1 hi.1 a b h1 (h2.trans hi.2.2)]
    | data =>
      obtain ⟨a, b, h1, h2, h3⟩ := this
      rw [h3, map_id_of_not_mem pks fld new hi.2.1, filter_id_of_not_mem pks fld hi.2.1,
        filter_insert dfs fld new (List.nodup_append.1 hnd).2.1 hi.1 a b h1 (h2.trans hi.2.2)]
  have hoth2 : ∀ t', t' ≠ t → get? g2.tables t' = get? f.tables t' := fun t' e => (c2.others t' e).trans (c1.others t' e)
  have hH2 : ∀ t' x, HasField f.tables t' x → HasField g2.tables t' (if t' = t ∧ x = fld then new else x) := by
    intro t' x hx
    by_cases e : t' = t
    · subst e
      refine ⟨_, _, htab2, ?_⟩
      obtain ⟨a, b, h1, h2⟩ := hx
      rw [hd] at h1
      simp only [Option.some.injEq, Decl.fields.injEq] at h1
      obtain ⟨rfl, rfl⟩ := h1
      rw [← List.map_append]
      simp only [true_and]
      exact List.mem_map.2 ⟨x, h2, rfl⟩
    · simp only [e, false_and, if_false]
      unfold HasField
      rw [hoth2 t' e]
      exact hx
  have hnew2 : HasField g2.tables t new := by simpa using hH2 t fld h.remove.field
  have hpar2 : g2.params ≠ [] → t ≠ "parameters" := fun hn => h.remove.params (hpn (sameDict_nil c2.rest.params hn))
  -- data type
  obtain ⟨g3, e3, c3⟩ : ∃ g3, g2.copyType t new (get2 f.types t fld) = some g3 ∧ ∃ ty, g3 = { g2 with types := ty } ∧
      ∀ t' x, get2 ty t' x = if t' = t ∧ x = new then get2 f.types t fld else if t' = t ∧ x = fld then none else get2 f.types t' x := by
    have base : ∀ t' x, get2 g2.types t' x = if t' = t ∧ x = fld then none else get2 f.types t' x := by
      intro t' x
      rw [c2.types, c1.types]
    cases hty : get2 f.types t fld with
    | none =>
      refine ⟨g2, rfl, g2.types, rfl, ?_⟩
      intro t' x
      rw [base]
      by_cases e : t' = t ∧ x = new
      · obtain ⟨rfl, rfl⟩ := e
        rw [if_pos (c := t' = t' ∧ x = x) ⟨rfl, rfl⟩]
        split
        · rfl
        · cases hx : get2 f.types t' x with
          | none => rfl
          | some td => exact absurd (hf.types _ _ _ hx).1 hnew
      · rw [if_neg e]
    | some td =>
      have hs : g2.setDataType t new td.toArgs = some { g2 with types := set2 g2.types t new td } := by
        unfold Factory.setDataType
        rw [if_pos, (hf.types _ _ _ hty).2.1]
        · rfl
        · rw [c2.rest.fresh, (hasField_iff g2 t new).2 hnew2]
          simp only [Bool.not_false, Bool.true_and, Bool.not_eq_true', Bool.and_eq_false_iff, decide_eq_false_iff_not]
          by_cases hp : g2.params = []
          · simp [hp]
          · simp [hpar2 hp]
      refine ⟨_, hs, _, rfl, ?_⟩
      intro t' x
      rw [get2_set2, base]
      by_cases e : t' = t ∧ x = new
      · obtain ⟨rfl, rfl⟩ := e
        simp
      · rw [if_neg (fun hh => e ⟨hh.1.symm, hh.2.symm⟩), if_neg e]
  obtain ⟨ty, rfl, c3⟩ := c3
  -- default value
  obtain ⟨g4, e4, c4⟩ : ∃ g4, Factory.copyDefault { g2 with types := ty } t new (get2 f.defaults t fld) = some g4 ∧
      ∃ de, g4 = { g2 with types := ty, defaults := de } ∧
      ∀ t' x, get2 de t' x = if t' = t ∧ x = new then get2 f.defaults t fld else if t' = t ∧ x = fld then none else get2 f.defaults t' x := by
    have base : ∀ t' x, ¬ (t' = t ∧ x = new) → get2 g2.defaults t' x = if t' = t ∧ x = fld then none else get2 f.defaults t' x := by
      intro t' x hx
      rw [c2.defaults, c1.defaults, if_neg]
      exact fun hh => hx ⟨hh.1, hh.2.1⟩
    cases hty : get2 f.defaults t fld with
    | none =>
      refine ⟨_, rfl, g2.defaults, rfl, ?_⟩
      intro t' x
      by_cases e : t' = t ∧ x = new
      · obtain ⟨rfl, rfl⟩ := e
        rw [if_pos ⟨rfl, rfl⟩, c2.defaults, c1.defaults]
        have hk : kind ≠ .data := by
          rintro rfl
          have := hf.data_defaults _ _ _ _ hd hi.1
          rw [hty] at this
          simp at this
        simp only [hk, and_false, if_false]
        split
        · rfl
        · cases hx : get2 f.defaults t' x with
          | none => rfl
          | some td => exact absurd (hf.defaults _ _ _ hx).1 hnew
      · rw [if_neg e, base t' x e]
    | some cc =>
      have hs : Factory.setDefault { g2 with types := ty } t new cc = some { g2 with types := ty, defaults := set2 g2.defaults t new cc } := by
        unfold Factory.setDefault
        rw [if_pos]
        have : Factory.hasField { g2 with types := ty } t new = true := (hasField_iff _ t new).2 hnew2
        rw [this]
        simp only [c2.rest.fresh, (hf.defaults _ _ _ hty).2]
        rfl
      refine ⟨_, hs, _, rfl, ?_⟩
      intro t' x
      rw [get2_set2]
      by_cases e : t' = t ∧ x = new
      · obtain ⟨rfl, rfl⟩ := e
        simp
      · rw [if_neg (fun hh => e ⟨hh.1.symm, hh.2.symm⟩), if_neg e, base t' x e]
  obtain ⟨de, rfl, c4⟩ := c4
  -- foreign keys
  have e5 := fks_fold (V := V) (K := K) (tables := g2.tables) f2.tables_nodup
    ((f.fks.filter (fun k => k.mentions t fld)).map (renamedFK t fld new)) (by
      intro k hk
      obtain ⟨k', hk', rfl⟩ := List.mem_map.1 hk
      obtain ⟨hk1, _⟩ := List.mem_filter.1 hk'
      have w := hf.fks k' hk1
      have ok : FKOK (plainTables f.tables) k' := ⟨w.native_mem, w.foreign_mem, h.remove.expressible.fks k' hk1, w.native_nodup, w.native_fields, w.foreign_fields⟩
      rw [fkok_iff hf.tables_nodup] at ok
      rw [fkok_iff f2.tables_nodup]
      refine ⟨?_, ?_, ?_⟩
      · simpa [renamedFK] using ok.1
      · simp only [renamedFK, List.map_map]
        rw [show (Prod.fst ∘ fun p : String × String => (if k'.native = t ∧ p.1 = fld then new else p.1,
            if k'.foreign = t ∧ p.2 = fld then new else p.2)) = (fun x => if k'.native = t ∧ x = fld then new else x) ∘ Prod.fst from rfl,
          ← List.map_map]
        apply nodup_map_of_inj _ ok.2.1
        intro a ha b hb e
        have hfa : ∀ x ∈ k'.mapping.map Prod.fst, HasField f.tables k'.native x := by
          intro x hx
          obtain ⟨p, hp, rfl⟩ := List.mem_map.1 hx
          exact (ok.2.2 p hp).1
        by_cases ea : k'.native = t ∧ a = fld <;> by_cases eb : k'.native = t ∧ b = fld
        · rw [ea.2, eb.2]
        · rw [if_pos ea, if_neg eb] at e
          exact absurd (by rw [← e] at hb; exact ea.1 ▸ hfa _ hb) hnew
        · rw [if_neg ea, if_pos eb] at e
          exact absurd (by rw [e] at ha; exact eb.1 ▸ hfa _ ha) hnew
        · rwa [if_neg ea, if_neg eb] at e
      · intro p hp
        simp only [renamedFK] at hp
        obtain ⟨q, hq, rfl⟩ := List.mem_map.1 hp
        exact ⟨hH2 _ _ (ok.2.2 q hq).1, hH2 _ _ (ok.2.2 q hq).2⟩)
    { g2 with types := ty, defaults := de } rfl c2.rest.fresh
  rw [List.foldlM_map] at e5
  -- tooltip
  have base : ∀ t' x, get? g2.tooltips (t', x) = if t' = t ∧ x = fld then none else get? f.tooltips (t', x) := by
    intro t' x
    rw [c2.tooltips, c1.tooltips]
  obtain ⟨g6, e6, tips, rfl, c6⟩ : ∃ g6, Factory.copyTip { g2 with types := ty, defaults := de, fks := ((f.fks.filter (fun k => k.mentions t fld)).map (renamedFK t fld new)).foldl setAdd g2.fks } t new
      (get? f.tooltips (t, fld)) = some g6 ∧ ∃ tips, g6 = { g2 with types := ty, defaults := de, fks := ((f.fks.filter (fun k => k.mentions t fld)).map (renamedFK t fld new)).foldl setAdd g2.fks, tooltips := tips } ∧
      ∀ t' x, get? tips (t', x) = if t' = t ∧ x = new then get? f.tooltips (t, fld) else
        if t' = t ∧ x = fld then none else get? f.tooltips (t', x) := by
    cases hty : get? f.tooltips (t, fld) with
    | none =>
      refine ⟨_, rfl, g2.tooltips, rfl, ?_⟩
      intro t' x
      rw [base]
      by_cases e : t' = t ∧ x = new
      · obtain ⟨rfl, rfl⟩ := e
        rw [if_pos (c := t' = t' ∧ x = x) ⟨rfl, rfl⟩]
        split
        · rfl
        · cases hx : get? f.tooltips (t', x) with
          | none => rfl
          | some td =>
            rcases (hf.tips _ _ _ hx).2.1 with hh | hh
            · exact absurd hh h.name
            · exact absurd hh hnew
      · rw [if_neg e]
    | some tip =>
      have hne := (hf.tips _ _ _ hty).2.2
      have hh : has g2.tables t = true := by unfold has; rw [htab2]; rfl
      refine ⟨_, ?_, PyDict.set g2.tooltips (t, new) tip, rfl, ?_⟩
      · show Factory.setTooltip _ t new tip = _
        unfold Factory.setTooltip
        rw [if_pos]
        · simp only [hne, if_false]
        · have h1 : Factory.hasField { g2 with types := ty, defaults := de, fks := ((f.fks.filter (fun k => k.mentions t fld)).map (renamedFK t fld new)).foldl setAdd g2.fks } t new = true := (hasField_iff _ t new).2 hnew2
          rw [h1]
          simp only [hh, Bool.or_true, Bool.and_true]
      · intro t' x
        rw [get?_set, base]
        by_cases e : t' = t ∧ x = new
        · obtain ⟨rfl, rfl⟩ := e
          simp
        · rw [if_neg, if_neg e]
          intro hh
          simp only [Prod.mk.injEq] at hh
          exact e ⟨hh.1.symm, hh.2.symm⟩
  refine ⟨{ g2 with types := ty, defaults := de, fks := ((f.fks.filter (fun k => k.mentions t fld)).map (renamedFK t fld new)).foldl setAdd g2.fks, tooltips := tips }, ?_, ⟨⟨?_, ?_, ?_, ?_, ?_, ?_, ?_, ?_, ?_⟩, ?_, ?_, ?_, c3, c4, c6⟩⟩
  · unfold Factory.cloneRename
    have hnf : f.hasField t new = false := by
      cases hx : f.hasField t new with
      | false => rfl
      | true => exact absurd ((hasField_iff f t new).1 hx) hnew
    simp only [Option.bind_eq_bind, hplace, Option.bind_some, hnf, Bool.false_eq_true, if_false, e1, e2, e3, e4, h.field]
    have e5' : (f.fks.filter (fun k => k.mentions t fld)).foldlM (fun g k => g.addFK k.native k.foreign
        (k.mapping.map (fun p => (renameField t fld new k.native p.1, renameField t fld new k.foreign p.2))))
          ({ g2 with types := ty, defaults := de } : Factory V K) = some { g2 with types := ty, defaults := de, fks := ((f.fks.filter (fun k => k.mentions t fld)).map (renamedFK t fld new)).foldl setAdd g2.fks } := e5
    rw [e5', Option.bind_some, e6]
  · intro n; exact (c2.rest.params n).trans (c1.rest.params n)
  · exact c2.rest.flag.trans c1.rest.flag
  · exact c2.rest.prune.trans c1.rest.prune
  · exact c2.rest.dups.trans c1.rest.dups
  · exact c2.rest.automunge.trans c1.rest.automunge
  · exact c2.rest.generators.trans c1.rest.generators
  · exact c2.rest.links.trans c1.rest.links
  · intro a b; exact (c2.rest.preds a b).trans (c1.rest.preds a b)
  · exact c2.rest.fresh
  · intro pks' dfs' h1
    rw [hd] at h1
    simp only [Option.some.injEq, Decl.fields.injEq] at h1
    obtain ⟨rfl, rfl⟩ := h1
    exact htab2
  · exact hoth2
  · intro k
    simp only
    rw [mem_foldl_setAdd, c2.fks, c1.fks]
    constructor
    · rintro (⟨h1, h2⟩ | hk)
      · exact ⟨k, h1, (renamedFK_of_not k t fld new h2).symm⟩
      · obtain ⟨k', hk', rfl⟩ := List.mem_map.1 hk
        exact ⟨k', (List.mem_filter.1 hk').1, rfl⟩
    · rintro ⟨k', hk', rfl⟩
      by_cases hmn : Mentions k' t fld
      · exact .inr (List.mem_map.2 ⟨k', List.mem_filter.2 ⟨hk', (mentions_iff k' t fld).2 hmn⟩, rfl⟩)
      · left
        rw [renamedFK_of_not k' t fld new hmn]
        exact ⟨hk', hmn⟩

end Ticdat

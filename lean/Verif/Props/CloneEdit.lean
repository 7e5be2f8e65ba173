import Verif.Props.Clone
/-!
# C35: removing, adding and renaming columns, adding and removing tables
-/
set_option linter.unusedSectionVars false
set_option linter.unusedSimpArgs false
namespace Ticdat
open Spec PyDict
variable {V K : Type}

theorem inv_types_none {env : FactoryEnv} {f : Factory V K} (hf : FInv env f) {t : String} (h : t ∉ keys f.tables) (x : String) :
    get2 f.types t x = none := by
  cases e : get2 f.types t x with
  | none => rfl
  | some td =>
    obtain ⟨⟨_, _, h1, _⟩, _⟩ := hf.types t x td e
    exact absurd (List.mem_map.2 ⟨_, get?_mem h1, rfl⟩) h

theorem inv_defaults_none {env : FactoryEnv} {f : Factory V K} (hf : FInv env f) {t : String} (h : t ∉ keys f.tables) (x : String) :
    get2 f.defaults t x = none := by
  cases e : get2 f.defaults t x with
  | none => rfl
  | some td =>
    obtain ⟨⟨_, _, h1, _⟩, _⟩ := hf.defaults t x td e
    exact absurd (List.mem_map.2 ⟨_, get?_mem h1, rfl⟩) h

theorem inv_tips_none {env : FactoryEnv} {f : Factory V K} (hf : FInv env f) {t : String} (h : t ∉ keys f.tables) (x : String) :
    get? f.tooltips (t, x) = none := by
  cases e : get? f.tooltips (t, x) with
  | none => rfl
  | some td => exact absurd ((has_iff _ _).1 (hf.tips t x td e).1) h

theorem restricted_defaults {env : FactoryEnv} {f : Factory V K} (hf : FInv env f) (keep : List String)
    (removed : List (String × String)) (t x : String) :
    (get2 (keepEntries keep removed f.defaults) t x).or (get2 (zeroDefaults (restrictedOf f keep removed).tables) t x) =
      if t ∈ keep ∧ (t, x) ∉ removed then get2 f.defaults t x else none := by
  have hn : (keys (restrictedOf f keep removed).tables).Nodup := by
    simp only [restrictedOf]
    rw [keys_map_val (fun t d => Decl.keepFields removed t d)]
    exact (keys_filter_sublist _ _).nodup hf.tables_nodup
  rw [zeroDefaults_get2 hn, keepEntries_get2]
  by_cases hc : t ∈ keep ∧ (t, x) ∉ removed
  · simp only [hc, if_true, not_false_eq_true, and_self]
    cases e : get2 f.defaults t x with
    | some c => rfl
    | none =>
      rw [Option.none_or, if_neg]
      rintro ⟨pks, dfs, h1, h2⟩
      simp only [restrictedOf] at h1
      rw [restricted_get?, if_pos hc.1, Option.map_eq_some_iff] at h1
      obtain ⟨d, hd, e'⟩ := h1
      cases d with
      | generic => cases e'
      | fields pks' dfs' =>
        simp only [Decl.keepFields, Decl.fields.injEq] at e'
        rw [← e'.2, List.mem_filter] at h2
        have := hf.data_defaults _ _ _ _ hd h2.1
        rw [e] at this
        simp at this
  · rw [if_neg hc]
    rw [Option.none_or, if_neg]
    rintro ⟨pks, dfs, h1, h2⟩
    have : HasField (restrictedOf f keep removed).tables t x := ⟨pks, dfs, h1, List.mem_append_right _ h2⟩
    have := (restricted_hasField f.tables keep removed t x).1 this
    exact hc ⟨this.1, this.2.2⟩

/-- When `clone_remove_a_column` works. -/
structure CanRemove (env : FactoryEnv) (f : Factory V K) (t fld : String) : Prop where
  expressible : Expressible env f
  plain : NoGeneric f
  preds : NoGeneratorPreds f
  field : HasField f.tables t fld
  other : ∃ x, x ≠ fld ∧ HasField f.tables t x
  params : f.params ≠ [] → t ≠ "parameters"

theorem restricted_get?_all (f : Factory V K) (removed : List (String × String)) (t : String) :
    get? (restrictedOf f (keys f.tables) removed).tables t = (get? f.tables t).map (Decl.keepFields removed t) := by
  simp only [restrictedOf]
  rw [restricted_get?]
  by_cases h : t ∈ keys f.tables
  · rw [if_pos h]
  · rw [if_neg h, (get?_eq_none _ _).2 h]
    rfl

theorem goodDecl_nonempty {case : CaseEnv} {pks dfs : List String} (h : goodDecl case (.fields pks dfs) = true) :
    ∃ x, x ∈ pks ++ dfs := List.exists_mem_of_ne_nil _ ((goodDecl_iff _ _ _).1 h).1

theorem canRemove_restrictable {env : FactoryEnv} {f : Factory V K} (hf : FInv env f) {t fld : String}
    (h : CanRemove env f t fld) : Restrictable f (keys f.tables) [(t, fld)] := by
  refine ⟨fun t ht => (has_iff _ _).2 ht, h.plain, ?_, ?_⟩
  · intro t' _ pks dfs hg
    by_cases e : t' = t
    · obtain ⟨x, hx, pks', dfs', h1, h2⟩ := h.other
      rw [e, h1] at hg
      simp only [Option.some.injEq, Decl.fields.injEq] at hg
      exact ⟨x, hg.1 ▸ hg.2 ▸ h2, by simp [hx]⟩
    · obtain ⟨x, hx⟩ := goodDecl_nonempty (hf.decls _ (get?_mem hg))
      exact ⟨x, hx, by simp [e]⟩
  · intro hp _ x
    simp [Ne.symm (h.params hp)]

theorem keepFields_pkless (removed : List (String × String)) (t : String) (dfs : List String) :
    ∃ dfs', Decl.keepFields removed t (.fields [] dfs) = .fields [] dfs' := ⟨_, rfl⟩

/-- **C35.**  `clone_remove_a_column(t, fld)` yields the factory without that column: everything that mentions the column
is gone, everything else is as it was. -/
theorem clone_remove_column (env : FactoryEnv) (f : Factory V K) (hr : Reachable env f) (t fld : String)
    (h : CanRemove env f t fld) : ∃ g, f.cloneRemove env t fld = some g ∧ ColumnRemoved f g t fld := by
  have hf := reachable_inv env f hr
  obtain ⟨pks, dfs, hd, hm⟩ := h.field
  have htk : t ∈ keys f.tables := List.mem_map.2 ⟨_, get?_mem hd, rfl⟩
  have hne : f.tables ≠ [] := by intro e; rw [e] at htk; simp [keys] at htk
  have hv := restricted_valid env f hf (keys f.tables) [(t, fld)] (canRemove_restrictable hf h)
    (fun k hk _ _ => h.expressible.fks k hk) (fun _ p hp => ⟨h.expressible.names p hp, h.expressible.defaults p hp⟩)
  have he : restrictSchema f.schema (keys f.tables) [(t, fld)] = some (restrictedOf f (keys f.tables) [(t, fld)]) := by
    apply restrictSchema_eq f _ _ hf.tables_nodup (List.ne_nil_of_mem htk) hne
    · intro r hr
      rw [List.mem_singleton] at hr
      subst hr
      exact h.field
    · intro t ht
      exact (has_iff _ _).2 ht
    · exact h.plain
  obtain ⟨g, e, c⟩ := cloneWith_ok env f hf none
    (fun fs => (restrictSchema fs (keys f.tables) [(t, fld)]).bind (createFromFullSchema env)) _ hv (by
      simp only [Option.elim, Option.bind_some, he]) (by
      intro t' ht'
      have := hf.generators t' ht'
      unfold Factory.pkless at this
      split at this
      · rename_i dfs' hd'
        rw [restricted_get?_all, hd']
        exact ⟨_, rfl⟩
      · simp at this) (by
      intro t' n p hg _
      obtain ⟨pks', dfs', hd'⟩ := hf.preds t' n p hg
      refine ⟨?_, h.preds t' n p hg⟩
      rw [restricted_get?_all, hd']
      exact ⟨_, _, rfl⟩)
  refine ⟨g, ?_, ?_⟩
  · unfold Factory.cloneRemove
    rw [if_pos ((hasField_iff f t fld).2 h.field)]
    exact e
  · refine ⟨⟨?_, c.flag, c.prune, c.dups, c.automunge, c.generators, c.links, ?_, c.used⟩, ?_, ?_, ?_, ?_, ?_, ?_⟩
    · intro n
      rw [c.params]
      simp only [restrictedOf, Option.getD_some]
      split
      · rfl
      · rename_i hx
        by_cases hp : f.params = []
        · rw [hp]
        · obtain ⟨pk, df, h1⟩ := hf.params hp
          exact absurd (List.mem_map.2 ⟨_, get?_mem h1, rfl⟩) hx
    · intro t' n
      rw [c.preds]
      rfl
    · intro pks' dfs' h1
      rw [c.tables, restricted_get?_all, h1]
      simp [Decl.keepFields]
    · intro t' ht'
      rw [c.tables, restricted_get?_all]
      cases get? f.tables t' with
      | none => rfl
      | some d => rw [Option.map_some, keepFields_id]; simp [ht']
    · intro k
      rw [c.fks]
      simp only [restrictedOf, List.mem_filter]
      refine and_congr_right (fun hk => ?_)
      have w := hf.fks k hk
      have m : ∀ t, t ∈ keys (plainTables f.tables) → t ∈ keys f.tables := by
        intro t ht
        obtain ⟨ts, h1⟩ := (schema_mem _ _).1 ht
        exact List.mem_map.2 ⟨_, get?_mem ((plain_get? hf.tables_nodup t ts).1 h1), rfl⟩
      simp only [keepFK, Bool.and_eq_true, decide_eq_true_eq, List.all_eq_true, m _ w.native_mem, m _ w.foreign_mem, true_and,
        List.mem_singleton, Prod.mk.injEq, Mentions, not_exists, not_and, not_or]
    · intro t' x
      rw [c.types]
      simp only [restrictedOf, keepEntries_get2, List.mem_singleton, Prod.mk.injEq]
      by_cases hk : t' ∈ keys f.tables
      · by_cases hx : t' = t ∧ x = fld <;> simp [hk, hx]
      · simp [hk, inv_types_none hf hk x]
    · intro t' x
      rw [c.defaults]
      have := restricted_defaults hf (keys f.tables) [(t, fld)] t' x
      simp only [List.mem_singleton, Prod.mk.injEq] at this
      simp only [restrictedOf] at this ⊢
      rw [this]
      by_cases hk : t' ∈ keys f.tables
      · by_cases hx : t' = t ∧ x = fld <;> simp [hk, hx]
      · simp [hk, inv_defaults_none hf hk x]
    · intro t' x
      rw [c.tooltips]
      simp only [restrictedOf, Option.getD_some, keepEntries_get2, List.mem_singleton, Prod.mk.injEq, friendlyTips_of_inv env hf]
      by_cases hk : t' ∈ keys f.tables
      · by_cases hx : t' = t ∧ x = fld <;> simp [hk, hx]
      · simp [hk, inv_tips_none hf hk x]

/-! ### Adding a column -/

theorem restricted_all (f : Factory V K) : (restrictedOf f (keys f.tables) []).tables = f.tables := by
  simp only [restrictedOf]
  rw [List.filter_eq_self.2]
  · have : ∀ p : String × Decl, (p.1, p.2.keepFields [] p.1) = p := by
      rintro ⟨t, d⟩
      rw [keepFields_id]
      simp
    simp only [this]
    exact List.map_id' f.tables
  · intro p hp
    rw [decide_eq_true_eq]
    exact List.mem_map.2 ⟨p, hp, rfl⟩

theorem validSchema_grow {env : FactoryEnv} {fs : FullSchema} (h : ValidSchema env fs) (T : PyDict String Decl)
    (hn : (keys T).Nodup) (hnames : goodTableNames env.case ((keys T).map String.toList) = true)
    (hdecl : ∀ p ∈ T, goodDecl env.case p.2 = true) (hH : ∀ t x, HasField fs.tables t x → HasField T t x)
    (hhas : ∀ t, has fs.tables t = true → has T t = true)
    (hpar : fs.params.getD [] ≠ [] → get? T "parameters" = get? fs.tables "parameters") :
    ValidSchema env { fs with tables := T } := by
  refine ⟨⟨hn, h.dict.defaults, h.dict.types, h.dict.params, h.dict.tooltips⟩, hnames, hdecl, ?_, ?_, ?_, ?_, h.param, h.flag, ?_⟩
  · intro k hk
    have := (fkok_iff h.dict.tables k).1 (h.fks k hk)
    rw [fkok_iff hn]
    exact ⟨this.1, this.2.1, fun p hp => ⟨hH _ _ (this.2.2 p hp).1, hH _ _ (this.2.2 p hp).2⟩⟩
  · intro t fld td hg
    obtain ⟨h1, h2, h3⟩ := h.types t fld td hg
    refine ⟨hH _ _ h1, h2, ?_⟩
    rintro hne ⟨rfl, pks, dfs, h4, h5⟩
    simp only at h4
    rw [hpar hne] at h4
    exact h3 hne ⟨rfl, pks, dfs, h4, h5⟩
  · intro t fld c hg
    obtain ⟨h1, h2⟩ := h.defaults t fld c hg
    exact ⟨hH _ _ h1, h2⟩
  · intro hne
    obtain ⟨pk, df, e⟩ := h.params hne
    exact ⟨pk, df, (hpar hne).trans e⟩
  · intro t fld tip hg
    obtain ⟨h1, h2, h3⟩ := h.tooltips t fld tip hg
    exact ⟨hhas _ h1, h2.imp id (hH _ _), h3⟩

theorem insertAt_perm (l : List String) (i : Nat) (x : String) : (insertAt l i x).Perm (x :: l) := by
  unfold insertAt
  have := List.perm_middle (a := x) (l₁ := l.take i) (l₂ := l.drop i)
  rwa [List.take_append_drop] at this

/-- When `clone_add_a_column` works; `i` is the position. -/
structure CanAdd (env : FactoryEnv) (f : Factory V K) (t fld : String) (kind : FieldKind) (i : Nat) : Prop where
  expressible : Expressible env f
  plain : NoGeneric f
  preds : NoGeneratorPreds f
  place : ∃ pks dfs, get? f.tables t = some (.fields pks dfs) ∧ i ≤ (match kind with | .primaryKey => pks | .data => dfs).length
  fresh : ∀ x, HasField f.tables t x → env.case.lower x.toList ≠ env.case.lower fld.toList
  params : f.params ≠ [] → t ≠ "parameters"
  generator : kind = .primaryKey → t ∉ f.generators

/-- The tables with the column inserted. -/
def withField (T : PyDict String Decl) (t fld : String) (kind : FieldKind) (i : Nat) : PyDict String Decl :=
  T.map (fun p => (p.1, if p.1 = t then p.2.insertField kind i fld else p.2))

theorem withField_get? (T : PyDict String Decl) (t fld : String) (kind : FieldKind) (i : Nat) (t' : String) :
    get? (withField T t fld kind i) t' = (get? T t').map (fun d => if t' = t then d.insertField kind i fld else d) :=
  get?_map_val (fun (t' : String) (d : Decl) => if t' = t then d.insertField kind i fld else d) T t'

theorem withField_eq (T : PyDict String Decl) (t fld : String) (kind : FieldKind) (i : Nat) :
    T.map (fun p => if p.1 = t then (p.1, p.2.insertField kind i fld) else p) = withField T t fld kind i := by
  unfold withField
  apply List.map_congr_left
  intro p _
  split <;> rfl

theorem insertField_perm (kind : FieldKind) (i : Nat) (fld : String) (pks dfs : List String) :
    ∃ pks' dfs', Decl.insertField kind i fld (.fields pks dfs) = .fields pks' dfs' ∧ (pks' ++ dfs').Perm (fld :: (pks ++ dfs)) := by
  cases kind with
  | primaryKey =>
    refine ⟨_, _, rfl, ?_⟩
    have := (insertAt_perm pks i fld).append_right dfs
    exact this
  | data =>
    refine ⟨_, _, rfl, ?_⟩
    have := (insertAt_perm dfs i fld).append_left pks
    exact this.trans List.perm_middle

theorem withField_valid {env : FactoryEnv} {f : Factory V K} (hf : FInv env f) {t fld : String} {kind : FieldKind} {i : Nat}
    (h : CanAdd env f t fld kind i) :
    ValidSchema env { restrictedOf f (keys f.tables) [] with tables := withField f.tables t fld kind i } := by
  have hv := restricted_valid env f hf (keys f.tables) []
    ⟨fun t ht => (has_iff _ _).2 ht, h.plain, fun t' _ pks dfs hg => by
      obtain ⟨x, hx⟩ := goodDecl_nonempty (hf.decls _ (get?_mem hg))
      exact ⟨x, hx, by simp⟩, by simp⟩
    (fun k hk _ _ => h.expressible.fks k hk) (fun _ p hp => ⟨h.expressible.names p hp, h.expressible.defaults p hp⟩)
  have hk : keys (withField f.tables t fld kind i) = keys f.tables :=
    keys_map_val (fun t' d => if t' = t then Decl.insertField kind i fld d else d) f.tables
  obtain ⟨pks, dfs, hd, _⟩ := h.place
  apply validSchema_grow hv
  · rw [hk]; exact hf.tables_nodup
  · rw [hk]; exact hf.names
  · intro p hp
    have hg := get?_of_mem (by rw [hk]; exact hf.tables_nodup) hp
    rw [withField_get?, Option.map_eq_some_iff] at hg
    obtain ⟨d, h1, h2⟩ := hg
    rw [← h2]
    split
    · rename_i e
      rw [e, hd] at h1
      simp only [Option.some.injEq] at h1
      subst h1
      obtain ⟨pks', dfs', e', hp'⟩ := insertField_perm kind i fld pks dfs
      rw [e', goodDecl_iff]
      have g := (goodDecl_iff _ _ _).1 (hf.decls _ (get?_mem hd))
      have hfr : ∀ x ∈ pks ++ dfs, env.case.lower x.toList ≠ env.case.lower fld.toList := fun x hx => h.fresh x ⟨pks, dfs, hd, hx⟩
      refine ⟨?_, ?_, ?_⟩
      · intro e
        rw [e] at hp'
        exact absurd hp'.length_eq (by simp)
      · rw [hp'.nodup_iff, List.nodup_cons]
        exact ⟨fun hm => hfr fld hm rfl, g.2.1⟩
      · rw [(hp'.map _).nodup_iff, List.map_cons, List.nodup_cons]
        refine ⟨?_, g.2.2⟩
        intro hm
        obtain ⟨x, hx, e⟩ := List.mem_map.1 hm
        exact hfr x hx e
    · exact hf.decls _ (get?_mem h1)
  · intro t' x hh
    rw [restricted_all] at hh
    obtain ⟨pks', dfs', h1, h2⟩ := hh
    unfold HasField
    rw [withField_get?, h1]
    simp only [Option.map_some]
    split
    · obtain ⟨a, b, e', hp'⟩ := insertField_perm kind i fld pks' dfs'
      exact ⟨a, b, by rw [e'], hp'.symm.subset (List.mem_cons_of_mem _ h2)⟩
    · exact ⟨pks', dfs', rfl, h2⟩
  · intro t' hh
    rw [restricted_all] at hh
    unfold has at hh ⊢
    rw [withField_get?]
    cases e : get? f.tables t' with
    | none => rw [e] at hh; simp at hh
    | some d => rfl
  · intro hne
    have : f.params ≠ [] := by
      simp only [restrictedOf, Option.getD_some] at hne
      split at hne
      · exact hne
      · exact absurd rfl hne
    rw [withField_get?, restricted_all]
    have := h.params this
    cases get? f.tables "parameters" with
    | none => rfl
    | some d => simp [Ne.symm this]

/-- **C35.**  `clone_add_a_column(t, fld, kind, i)` inserts the column and changes nothing else; a new data field has the
default value 0. -/
theorem clone_add_column (env : FactoryEnv) (f : Factory V K) (hr : Reachable env f) (t fld : String) (kind : FieldKind) (i : Nat)
    (h : CanAdd env f t fld kind i) : ∃ g, f.cloneAdd env t fld kind (some i) = some g ∧ ColumnAdded f g t fld kind i := by
  have hf := reachable_inv env f hr
  obtain ⟨pks, dfs, hd, hi⟩ := h.place
  have htk : t ∈ keys f.tables := List.mem_map.2 ⟨_, get?_mem hd, rfl⟩
  have hne : f.tables ≠ [] := by intro e; rw [e] at htk; simp [keys] at htk
  have he : restrictSchema f.schema (keys f.tables) [] = some (restrictedOf f (keys f.tables) []) := by
    apply restrictSchema_eq f _ _ hf.tables_nodup (List.ne_nil_of_mem htk) hne
    · simp
    · intro t ht
      exact (has_iff _ _).2 ht
    · exact h.plain
  obtain ⟨g, e, c⟩ := cloneWith_ok env f hf none
    (fun fs => (restrictSchema fs (keys f.tables) []).bind (fun fs => createFromFullSchema env { fs with
      tables := fs.tables.map (fun p => if p.1 = t then (p.1, p.2.insertField kind i fld) else p) })) _ (withField_valid hf h) (by
      simp only [Option.elim, Option.bind_some, he]
      rw [restricted_all, withField_eq]) (by
      intro t' ht'
      have := hf.generators t' ht'
      unfold Factory.pkless at this
      split at this
      · rename_i dfs' hd'
        simp only
        rw [withField_get?, hd']
        simp only [Option.map_some]
        split
        · rename_i et
          cases kind with
          | primaryKey => exact absurd ht' (et ▸ h.generator rfl)
          | data => exact ⟨_, rfl⟩
        · exact ⟨_, rfl⟩
      · simp at this) (by
      intro t' n p hg _
      obtain ⟨pks', dfs', hd'⟩ := hf.preds t' n p hg
      refine ⟨?_, h.preds t' n p hg⟩
      simp only
      rw [withField_get?, hd']
      simp only [Option.map_some]
      split
      · obtain ⟨a, b, e', _⟩ := insertField_perm kind i fld pks' dfs'
        exact ⟨a, b, by rw [e']⟩
      · exact ⟨_, _, rfl⟩)
  refine ⟨g, ?_, ?_⟩
  · unfold Factory.cloneAdd Factory.kindFields
    rw [hd]
    simp only [Option.bind_some, Option.getD_some]
    rw [if_neg, if_pos]
    · exact e
    · exact ⟨Int.natCast_nonneg _, Int.ofNat_le.2 hi⟩
    · intro hm
      refine h.fresh fld ⟨pks, dfs, hd, ?_⟩ rfl
      cases kind with
      | primaryKey => exact List.mem_append_left _ hm
      | data => exact List.mem_append_right _ hm
  · have hkeys : (keys (withField f.tables t fld kind i)).Nodup := by
      rw [show keys (withField f.tables t fld kind i) = keys f.tables from
        keys_map_val (fun t' d => if t' = t then Decl.insertField kind i fld d else d) f.tables]
      exact hf.tables_nodup
    refine ⟨⟨?_, c.flag, c.prune, c.dups, c.automunge, c.generators, c.links, ?_, c.used⟩, ?_, ?_, ?_, ?_, ?_, ?_⟩
    · intro n
      rw [c.params]
      simp only [restrictedOf, Option.getD_some]
      split
      · rfl
      · rename_i hx
        by_cases hp : f.params = []
        · rw [hp]
        · obtain ⟨pk, df, h1⟩ := hf.params hp
          exact absurd (List.mem_map.2 ⟨_, get?_mem h1, rfl⟩) hx
    · intro t' n
      rw [c.preds]
      rfl
    · intro pks' dfs' h1
      rw [hd] at h1
      simp only [Option.some.injEq, Decl.fields.injEq] at h1
      obtain ⟨rfl, rfl⟩ := h1
      rw [c.tables]
      simp only [withField_get?, hd, Option.map_some, if_true]
      cases kind with
      | primaryKey => exact ⟨pks.take i, pks.drop i, (List.take_append_drop _ _).symm, List.length_take_of_le hi, rfl⟩
      | data => exact ⟨dfs.take i, dfs.drop i, (List.take_append_drop _ _).symm, List.length_take_of_le hi, rfl⟩
    · intro t' ht'
      rw [c.tables]
      simp only [withField_get?, ht', if_false]
      cases get? f.tables t' <;> rfl
    · intro k
      rw [c.fks]
      simp only [restrictedOf, List.mem_filter, and_iff_left_iff_imp]
      intro hk
      have w := hf.fks k hk
      have m : ∀ t, t ∈ keys (plainTables f.tables) → t ∈ keys f.tables := by
        intro t ht
        obtain ⟨ts, h1⟩ := (schema_mem _ _).1 ht
        exact List.mem_map.2 ⟨_, get?_mem ((plain_get? hf.tables_nodup t ts).1 h1), rfl⟩
      simp [keepFK, m _ w.native_mem, m _ w.foreign_mem]
    · intro t' x
      rw [c.types]
      simp only [restrictedOf, keepEntries_get2]
      by_cases hk : t' ∈ keys f.tables
      · simp [hk]
      · simp [hk, inv_types_none hf hk x]
    · intro t' x
      rw [c.defaults]
      simp only [restrictedOf, keepEntries_get2, List.not_mem_nil, not_false_eq_true, and_true]
      rw [zeroDefaults_get2 hkeys]
      have hz : (∃ pks' dfs', get? (withField f.tables t fld kind i) t' = some (.fields pks' dfs') ∧ x ∈ dfs') ↔
          (∃ pks' dfs', get? f.tables t' = some (.fields pks' dfs') ∧ x ∈ dfs') ∨ (t' = t ∧ x = fld ∧ kind = .data) := by
        rw [withField_get?]
        cases hg : get? f.tables t' with
        | none =>
          simp only [Option.map_none, reduceCtorEq, false_and, exists_const, false_or, false_iff, not_and]
          intro e
          rw [e, hd] at hg
          cases hg
        | some d =>
          simp only [Option.map_some, Option.some.injEq]
          by_cases e : t' = t
          · rw [e, hd] at hg
            simp only [Option.some.injEq] at hg
            subst hg
            simp only [e, if_true, true_and]
            cases kind with
            | primaryKey =>
              simp only [Decl.insertField, Decl.fields.injEq, reduceCtorEq, and_false, or_false]
              constructor
              · rintro ⟨_, _, ⟨_, rfl⟩, hx⟩; exact ⟨_, _, ⟨rfl, rfl⟩, hx⟩
              · rintro ⟨_, _, ⟨_, rfl⟩, hx⟩; exact ⟨_, _, ⟨rfl, rfl⟩, hx⟩
            | data =>
              simp only [Decl.insertField, Decl.fields.injEq, and_true]
              constructor
              · rintro ⟨_, _, ⟨_, rfl⟩, hx⟩
                rcases List.mem_cons.1 ((insertAt_perm dfs i fld).subset hx) with hx | hx
                · exact .inr hx
                · exact .inl ⟨_, _, ⟨rfl, rfl⟩, hx⟩
              · rintro (⟨_, _, ⟨_, rfl⟩, hx⟩ | rfl)
                · exact ⟨_, _, ⟨rfl, rfl⟩, (insertAt_perm _ i fld).symm.subset (List.mem_cons_of_mem _ hx)⟩
                · exact ⟨_, _, ⟨rfl, rfl⟩, (insertAt_perm _ i x).symm.subset List.mem_cons_self⟩
          · simp [e]
      by_cases hk : t' ∈ keys f.tables
      · simp only [hk, if_true]
        by_cases hn : t' = t ∧ x = fld ∧ kind = .data
        · have : get2 f.defaults t' x = none := by
            cases hg : get2 f.defaults t' x with
            | none => rfl
            | some c =>
              have := (hf.defaults _ _ _ hg).1
              rw [hn.1] at this
              exact absurd (by rw [hn.2.1]) (h.fresh x this)
          rw [this, Option.none_or, if_pos (hz.2 (.inr hn)), if_pos hn]
        · rw [if_neg hn]
          cases hg : get2 f.defaults t' x with
          | some c => rfl
          | none =>
            rw [Option.none_or, if_neg]
            intro hh
            rcases hz.1 hh with ⟨_, _, h1, h2⟩ | hh
            · have := hf.data_defaults _ _ _ _ h1 h2
              rw [hg] at this
              simp at this
            · exact hn hh
      · have hn : ¬ (t' = t ∧ x = fld ∧ kind = .data) := by
          rintro ⟨rfl, _⟩
          exact hk htk
        rw [if_neg hk, Option.none_or, if_neg hn, if_neg, inv_defaults_none hf hk x]
        intro hh
        rcases hz.1 hh with ⟨_, _, h1, h2⟩ | hh
        · exact hk (List.mem_map.2 ⟨_, get?_mem h1, rfl⟩)
        · exact hn hh
    · rintro ⟨t', x⟩
      rw [c.tooltips]
      simp only [restrictedOf, Option.getD_some, keepEntries_get2, friendlyTips_of_inv env hf]
      by_cases hk : t' ∈ keys f.tables
      · simp [hk]
      · simp [hk, inv_tips_none hf hk x]

end Ticdat

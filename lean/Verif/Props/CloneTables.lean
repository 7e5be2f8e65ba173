import Verif.Props.CloneRename
/-!
# C35: plain clones, clones with some of the tables, clones with one more table
-/
set_option linter.unusedSectionVars false
set_option linter.unusedSimpArgs false
namespace Ticdat
open Spec PyDict
variable {V K : Type}

theorem fk_tables {env : FactoryEnv} {f : Factory V K} (hf : FInv env f) {k : FK} (hk : k ∈ f.fks) :
    k.native ∈ keys f.tables ∧ k.foreign ∈ keys f.tables := by
  have w := hf.fks k hk
  have m : ∀ t, t ∈ keys (plainTables f.tables) → t ∈ keys f.tables := by
    intro t ht
    obtain ⟨ts, h1⟩ := (schema_mem _ _).1 ht
    exact List.mem_map.2 ⟨_, get?_mem ((plain_get? hf.tables_nodup t ts).1 h1), rfl⟩
  exact ⟨m _ w.native_mem, m _ w.foreign_mem⟩

theorem generators_pkless {env : FactoryEnv} {f : Factory V K} (hf : FInv env f) {t : String} (ht : t ∈ f.generators) :
    ∃ dfs, get? f.tables t = some (.fields [] dfs) := by
  have := hf.generators t ht
  unfold Factory.pkless at this
  split at this
  · rename_i dfs hd
    exact ⟨dfs, hd⟩
  · simp at this

/-- **C35.**  `clone()` yields a factory with the same settings, whatever the history of the original. -/
theorem clone_same (env : FactoryEnv) (f : Factory V K) (hr : Reachable env f) (he : Expressible env f) (hp : NoGeneratorPreds f) :
    ∃ g, f.clone env none = some g ∧ SameFactory f g := by
  have hf := reachable_inv env f hr
  have hv := validSchema_of_inv env f hf he f.schema (schema_isDict hr) (sameSchema_refl _)
  obtain ⟨g, e, c⟩ := cloneWith_ok env f hf none (createFromFullSchema env) f.schema hv rfl
    (fun t ht => generators_pkless hf ht) (fun t n p hg _ => ⟨hf.preds t n p hg, hp t n p hg⟩)
  refine ⟨g, e, ⟨c.params, c.flag, c.prune, c.dups, c.automunge, c.generators, c.links, ?_, c.used⟩, ?_, c.fks, c.types, ?_, ?_⟩
  · intro t n
    rw [c.preds]
    rfl
  · intro t
    rw [c.tables]
    rfl
  · intro t x
    rw [c.defaults]
    simp only [Factory.schema]
    cases hg : get2 f.defaults t x with
    | some v => rfl
    | none =>
      rw [Option.none_or, zeroDefaults_get2 hf.tables_nodup, if_neg]
      rintro ⟨_, _, h1, h2⟩
      have := hf.data_defaults _ _ _ _ h1 h2
      rw [hg] at this
      simp at this
  · rintro ⟨t, x⟩
    rw [c.tooltips]
    simp only [Factory.schema, Option.getD_some]
    exact friendlyTips_of_inv env hf t x

/-- When `clone(table_restrictions=ts)` works. -/
structure CanKeep (env : FactoryEnv) (f : Factory V K) (ts : List String) : Prop where
  some_table : ts ≠ []
  sub : ∀ t ∈ ts, has f.tables t = true
  plain : NoGeneric f
  generators : ∀ t ∈ f.generators, t ∈ ts
  preds : ∀ t n p, t ∈ ts → get2 f.preds t n = some p → t ∉ f.generators
  fks : ∀ k ∈ f.fks, k.native ∈ ts → k.foreign ∈ ts → k.mapping ≠ []
  params : "parameters" ∈ ts → ∀ p ∈ f.params, p.1.stringish = true ∧ env.containerish p.2.2 = false

/-- **C35.**  `clone(table_restrictions=ts)` keeps the tables in `ts` with everything said about them, the foreign keys
between them, and nothing else. -/
theorem clone_tables_kept (env : FactoryEnv) (f : Factory V K) (hr : Reachable env f) (ts : List String)
    (h : CanKeep env f ts) : ∃ g, f.clone env (some ts) = some g ∧ TablesKept f g ts := by
  have hf := reachable_inv env f hr
  have hne : f.tables ≠ [] := by
    obtain ⟨t, ht⟩ := List.exists_mem_of_ne_nil _ h.some_table
    have := h.sub t ht
    intro e
    rw [e] at this
    simp [has, get?] at this
  have hT : ∀ t, get? (restrictedOf f ts []).tables t = if t ∈ ts then get? f.tables t else none := by
    intro t
    simp only [restrictedOf]
    rw [restricted_get?]
    split
    · cases get? f.tables t with
      | none => rfl
      | some d => rw [Option.map_some, keepFields_id]; simp
    · rfl
  have he := restrictSchema_eq f ts [] hf.tables_nodup h.some_table hne (by simp) h.sub h.plain
  have hv := restricted_valid env f hf ts []
    ⟨h.sub, h.plain, fun t' _ pks dfs hg => by
      obtain ⟨x, hx⟩ := goodDecl_nonempty (hf.decls _ (get?_mem hg))
      exact ⟨x, hx, by simp⟩, by simp⟩ h.fks h.params
  obtain ⟨g, e, c⟩ := cloneWith_ok env f hf (some ts) (createFromFullSchema env) _ hv (by
      simp only [Option.elim, he, Option.bind_some]) (by
      intro t ht
      rw [hT, if_pos (h.generators t ht)]
      exact generators_pkless hf ht) (by
      intro t n p hg hq
      simp only [Option.elim, decide_eq_true_eq] at hq
      rw [hT, if_pos hq]
      exact ⟨hf.preds t n p hg, h.preds t n p hq hg⟩)
  refine ⟨g, e, ⟨?_, ?_, ?_, ?_, ?_, ?_, ?_, c.flag, c.prune, c.dups, c.automunge, c.generators, c.links, c.used⟩⟩
  · intro t
    rw [c.tables, hT]
  · intro k
    rw [c.fks]
    simp [restrictedOf, keepFK]
  · intro t x
    rw [c.types]
    simp [restrictedOf, keepEntries_get2]
  · intro t x
    rw [c.defaults]
    have := restricted_defaults hf ts [] t x
    simp only [restrictedOf] at this ⊢
    rw [this]
    simp
  · intro t x
    rw [c.tooltips]
    simp [restrictedOf, keepEntries_get2, friendlyTips_of_inv env hf]
  · intro t n
    rw [c.preds]
    simp
  · intro n
    rw [c.params]
    simp only [restrictedOf, Option.getD_some]
    split <;> rfl

/-- When `clone_add_a_table(t, pks, dfs)` works. -/
structure CanAddTable (env : FactoryEnv) (f : Factory V K) (t : String) (pks dfs : List String) : Prop where
  expressible : Expressible env f
  plain : NoGeneric f
  preds : NoGeneratorPreds f
  some_table : f.tables ≠ []
  fresh : has f.tables t = false
  name : goodTableNames env.case ((keys f.tables ++ [t]).map String.toList) = true
  decl : goodDecl env.case (.fields pks dfs) = true

theorem set_new {A B : Type} [DecidableEq A] (d : PyDict A B) (k : A) (v : B) (h : k ∉ keys d) : PyDict.set d k v = d ++ [(k, v)] := by
  induction d with
  | nil => rfl
  | cons p d ih =>
    obtain ⟨k', v'⟩ := p
    simp only [keys, List.map_cons, List.mem_cons, not_or] at h
    simp only [PyDict.set]
    rw [if_neg (fun e => h.1 e.symm), ih h.2]
    rfl

/-- **C35.**  `clone_add_a_table(t, pks, dfs)` adds the table, whose data fields get the default value 0, and changes
nothing else. -/
theorem clone_add_table (env : FactoryEnv) (f : Factory V K) (hr : Reachable env f) (t : String) (pks dfs : List String)
    (h : CanAddTable env f t pks dfs) : ∃ g, f.cloneAddTable env t pks dfs = some g ∧ TableAdded f g t pks dfs := by
  have hf := reachable_inv env f hr
  have hnk : t ∉ keys f.tables := by
    intro hm
    have := (has_iff _ _).2 hm
    rw [h.fresh] at this
    cases this
  have hpar : f.params ≠ [] → t ≠ "parameters" := by
    rintro hp rfl
    obtain ⟨pk, df, h1⟩ := hf.params hp
    exact hnk (List.mem_map.2 ⟨_, get?_mem h1, rfl⟩)
  have hkne : keys f.tables ≠ [] := by simpa [keys] using h.some_table
  have he : restrictSchema f.schema (keys f.tables) [] = some (restrictedOf f (keys f.tables) []) := by
    apply restrictSchema_eq f _ _ hf.tables_nodup hkne h.some_table
    · simp
    · intro t ht
      exact (has_iff _ _).2 ht
    · exact h.plain
  have hset := set_new f.tables t (.fields pks dfs) hnk
  have hkeys : (keys (PyDict.set f.tables t (.fields pks dfs))).Nodup := keys_set_nodup _ _ _ hf.tables_nodup
  have hT : ∀ t', get? (PyDict.set f.tables t (.fields pks dfs)) t' = if t' = t then some (.fields pks dfs) else get? f.tables t' := by
    intro t'
    rw [get?_set]
    by_cases e : t' = t
    · rw [if_pos e.symm, if_pos e]
    · rw [if_neg (Ne.symm e), if_neg e]
  have hv : ValidSchema env { restrictedOf f (keys f.tables) [] with tables := PyDict.set f.tables t (.fields pks dfs) } := by
    have hv := restricted_valid env f hf (keys f.tables) []
      ⟨fun t ht => (has_iff _ _).2 ht, h.plain, fun t' _ pks dfs hg => by
        obtain ⟨x, hx⟩ := goodDecl_nonempty (hf.decls _ (get?_mem hg))
        exact ⟨x, hx, by simp⟩, by simp⟩
      (fun k hk _ _ => h.expressible.fks k hk) (fun _ p hp => ⟨h.expressible.names p hp, h.expressible.defaults p hp⟩)
    apply validSchema_grow hv _ hkeys
    · rw [hset]
      simpa [keys] using h.name
    · intro p hp
      rw [hset] at hp
      rcases List.mem_append.1 hp with hp | hp
      · exact hf.decls p hp
      · rw [List.mem_singleton] at hp
        rw [hp]
        exact h.decl
    · intro t' x hh
      rw [restricted_all] at hh
      obtain ⟨a, b, h1, h2⟩ := hh
      refine ⟨a, b, ?_, h2⟩
      rw [hT, if_neg, h1]
      rintro rfl
      exact hnk (List.mem_map.2 ⟨_, get?_mem h1, rfl⟩)
    · intro t' hh
      rw [restricted_all] at hh
      unfold has at hh ⊢
      rw [hT]
      split
      · rfl
      · exact hh
    · intro hne
      have : f.params ≠ [] := by
        simp only [restrictedOf, Option.getD_some] at hne
        split at hne
        · exact hne
        · exact absurd rfl hne
      rw [restricted_all, hT, if_neg (Ne.symm (hpar this))]
  obtain ⟨g, e, c⟩ := cloneWith_ok env f hf none
    (fun fs => (restrictSchema fs (keys f.tables) []).bind (fun fs => createFromFullSchema env { fs with
      tables := PyDict.set fs.tables t (.fields pks dfs) })) _ hv (by
      simp only [Option.elim, Option.bind_some, he]
      rw [restricted_all]) (by
      intro t' ht'
      obtain ⟨d, hd⟩ := generators_pkless hf ht'
      refine ⟨d, ?_⟩
      simp only
      rw [hT, if_neg, hd]
      rintro rfl
      exact hnk (List.mem_map.2 ⟨_, get?_mem hd, rfl⟩)) (by
      intro t' n p hg _
      obtain ⟨a, b, hd⟩ := hf.preds t' n p hg
      refine ⟨⟨a, b, ?_⟩, h.preds t' n p hg⟩
      simp only
      rw [hT, if_neg, hd]
      rintro rfl
      exact hnk (List.mem_map.2 ⟨_, get?_mem hd, rfl⟩))
  refine ⟨g, ?_, ?_⟩
  · unfold Factory.cloneAddTable
    rw [if_neg]
    · exact e
    · simp only [h.fresh, Bool.false_or, decide_eq_true_eq]
      exact ((goodDecl_iff _ _ _).1 h.decl).1
  · refine ⟨⟨?_, c.flag, c.prune, c.dups, c.automunge, c.generators, c.links, ?_, c.used⟩, ?_, ?_, ?_, ?_, ?_, ?_⟩
    · intro n
      rw [c.params]
      simp only [restrictedOf, Option.getD_some]
      split
      · rfl
      · rename_i hx
        by_cases hp : f.params = []
        · rw [hp]
        · obtain ⟨pk, df, h1⟩ := hf.params hp
          exact absurd (List.mem_map.2 ⟨_, get?_mem h1, rfl⟩) hx
    · intro t' n
      rw [c.preds]
      rfl
    · rw [c.tables]
      simp only
      rw [hT, if_pos rfl]
    · intro t' ht'
      rw [c.tables]
      simp only
      rw [hT, if_neg ht']
    · intro k
      rw [c.fks]
      simp only [restrictedOf, List.mem_filter, and_iff_left_iff_imp]
      intro hk
      simp [keepFK, fk_tables hf hk]
    · intro t' x
      rw [c.types]
      simp only [restrictedOf, keepEntries_get2]
      by_cases hk : t' ∈ keys f.tables
      · simp [hk]
      · simp [hk, inv_types_none hf hk x]
    · intro t' x
      rw [c.defaults]
      simp only [restrictedOf, keepEntries_get2, List.not_mem_nil, not_false_eq_true, and_true]
      rw [zeroDefaults_get2 hkeys, hT]
      by_cases e : t' = t
      · subst e
        rw [if_neg hnk, Option.none_or, if_pos (c := t' = t') rfl, inv_defaults_none hf hnk x]
        by_cases hx : x ∈ dfs
        · rw [if_pos ⟨pks, dfs, rfl, hx⟩, if_pos ⟨rfl, hx⟩]
        · rw [if_neg, if_neg (fun hh => hx hh.2)]
          rintro ⟨a, b, h1, h2⟩
          simp only [Option.some.injEq, Decl.fields.injEq] at h1
          exact hx (h1.2 ▸ h2)
      · rw [if_neg e, if_neg (c := t' = t ∧ x ∈ dfs) (fun hh => e hh.1)]
        by_cases hk : t' ∈ keys f.tables
        · rw [if_pos hk]
          cases hg : get2 f.defaults t' x with
          | some c => rfl
          | none =>
            rw [Option.none_or, if_neg]
            rintro ⟨_, _, h1, h2⟩
            have := hf.data_defaults _ _ _ _ h1 h2
            rw [hg] at this
            simp at this
        · rw [if_neg hk, Option.none_or, (get?_eq_none _ _).2 hk, inv_defaults_none hf hk x]
          simp
    · rintro ⟨t', x⟩
      rw [c.tooltips]
      simp only [restrictedOf, Option.getD_some, keepEntries_get2, friendlyTips_of_inv env hf]
      by_cases hk : t' ∈ keys f.tables
      · simp [hk]
      · simp [hk, inv_tips_none hf hk x]

/-! ### Examples -/

def clTables : PyDict String Decl :=
  [("parameters", .fields ["name"] ["value"]), ("foods", .fields ["name"] ["cost"]), ("notes", .fields [] ["text"]),
   ("links", .fields ["source", "dest"] ["cap", "kind"])]

def clOps : List (FOp Nat Nat) :=
  [.addFK "links" "foods" [("source", "name")], .setDataType "links" "cap" exArgs, .setDefault "foods" "cost" .none,
   .addParam (.str "p") (.num (.fin 3)) (some exArgs), .addParam (.str "q") (.str "x") none, .setTooltip "foods" "" "eat",
   .setTooltip "foods" "cost" "in euros", .setFlag (.num (.fin 1000)), .setDups "warn", .setGenerators ["notes"], .enableLinks, .use]

def clFactory0 : Factory Nat Nat :=
  { tables := clTables, defaults := zeroDefaults clTables, types := [], preds := [], tooltips := [], generators := [],
    fks := [], links := false, params := [], flag := .na, prune := true, dups := .assert, automunge := true, used := false }

def clFactory : Factory Nat Nat := clFactory0.applyAll exEnv clOps

theorem clFactory0_new : newFactory exEnv clTables = some clFactory0 := by
  unfold newFactory
  rw [if_pos (by decide +kernel)]
  rfl

theorem clFactory_reachable : Reachable exEnv clFactory :=
  ⟨clTables, clFactory0, clOps, by decide +kernel, clFactory0_new, applyAll_run _ _ _ (by simp [clOps])⟩

theorem clFactory_plain : NoGeneric clFactory := by
  intro t h
  have : ∀ p ∈ clFactory.tables, p.2 ≠ .generic := by decide +kernel
  exact this _ (get?_mem h) rfl

theorem clFactory_preds : NoGeneratorPreds clFactory := by
  intro t n p h
  have : clFactory.preds = [] := by decide +kernel
  rw [this] at h
  simp [get2, get?] at h

theorem clFactory_expressible : Expressible exEnv clFactory := ⟨by decide +kernel, by decide +kernel, by decide +kernel⟩

theorem clFactory_fields {x : String} (h : HasField clFactory.tables "links" x) : x ∈ ["source", "dest", "cap", "kind"] := by
  obtain ⟨pks, dfs, h1, h2⟩ := h
  have e : get? clFactory.tables "links" = some (.fields ["source", "dest"] ["cap", "kind"]) := by decide +kernel
  rw [e] at h1
  simp only [Option.some.injEq, Decl.fields.injEq] at h1
  obtain ⟨rfl, rfl⟩ := h1
  simpa using h2

theorem clFactory_remove : CanRemove exEnv clFactory "links" "source" :=
  ⟨clFactory_expressible, clFactory_plain, clFactory_preds, ⟨["source", "dest"], ["cap", "kind"], by decide +kernel, by simp⟩,
    ⟨"cap", by decide, ["source", "dest"], ["cap", "kind"], by decide +kernel, by simp⟩, fun _ => by decide⟩

/-- A factory with foreign keys, types, parameters, tooltips, a generator table and a history meets the conditions of
all five theorems: the renamed column is one that a foreign key mentions. -/
example : Reachable exEnv clFactory ∧ CanRemove exEnv clFactory "links" "source" ∧
    CanRename exEnv clFactory "links" "source" "Origin" ∧ CanAdd exEnv clFactory "links" "unit" .data 1 ∧
    CanKeep exEnv clFactory ["foods", "notes", "links"] ∧ CanAddTable exEnv clFactory "extra" ["a"] ["b"] ∧
    (∃ k ∈ clFactory.fks, Mentions k "links" "source") := by
  refine ⟨clFactory_reachable, clFactory_remove, ⟨clFactory_remove, ?_, by decide, by decide, by decide⟩,
    ⟨clFactory_expressible, clFactory_plain, clFactory_preds, ⟨["source", "dest"], ["cap", "kind"], by decide +kernel, by decide⟩, ?_,
      fun _ => by decide, by simp⟩,
    ⟨by simp, by decide +kernel, clFactory_plain, by decide +kernel, fun t n p _ hg => clFactory_preds t n p hg, by decide +kernel, by simp⟩,
    ⟨clFactory_expressible, clFactory_plain, clFactory_preds, by decide +kernel, by decide +kernel, by decide +kernel, by decide +kernel⟩,
    ⟨⟨"links", "foods", [("source", "name")]⟩, by decide +kernel, ("source", "name"), by simp, .inl ⟨rfl, rfl⟩⟩⟩
  · intro x _ hx
    have := clFactory_fields hx
    simp only [List.mem_cons, List.not_mem_nil, or_false] at this
    rcases this with rfl | rfl | rfl | rfl <;> decide +kernel
  · intro x hx
    have := clFactory_fields hx
    simp only [List.mem_cons, List.not_mem_nil, or_false] at this
    rcases this with rfl | rfl | rfl | rfl <;> decide +kernel

/-! ### Where the clones fail -/

theorem restrictSchema_generic (fs : FullSchema) (ts : List String) (removed : List (String × String)) (t : String)
    (h : get? fs.tables t = some .generic) : restrictSchema fs ts removed = none := by
  unfold restrictSchema
  simp only
  split
  · rfl
  · rw [if_pos]
    rw [List.any_eq_true]
    exact ⟨t, List.mem_map.2 ⟨_, get?_mem h, rfl⟩, decide_eq_true h⟩

/-- **Finding (C35).**  With one generic table in the factory every restricted or edited clone raises, whichever table or
column it concerns. -/
theorem generic_table_blocks_clones (env : FactoryEnv) (f : Factory V K) (t : String) (h : get? f.tables t = some .generic) :
    (∀ ts, f.clone env (some ts) = none) ∧ (∀ t fld, f.cloneRemove env t fld = none) ∧
    (∀ t fld kind pos, f.cloneAdd env t fld kind pos = none) ∧ (∀ t pks dfs, f.cloneAddTable env t pks dfs = none) ∧
    (∀ t fld new, f.cloneRename env t fld new = none) := by
  have hr : ∀ ts removed, restrictSchema f.schema ts removed = none := fun ts removed => restrictSchema_generic _ ts removed t h
  have h1 : ∀ t fld, f.cloneRemove env t fld = none := by
    intro t fld
    unfold Factory.cloneRemove Factory.cloneWith
    simp [hr]
  refine ⟨?_, h1, ?_, ?_, ?_⟩
  · intro ts
    unfold Factory.clone Factory.cloneWith
    simp [hr]
  · intro t fld kind pos
    unfold Factory.cloneAdd Factory.cloneWith
    simp [hr]
  · intro t pks dfs
    unfold Factory.cloneAddTable Factory.cloneWith
    simp [hr]
  · intro t fld new
    unfold Factory.cloneRename
    simp [h1]

/-- **Finding (C35).**  `clone(table_restrictions=ts)` raises when `ts` leaves out a generator table. -/
theorem dropped_generator_raises : Reachable exEnv clFactory ∧ clFactory.clone exEnv (some ["foods", "links"]) = none := by
  refine ⟨clFactory_reachable, ?_⟩
  decide +kernel

/-- **Finding (C35).**  `clone(table_restrictions=[])` keeps every table and drops every data row predicate. -/
theorem empty_restriction_keeps_tables : ∃ f g : Factory Nat Nat, Reachable exEnv f ∧ f.clone exEnv (some []) = some g ∧
    g.tables = f.tables ∧ f.preds ≠ [] ∧ g.preds = [] := by
  have r : Reachable exEnv (clFactory0.applyAll exEnv [.addRowPred ⟨"foods", none, some ⟨fun _ _ => .ret .tru, none, false⟩⟩]) :=
    ⟨clTables, clFactory0, _, by decide +kernel, clFactory0_new, applyAll_run _ _ _ (by simp)⟩
  refine ⟨_, _, r, Option.eq_some_of_isSome (by decide +kernel), by decide +kernel, ?_, ?_⟩
  · intro h
    have : (clFactory0.applyAll exEnv [.addRowPred ⟨"foods", none, some ⟨fun _ _ => .ret .tru, none, false⟩⟩]).preds.length = 1 := by
      decide +kernel
    rw [h] at this
    cases this
  · apply List.eq_nil_of_length_eq_zero
    decide +kernel

/-- **Finding (C35).**  A factory whose generator table has a data row predicate (the predicate was added first) cannot be
cloned at all. -/
theorem generator_predicate_blocks_clone : ∃ f : Factory Nat Nat, Reachable exEnv f ∧ Expressible exEnv f ∧ f.clone exEnv none = none := by
  have r : Reachable exEnv (clFactory0.applyAll exEnv [.addRowPred ⟨"notes", none, some ⟨fun _ _ => .ret .tru, none, false⟩⟩,
      .setGenerators ["notes"]]) :=
    ⟨clTables, clFactory0, _, by decide +kernel, clFactory0_new, applyAll_run _ _ _ (by simp)⟩
  refine ⟨_, r, ⟨by decide +kernel, by decide +kernel, by decide +kernel⟩, ?_⟩
  rw [← Option.isNone_iff_eq_none]
  decide +kernel

/-- **Finding (C35).**  A column that is the only one of its table cannot be renamed. -/
theorem only_column_cannot_be_renamed : Reachable exEnv clFactory ∧ HasField clFactory.tables "notes" "text" ∧
    clFactory.cloneRename exEnv "notes" "text" "words" = none := by
  refine ⟨clFactory_reachable, ⟨[], ["text"], by decide +kernel, by simp⟩, ?_⟩
  rw [← Option.isNone_iff_eq_none]
  decide +kernel

/-- **Finding (C35).**  The columns of the parameters table cannot be renamed once there are parameters. -/
theorem parameters_column_cannot_be_renamed : Reachable exEnv clFactory ∧ HasField clFactory.tables "parameters" "value" ∧
    clFactory.cloneRename exEnv "parameters" "value" "setting" = none := by
  refine ⟨clFactory_reachable, ⟨["name"], ["value"], by decide +kernel, by simp⟩, ?_⟩
  rw [← Option.isNone_iff_eq_none]
  decide +kernel

/-- **Finding (C35).**  `clone_add_a_table` cannot add the first table. -/
theorem no_first_table (env : FactoryEnv) (f : Factory V K) (h : f.tables = []) (t : String) (pks dfs : List String) :
    f.cloneAddTable env t pks dfs = none := by
  unfold Factory.cloneAddTable Factory.cloneWith
  have : ∀ ts, restrictSchema f.schema ts [] = none := by
    intro ts
    unfold restrictSchema
    simp [Factory.schema, h]
  simp [this]

end Ticdat

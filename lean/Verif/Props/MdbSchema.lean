import Verif.Spec.MdbSchema
import Verif.Props.MdbFileWrite
/-!
# C90: the schemas of new Access databases
-/
set_option linter.unusedSectionVars false
set_option linter.unusedSimpArgs false
namespace Ticdat
open Spec

theorem hasSuffix_iff (path suffix : String) : hasSuffix path suffix = true ↔ ∃ stem : List Char, path.toList = stem ++ suffix.toList := by
  unfold hasSuffix
  rw [List.isSuffixOf_iff_suffix]
  exact ⟨fun ⟨s, h⟩ => ⟨s, h.symm⟩, fun ⟨s, h⟩ => ⟨s, h.symm⟩⟩

theorem accessPath_iff (path : String) : (hasSuffix path ".mdb" || hasSuffix path ".accdb") = true ↔ AccessPath path := by
  rw [Bool.or_eq_true, hasSuffix_iff, hasSuffix_iff]
  constructor
  · rintro (⟨s, h⟩ | ⟨s, h⟩)
    · exact ⟨s, .inl h⟩
    · exact ⟨s, .inr h⟩
  · rintro ⟨s, h | h⟩
    · exact .inl ⟨s, h⟩
    · exact .inr ⟨s, h⟩

theorem two_suffixes (l a b : List Char) (h1 : l = a ++ ".mdb".toList) (h2 : l = b ++ ".accdb".toList) : False := by
  have e1 := congrArg (fun l => l.reverse.take 4) h1
  have e2 := congrArg (fun l => l.reverse.take 4) h2
  rw [e1] at e2
  simp at e2

theorem canCreate_iff (host : MdbHost) (path : String) : mdbCanCreate host path = true ↔ CanMake host path := by
  unfold mdbCanCreate CanMake
  rw [← hasSuffix_iff, ← hasSuffix_iff]
  cases h1 : hasSuffix path ".mdb" with
  | true =>
    have h2 : hasSuffix path ".accdb" = false := by
      cases h2 : hasSuffix path ".accdb" with
      | false => rfl
      | true =>
        obtain ⟨a, ha⟩ := (hasSuffix_iff _ _).mp h1
        obtain ⟨b, hb⟩ := (hasSuffix_iff _ _).mp h2
        exact (two_suffixes _ a b ha hb).elim
    simp [h2]
  | false =>
    cases h2 : hasSuffix path ".accdb" <;> simp

theorem lookup_of_get? {V : Type} (d : PyDict String V) (k : String) : PyDict.get? d k = d.lookup k := get?_eq_lookup d k

theorem schemaArgs_iff (schema : List (String × TabClass)) (hn : (schema.map Prod.fst).Nodup) (types : FieldTypes) :
    mdbSchemaArgs schema types = true ↔ GoodFieldTypes schema types := by
  unfold mdbSchemaArgs GoodFieldTypes
  rw [List.all_eq_true]
  constructor
  · intro h t v hv
    have := h (t, v) hv
    simp only at this
    cases hc : PyDict.get? schema t with
    | none => simp [hc] at this
    | some c =>
      cases v with
      | none => simp [hc] at this
      | some m =>
        simp only [hc, List.all_eq_true, Bool.and_eq_true, decide_eq_true_eq] at this
        refine ⟨c, m, PyDict.get?_mem hc, rfl, fun f ty hm => ?_⟩
        obtain ⟨h1, h2⟩ := this (f, ty) hm
        exact ⟨h1, by simpa using h2⟩
  · rintro h ⟨t, v⟩ hv
    obtain ⟨c, m, h1, rfl, h2⟩ := h t v hv
    simp only [PyDict.get?_of_mem hn h1, List.all_eq_true, Bool.and_eq_true, decide_eq_true_eq]
    rintro ⟨f, ty⟩ hm
    obtain ⟨h3, h4⟩ := h2 f ty hm
    exact ⟨h3, by simpa using h4⟩

theorem colType_spec (types : FieldTypes) (params : Params) (t : String) (c : TabClass) (f dflt : String)
    (h : (f ∈ c.pks ∧ dflt = "text") ∨ (f ∈ c.dfs ∧ dflt = "double")) :
    ColumnType types params t c f (mdbColType types params t f dflt) := by
  unfold ColumnType AskedType mdbColType
  have hasked : ∀ ty, (PyDict.get? types t).bind (fun m => m.bind (fun m => PyDict.get? m f)) = some ty ↔
      ∃ m, types.lookup t = some (some m) ∧ m.lookup f = some ty := by
    intro ty
    rw [lookup_of_get? types t]
    constructor
    · intro h
      rw [Option.bind_eq_some_iff] at h
      obtain ⟨v, h1, h2⟩ := h
      rw [Option.bind_eq_some_iff] at h2
      obtain ⟨m, h2, h3⟩ := h2
      exact ⟨m, by rw [h1, h2], by rw [← lookup_of_get?]; exact h3⟩
    · rintro ⟨m, h1, h2⟩
      rw [h1]
      simp [lookup_of_get?, h2]
  cases hx : (PyDict.get? types t).bind (fun m => m.bind (fun m => PyDict.get? m f)) with
  | some ty => exact .inl ((hasked ty).mp hx)
  | none =>
    refine .inr ⟨fun ty' h' => (by rw [(hasked ty').mpr h'] at hx; cases hx), ?_⟩
    by_cases hp : t = "parameters" ∧ params ≠ []
    · exact .inl ⟨hp.1, hp.2, by simp [hp]⟩
    · exact .inr ⟨hp, by simp only [if_neg hp]; exact h⟩

theorem pairwise2_map {A B : Type} (R : A → B → Prop) (g : A → B) : ∀ l : List A, (∀ a ∈ l, R a (g a)) → Pairwise2 R l (l.map g)
  | [], _ => .nil
  | a :: l, h => .cons (h a List.mem_cons_self) (pairwise2_map R g l (fun b hb => h b (List.mem_cons_of_mem _ hb)))

theorem pairwise2_append {A B : Type} (R : A → B → Prop) {l : List A} {l' : List B} {m : List A} {m' : List B}
    (h : Pairwise2 R l l') (h' : Pairwise2 R m m') : Pairwise2 R (l ++ m) (l' ++ m') := by
  induction h with
  | nil => exact h'
  | cons h _ ih => exact .cons h ih

theorem decl_spec (types : FieldTypes) (params : Params) (tc : String × TabClass) :
    NewTable types params tc (tc.1, mdbDecl types params tc) := by
  refine ⟨rfl, ?_, rfl, rfl, ?_⟩
  · simp [mdbDecl, TabClass.fields, Function.comp_def]
  · exact pairwise2_append _ (pairwise2_map _ _ _ (fun f hf => colType_spec types params tc.1 tc.2 f "text" (.inl ⟨hf, rfl⟩)))
      (pairwise2_map _ _ _ (fun f hf => colType_spec types params tc.1 tc.2 f "double" (.inr ⟨hf, rfl⟩)))

/-- What makes a CREATE TABLE fail. -/
def TabRefused (cenv : CaseEnv) (ok : String → MdbTab → Bool) (types : FieldTypes) (params : Params) (base : MdbBase)
    (tc : String × TabClass) : Prop :=
  (∃ k ∈ PyDict.keys base, SqlSame cenv k tc.1) ∨ tc.2.fields = [] ∨ ¬ (tc.2.fields.map (fun f => cenv.lower f.toList)).Nodup ∨
    ok tc.1 (mdbDecl types params tc) = false

theorem createTab_cases (cenv : CaseEnv) (ok : String → MdbTab → Bool) (types : FieldTypes) (params : Params)
    (tc : String × TabClass) (base : MdbBase) :
    (TabRefused cenv ok types params base tc ∧ mdbCreateTab cenv ok types params tc base = none) ∨
      (¬ TabRefused cenv ok types params base tc ∧
        mdbCreateTab cenv ok types params tc base = some (base ++ [(tc.1, mdbDecl types params tc)])) := by
  have hany : base.any (fun p => decide (cenv.lower p.1.toList = cenv.lower tc.1.toList)) = true ↔
      ∃ k ∈ PyDict.keys base, SqlSame cenv k tc.1 := by
    rw [List.any_eq_true]
    constructor
    · rintro ⟨p, hp, h⟩
      have e := of_decide_eq_true h
      exact ⟨p.1, List.mem_map.mpr ⟨p, hp, rfl⟩, e⟩
    · rintro ⟨k, hk, h⟩
      obtain ⟨p, hp, rfl⟩ := List.mem_map.mp hk
      exact ⟨p, hp, by simpa using (show cenv.lower p.1.toList = cenv.lower tc.1.toList from h)⟩
  unfold mdbCreateTab TabRefused
  rw [← hany]
  by_cases h1 : base.any (fun p => decide (cenv.lower p.1.toList = cenv.lower tc.1.toList)) = true
  · exact .inl ⟨.inl h1, by rw [if_pos h1]⟩
  by_cases h2 : tc.2.fields = []
  · exact .inl ⟨.inr (.inl h2), by rw [if_neg h1, if_pos h2]⟩
  by_cases h3 : ¬ (tc.2.fields.map (fun f => cenv.lower f.toList)).Nodup
  · exact .inl ⟨.inr (.inr (.inl h3)), by rw [if_neg h1, if_neg h2, if_pos h3]⟩
  by_cases h4 : ok tc.1 (mdbDecl types params tc) = false
  · exact .inl ⟨.inr (.inr (.inr h4)), by rw [if_neg h1, if_neg h2, if_neg h3, if_pos h4]⟩
  · exact .inr ⟨fun h => by rcases h with h | h | h | h <;> contradiction, by rw [if_neg h1, if_neg h2, if_neg h3, if_neg h4]⟩

theorem createTabs_run (cenv : CaseEnv) (ok : String → MdbTab → Bool) (types : FieldTypes) (params : Params)
    (schema : List (String × TabClass)) (base : MdbBase) :
    ∃ j, j ≤ schema.length ∧ runSteps (mdbCreateTab cenv ok types params) schema base =
        (base ++ (schema.take j).map (fun tc => (tc.1, mdbDecl types params tc)), decide (j < schema.length)) ∧
      (∀ i tc, i < j → schema[i]? = some tc → ¬ TabRefused cenv ok types params
        (base ++ (schema.take i).map (fun tc => (tc.1, mdbDecl types params tc))) tc) ∧
      ∀ tc, schema[j]? = some tc → TabRefused cenv ok types params
        (base ++ (schema.take j).map (fun tc => (tc.1, mdbDecl types params tc))) tc := by
  induction schema generalizing base with
  | nil => exact ⟨0, Nat.le_refl _, by simp [runSteps], by simp, by simp⟩
  | cons tc rest ih =>
    unfold runSteps
    rcases createTab_cases cenv ok types params tc base with ⟨h1, h2⟩ | ⟨h1, h2⟩
    · rw [h2]
      refine ⟨0, by simp, by simp, by simp, ?_⟩
      intro tc' h
      simp only [List.getElem?_cons_zero, Option.some.injEq] at h
      subst h
      simpa using h1
    · rw [h2]
      obtain ⟨j, g1, g2, g3, g4⟩ := ih (base ++ [(tc.1, mdbDecl types params tc)])
      refine ⟨j + 1, by simpa using g1, ?_, ?_, ?_⟩
      · simp only
        rw [g2]
        simp
      · intro i tc' hi hx
        cases i with
        | zero =>
          simp only [List.getElem?_cons_zero, Option.some.injEq] at hx
          subst hx
          simpa using h1
        | succ i =>
          have := g3 i tc' (by omega) (by simpa using hx)
          simpa using this
      · intro tc' hx
        have := g4 tc' (by simpa using hx)
        simpa using this

/-- The calls that get as far as creating tables: no generic tables, a driver, mappings from fields to types, a path of an Access file,
and if there is no file, the means to make one. -/
def SchemaStarts (host : MdbHost) (generic : Bool) (schema : List (String × TabClass)) (types : FieldTypes) (path : String)
    (disk : Option MdbBase) : Prop :=
  generic = false ∧ (host.pyodbc = true ∨ host.pypyodbc = true) ∧ GoodFieldTypes schema types ∧ AccessPath path ∧
    (disk = none → CanMake host path)

theorem writeSchema_cases (host : MdbHost) (cenv : CaseEnv) (ok : String → MdbTab → Bool) (generic : Bool) (params : Params)
    (schema : List (String × TabClass)) (hn : (schema.map Prod.fst).Nodup) (types : FieldTypes) (path : String) (disk : Option MdbBase) :
    (¬ SchemaStarts host generic schema types path disk ∧
      mdbWriteSchema host cenv ok generic params schema types path disk = (disk, true)) ∨
    (SchemaStarts host generic schema types path disk ∧
      mdbWriteSchema host cenv ok generic params schema types path disk =
        mdbCreateTabs cenv ok types params schema (disk.getD [])) := by
  unfold SchemaStarts mdbWriteSchema
  cases generic with
  | true => exact .inl ⟨by simp, rfl⟩
  | false =>
    simp only [Bool.false_eq_true, if_false, true_and]
    by_cases h1 : (host.pyodbc || host.pypyodbc) = true
    · rw [if_neg (by simp [h1])]
      have h1' : host.pyodbc = true ∨ host.pypyodbc = true := by simpa using h1
      by_cases h2 : mdbSchemaArgs schema types = true
      · rw [if_neg (by simp [h2])]
        have h2' := (schemaArgs_iff schema hn types).mp h2
        cases disk with
        | none =>
          simp only
          by_cases h3 : mdbCanCreate host path = true
          · rw [if_pos h3]
            have h3' := (canCreate_iff host path).mp h3
            refine .inr ⟨⟨h1', h2', ?_, fun _ => h3'⟩, rfl⟩
            rcases h3' with ⟨⟨s, h⟩, _⟩ | ⟨⟨s, h⟩, _⟩
            · exact ⟨s, .inl h⟩
            · exact ⟨s, .inr h⟩
          · rw [if_neg h3]
            exact .inl ⟨fun h => h3 ((canCreate_iff host path).mpr (h.2.2.2 trivial)), rfl⟩
        | some base =>
          simp only
          by_cases h3 : (hasSuffix path ".mdb" || hasSuffix path ".accdb") = true
          · rw [if_pos h3]
            exact .inr ⟨⟨h1', h2', (accessPath_iff path).mp h3, by simp⟩, rfl⟩
          · rw [if_neg h3]
            exact .inl ⟨fun h => h3 ((accessPath_iff path).mpr h.2.2.1), rfl⟩
      · rw [if_pos (by simpa using h2)]
        exact .inl ⟨fun h => h2 ((schemaArgs_iff schema hn types).mpr h.2.1), rfl⟩
    · rw [if_pos (by simpa using h1)]
      exact .inl ⟨fun h => h1 (by simpa using h.1), rfl⟩

/-- **C90, every outcome of `write_schema`.**  Either the call is refused before anything has happened: then nothing has changed.  Or
the tables that were there are as they were, and behind them are new empty tables for the first so many tables of the schema, each
with its fields as columns, in order, with the types asked for or by default, and with its primary key; all of them unless the call
raises, and it raises just if Access refuses the next one. -/
theorem mdb_write_schema_outcome (host : MdbHost) (cenv : CaseEnv) (ok : String → MdbTab → Bool) (generic : Bool) (params : Params)
    (schema : List (String × TabClass)) (hn : (schema.map Prod.fst).Nodup) (types : FieldTypes) (path : String) (disk : Option MdbBase) :
    (¬ SchemaStarts host generic schema types path disk ∧
      mdbWriteSchema host cenv ok generic params schema types path disk = (disk, true)) ∨
    (SchemaStarts host generic schema types path disk ∧ ∃ new j,
      mdbWriteSchema host cenv ok generic params schema types path disk =
        (some (disk.getD [] ++ new), decide (j < schema.length)) ∧ j ≤ schema.length ∧
      Pairwise2 (NewTable types params) (schema.take j) new ∧
      ∀ tc, schema[j]? = some tc → TabRefused cenv ok types params (disk.getD [] ++ new) tc) := by
  rcases writeSchema_cases host cenv ok generic params schema hn types path disk with h | ⟨h1, h2⟩
  · exact .inl h
  · obtain ⟨j, g1, g2, _, g4⟩ := createTabs_run cenv ok types params schema (disk.getD [])
    refine .inr ⟨h1, (schema.take j).map (fun tc => (tc.1, mdbDecl types params tc)), j, ?_, g1, ?_, g4⟩
    · rw [h2]
      unfold mdbCreateTabs
      rw [g2]
    · exact pairwise2_map _ _ _ (fun tc _ => decl_spec types params tc)

/-- **C90, when `write_schema` succeeds**: exactly if the call is a proper one, and for each table of the schema there is no table of
that name yet, it has fields, no two of them the same up to case, and Access has no other objection. -/
theorem mdb_write_schema_iff (host : MdbHost) (cenv : CaseEnv) (ok : String → MdbTab → Bool) (generic : Bool) (params : Params)
    (schema : List (String × TabClass)) (hg : goodTableNames cenv (schema.map (fun tc => tc.1.toList)) = true)
    (types : FieldTypes) (path : String) (disk : Option MdbBase) :
    (mdbWriteSchema host cenv ok generic params schema types path disk).2 = false ↔
      SchemaStarts host generic schema types path disk ∧ ∀ tc ∈ schema,
        (∀ base, disk = some base → ∀ k ∈ PyDict.keys base, ¬ SqlSame cenv k tc.1) ∧ tc.2.fields ≠ [] ∧
        (tc.2.fields.map (fun f => cenv.lower f.toList)).Nodup ∧ ok tc.1 (mdbDecl types params tc) = true := by
  have hlow := good_lower_nodup cenv schema hg
  rcases writeSchema_cases host cenv ok generic params schema (good_names_nodup cenv schema hg) types path disk with ⟨h1, h2⟩ | ⟨h1, h2⟩
  · rw [h2]
    exact ⟨fun h => (by cases h), fun h => absurd h.1 h1⟩
  · rw [h2]
    unfold mdbCreateTabs
    obtain ⟨j, g1, g2, g3, g4⟩ := createTabs_run cenv ok types params schema (disk.getD [])
    rw [g2]
    have hdisk : ∀ t, (∀ base, disk = some base → ∀ k ∈ PyDict.keys base, ¬ SqlSame cenv k t) ↔
        ∀ k ∈ PyDict.keys (disk.getD []), ¬ SqlSame cenv k t := by
      intro t
      cases disk with
      | none => simp [PyDict.keys]
      | some base => simp
    have hkeys : ∀ (i : Nat), PyDict.keys (disk.getD [] ++ (schema.take i).map (fun tc => (tc.1, mdbDecl types params tc))) =
        PyDict.keys (disk.getD []) ++ (schema.take i).map Prod.fst := by
      intro i
      unfold PyDict.keys
      rw [List.map_append, List.map_map]
      rfl
    simp only [decide_eq_false_iff_not]
    constructor
    · intro hj
      refine ⟨h1, fun tc htc => ?_⟩
      obtain ⟨i, hi⟩ := List.getElem?_of_mem htc
      have hlt : i < schema.length := (List.getElem?_eq_some_iff.mp hi).1
      have := g3 i tc (by omega) hi
      unfold TabRefused at this
      rw [hkeys] at this
      refine ⟨(hdisk tc.1).mpr (fun k hk hs => this (.inl ⟨k, List.mem_append_left _ hk, hs⟩)), fun h => this (.inr (.inl h)), ?_, ?_⟩
      · apply Classical.byContradiction
        exact fun h => this (.inr (.inr (.inl h)))
      · cases hok : ok tc.1 (mdbDecl types params tc) with
        | true => rfl
        | false => exact absurd (.inr (.inr (.inr hok))) this
    · rintro ⟨_, hall⟩ hj
      have hx : schema[j]? = some schema[j] := List.getElem?_eq_getElem hj
      obtain ⟨a1, a2, a3, a4⟩ := hall schema[j] (List.getElem_mem hj)
      have := g4 _ hx
      unfold TabRefused at this
      rw [hkeys] at this
      rcases this with ⟨k, hk, hs⟩ | h | h | h
      · rcases List.mem_append.mp hk with hk | hk
        · exact (hdisk _).mp a1 k hk hs
        · obtain ⟨tc', htc', rfl⟩ := List.mem_map.mp hk
          obtain ⟨i, hi⟩ := List.getElem?_of_mem htc'
          rw [List.getElem?_take] at hi
          split at hi
          · rename_i hij
            have e := inj_of_nodup_map (fun tc : String × TabClass => cenv.lower tc.1.toList) hlow (List.mem_of_getElem? hi)
              (List.getElem_mem hj) hs
            have hnd := nodup_of_map _ hlow
            have := (List.getElem?_inj (i := i) (j := j) (by omega) hnd).mp (by rw [hi, hx, e])
            omega
          · cases hi
      · exact a2 h
      · exact h a3
      · rw [a4] at h; cases h

/-- **C90, twice.**  A second call for the same schema, with whatever types, raises and changes nothing, once the first has made a
table. -/
theorem mdb_write_schema_twice (host : MdbHost) (cenv : CaseEnv) (ok : String → MdbTab → Bool) (params : Params)
    (tc : String × TabClass) (rest : List (String × TabClass)) (hn : ((tc :: rest).map Prod.fst).Nodup) (types : FieldTypes) (path : String)
    (base : MdbBase) (k : String) (hk : k ∈ PyDict.keys base) (hs : SqlSame cenv k tc.1) (generic : Bool) :
    mdbWriteSchema host cenv ok generic params (tc :: rest) types path (some base) = (some base, true) := by
  rcases writeSchema_cases host cenv ok generic params (tc :: rest) hn types path (some base) with ⟨_, h⟩ | ⟨_, h⟩
  · exact h
  · rw [h]
    unfold mdbCreateTabs
    rcases createTab_cases cenv ok types params tc base with ⟨_, h2⟩ | ⟨h1, _⟩
    · simp [runSteps, h2]
    · exact absurd (.inl ⟨k, hk, hs⟩) h1

theorem decl_cols (types : FieldTypes) (params : Params) (tc : String × TabClass) :
    (mdbDecl types params tc).tab.cols.map SqlCol.name = tc.2.fields := by
  simp [mdbDecl, TabClass.fields, Function.comp_def]

theorem decl_col_of_field (types : FieldTypes) (params : Params) (tc : String × TabClass) (f : String) (hf : f ∈ tc.2.fields) :
    ∃ c ∈ (mdbDecl types params tc).tab.cols, c.name = f := by
  rw [← decl_cols types params tc] at hf
  obtain ⟨c, h1, h2⟩ := List.mem_map.mp hf
  exact ⟨c, h1, h2⟩

/-- What a successful `write_schema` leaves. -/
theorem schema_written (host : MdbHost) (cenv : CaseEnv) (ok : String → MdbTab → Bool) (generic : Bool) (params : Params)
    (schema : List (String × TabClass)) (hn : (schema.map Prod.fst).Nodup) (types : FieldTypes) (path : String) (disk d : Option MdbBase)
    (h : mdbWriteSchema host cenv ok generic params schema types path disk = (d, false)) :
    d = some (disk.getD [] ++ schema.map (fun tc => (tc.1, mdbDecl types params tc))) := by
  rcases writeSchema_cases host cenv ok generic params schema hn types path disk with ⟨_, h2⟩ | ⟨_, h2⟩
  · rw [h2] at h; cases h
  · rw [h2] at h
    unfold mdbCreateTabs at h
    obtain ⟨j, g1, g2, _, _⟩ := createTabs_run cenv ok types params schema (disk.getD [])
    rw [g2] at h
    injection h with e1 e2
    have hj : j = schema.length := by
      have := of_decide_eq_false e2
      omega
    rw [← e1, hj, List.take_length]

theorem new_base_wf (cenv : CaseEnv) (schema : List (String × TabClass))
    (hg : goodTableNames cenv (schema.map (fun tc => tc.1.toList)) = true)
    (hf : ∀ tc ∈ schema, (tc.2.fields.map (fun f => cenv.lower f.toList)).Nodup)
    (types : FieldTypes) (params : Params) (old : MdbBase) (hold : SqlFileWF cenv old.plain)
    (hno : ∀ tc ∈ schema, NoTable cenv old.plain tc.1) (laws : CaseLaws cenv) :
    SqlFileWF cenv (MdbBase.plain (old ++ schema.map (fun tc => (tc.1, mdbDecl types params tc)))) := by
  have hplain : MdbBase.plain (old ++ schema.map (fun tc => (tc.1, mdbDecl types params tc))) =
      old.plain ++ schema.map (fun tc => (tc.1, (mdbDecl types params tc).tab)) := by
    unfold MdbBase.plain
    rw [List.map_append, List.map_map]
    rfl
  rw [hplain]
  have hlow := good_lower_nodup cenv schema hg
  refine ⟨?_, ?_, ?_, ?_⟩
  · unfold PyDict.keys
    rw [List.map_append, List.map_append, List.map_map (l := schema)]
    rw [List.nodup_append]
    refine ⟨hold.names, by simpa [Function.comp_def] using hlow, ?_⟩
    intro a ha b hb e
    obtain ⟨k, hk, rfl⟩ := List.mem_map.mp ha
    obtain ⟨t, ht, rfl⟩ := List.mem_map.mp hb
    obtain ⟨tc, htc, rfl⟩ := List.mem_map.mp ht
    refine hno tc htc k hk ?_
    simp only [Function.comp] at e
    rw [e]
    exact unblank_of_no_blank _ (schema_lower_no_blank cenv laws schema hg tc htc)
  · intro p hp
    rcases List.mem_append.mp hp with hp | hp
    · exact hold.cols p hp
    · obtain ⟨tc, htc, rfl⟩ := List.mem_map.mp hp
      have := hf tc htc
      rw [← decl_cols types params tc, List.map_map] at this
      exact this
  · intro p hp k hk
    rcases List.mem_append.mp hp with hp | hp
    · exact hold.key p hp k hk
    · obtain ⟨tc, htc, rfl⟩ := List.mem_map.mp hp
      obtain ⟨c, h1, h2⟩ := decl_col_of_field types params tc k (List.mem_append_left _ hk)
      exact ⟨c, h1, by rw [h2]; rfl⟩
  · intro p hp r hr
    rcases List.mem_append.mp hp with hp | hp
    · exact hold.rows p hp r hr
    · obtain ⟨tc, htc, rfl⟩ := List.mem_map.mp hp
      cases hr

theorem new_base_takes (cenv : CaseEnv) (laws : CaseLaws cenv) (schema : List (String × TabClass))
    (hg : goodTableNames cenv (schema.map (fun tc => tc.1.toList)) = true)
    (types : FieldTypes) (params : Params) (old : MdbBase)
    (hno : ∀ tc ∈ schema, NoTable cenv old.plain tc.1) : ∀ tc ∈ schema, ∃ tab,
      HasTable cenv (MdbBase.plain (old ++ schema.map (fun tc => (tc.1, mdbDecl types params tc)))) tc.1 tab ∧
      MdbTakes cenv tc.2 tab ∧ tab.rows = [] := by
  have hplain : MdbBase.plain (old ++ schema.map (fun tc => (tc.1, mdbDecl types params tc))) =
      old.plain ++ schema.map (fun tc => (tc.1, (mdbDecl types params tc).tab)) := by
    unfold MdbBase.plain
    rw [List.map_append, List.map_map]
    rfl
  rw [hplain]
  intro tc htc
  refine ⟨(mdbDecl types params tc).tab, ⟨⟨tc.1, List.mem_append_right _ (List.mem_map.mpr ⟨tc, htc, rfl⟩), rfl⟩, ?_⟩, ⟨?_, ?_, ?_, ?_⟩, rfl⟩
  · intro k hk e
    unfold PyDict.keys at hk
    rw [List.map_append, List.map_map] at hk
    rcases List.mem_append.mp hk with hk | hk
    · exact absurd e (hno tc htc k hk)
    · obtain ⟨tc', htc', rfl⟩ := List.mem_map.mp hk
      simp only [Function.comp] at e ⊢
      rw [unblank_of_no_blank _ (schema_lower_no_blank cenv laws schema hg tc' htc')] at e
      exact e
  · intro f hf
    obtain ⟨c, h1, h2⟩ := decl_col_of_field types params tc f hf
    exact ⟨c, h1, by rw [h2]; rfl⟩
  · intro col hcol hx
    refine absurd rfl (hx col.name ?_)
    rw [← decl_cols types params tc]
    exact List.mem_map.mpr ⟨col, hcol, rfl⟩
  · exact fun f hf => ⟨f, hf, rfl⟩
  · exact fun f hf => ⟨f, hf, rfl⟩

/-- **C90, a schema that has been written can be written to.**  After `write_schema` with whatever types, on a new file or on one with
other tables, `write_file` succeeds whether or not it may overwrite, and reading gives the data back, if the columns store its
cells. -/
theorem mdb_schema_then_write (env : TextEnv) (hT : TextOK env) (host : MdbHost) (cenv : CaseEnv) (laws : CaseLaws cenv)
    (ok : String → MdbTab → Bool) (cf : IOConf) (store : Store) (policy : DupPolicy) (allowOverwrite generic : Bool)
    (schema : List (String × TabClass)) (hg : goodTableNames cenv (schema.map (fun tc => tc.1.toList)) = true)
    (hbr : ∀ t f, typeOf cf.types t ("[" ++ f ++ "]") = none)
    (dat : PyDict String TabVal) (hk : PyDict.keys dat = schema.map Prod.fst)
    (hw : ∀ tc ∈ schema, ∀ tab, PyDict.get? dat tc.1 = some tab → WellShaped tc.2 tab)
    (hc : ∀ tc ∈ schema, ∀ tab, PyDict.get? dat tc.1 = some tab → ¬ IsParams cf.params tc.1 → ∀ f x,
      HasCell tc.2 tab f x → DbSafe env cf store (decide (tc.2.pks = [])) tc.1 f x)
    (hp : ∀ tab, PyDict.get? dat "parameters" = some tab → cf.params ≠ [] →
      ParamEntries (DbParam env cf.params store) tab)
    (types : FieldTypes) (path : String) (disk d : Option MdbBase) (hwf : SqlFileWF cenv (MdbBase.plain (disk.getD [])))
    (hno : ∀ tc ∈ schema, NoTable cenv (MdbBase.plain (disk.getD [])) tc.1)
    (h : mdbWriteSchema host cenv ok generic cf.params schema types path disk = (d, false)) :
    ∃ file', mdbPathWrite env host cenv ok cf store allowOverwrite schema dat path d = (some file', false) ∧
      ∀ file'', SameSqlFile file' file'' → ∃ dat2, mdbFileCreate env cenv cf policy schema file'' = some dat2 ∧
        SameUpToOrder dat dat2 := by
  have hn := good_names_nodup cenv schema hg
  have hs := (mdb_write_schema_iff host cenv ok generic cf.params schema hg types path disk).mp (by rw [h])
  have hd := schema_written host cenv ok generic cf.params schema hn types path disk d h
  have hf : ∀ tc ∈ schema, (tc.2.fields.map (fun f => cenv.lower f.toList)).Nodup := fun tc htc => (hs.2 tc htc).2.2.1
  obtain ⟨file', g1, g2⟩ := mdb_existing_round_trip env hT cenv laws cf store policy allowOverwrite schema hg hf hbr dat hk hw hc hp _
    (new_base_wf cenv schema hg hf types cf.params (disk.getD []) hwf hno laws)
    (fun tc htc => by
      obtain ⟨tab, a, b, c⟩ := new_base_takes cenv laws schema hg types cf.params (disk.getD []) hno tc htc
      exact ⟨tab, a, b, .inr c⟩)
  refine ⟨file', ?_, g2⟩
  unfold mdbPathWrite
  rw [if_neg (by have := hs.1.2.1; revert this; cases host.pyodbc <;> cases host.pypyodbc <;> simp), hd]
  simp only [(accessPath_iff path).mpr hs.1.2.2.2.1, Bool.not_true]
  rw [g1]

/-- **C90, writing to a new file**: `write_file` on a path without a file makes the schema and writes the data, and reading gives it
back. -/
theorem mdb_new_file_round_trip (env : TextEnv) (hT : TextOK env) (host : MdbHost) (cenv : CaseEnv) (laws : CaseLaws cenv)
    (ok : String → MdbTab → Bool) (cf : IOConf) (store : Store) (policy : DupPolicy) (allowOverwrite : Bool)
    (schema : List (String × TabClass)) (hg : goodTableNames cenv (schema.map (fun tc => tc.1.toList)) = true)
    (hf : ∀ tc ∈ schema, tc.2.fields ≠ [] ∧ (tc.2.fields.map (fun f => cenv.lower f.toList)).Nodup ∧
      ok tc.1 (mdbDecl [] cf.params tc) = true)
    (hbr : ∀ t f, typeOf cf.types t ("[" ++ f ++ "]") = none)
    (dat : PyDict String TabVal) (hk : PyDict.keys dat = schema.map Prod.fst)
    (hw : ∀ tc ∈ schema, ∀ tab, PyDict.get? dat tc.1 = some tab → WellShaped tc.2 tab)
    (hc : ∀ tc ∈ schema, ∀ tab, PyDict.get? dat tc.1 = some tab → ¬ IsParams cf.params tc.1 → ∀ f x,
      HasCell tc.2 tab f x → DbSafe env cf store (decide (tc.2.pks = [])) tc.1 f x)
    (hp : ∀ tab, PyDict.get? dat "parameters" = some tab → cf.params ≠ [] →
      ParamEntries (DbParam env cf.params store) tab)
    (path : String) (hd : host.pyodbc = true ∨ host.pypyodbc = true) (hm : CanMake host path) :
    ∃ file', mdbPathWrite env host cenv ok cf store allowOverwrite schema dat path none = (some file', false) ∧
      ∀ file'', SameSqlFile file' file'' → ∃ dat2, mdbFileCreate env cenv cf policy schema file'' = some dat2 ∧
        SameUpToOrder dat dat2 := by
  have hpath : AccessPath path := by
    rcases hm with ⟨⟨s, h⟩, _⟩ | ⟨⟨s, h⟩, _⟩
    · exact ⟨s, .inl h⟩
    · exact ⟨s, .inr h⟩
  have hraise := (mdb_write_schema_iff host cenv ok false cf.params schema hg [] path none).mpr
    ⟨⟨rfl, hd, fun t v h => (by cases h), hpath, fun _ => hm⟩, fun tc htc => ⟨fun b h => (by cases h), hf tc htc⟩⟩
  obtain ⟨d, hws⟩ : ∃ d, mdbWriteSchema host cenv ok false cf.params schema [] path none = (d, false) := ⟨_, Prod.ext rfl hraise⟩
  obtain ⟨file', g1, g2⟩ := mdb_schema_then_write env hT host cenv laws ok cf store policy allowOverwrite false schema hg hbr dat hk hw hc
    hp [] path none _ ⟨List.nodup_nil, fun p h => (by cases h), fun p h => (by cases h), fun p h => (by cases h)⟩
    (fun tc _ k h => (by cases h)) hws
  refine ⟨file', ?_, g2⟩
  rw [← g1]
  have hsome := schema_written host cenv ok false cf.params schema (good_names_nodup cenv schema hg) [] path none _ hws
  unfold mdbPathWrite
  rw [if_neg (by revert hd; cases host.pyodbc <;> cases host.pypyodbc <;> simp)]
  rw [if_neg (by revert hd; cases host.pyodbc <;> cases host.pypyodbc <;> simp)]
  rw [hws, hsome]
  simp only [(accessPath_iff path).mpr hpath, Bool.not_true]

/-- A computer with Windows and both drivers. -/
def exampleHost : MdbHost := ⟨true, true, true, false⟩

example : ∃ file', mdbPathWrite unaryText exampleHost asciiEnv (fun _ _ => true) ⟨[], .num 1000, false, []⟩ finiteStore false
      sqlExampleSchema sqlExampleDat "diet.mdb" none = (some file', false) ∧
      ∀ file'', SameSqlFile file' file'' → ∃ dat2,
        mdbFileCreate unaryText asciiEnv ⟨[], .num 1000, false, []⟩ .assert sqlExampleSchema file'' = some dat2 ∧
        SameUpToOrder sqlExampleDat dat2 :=
  mdb_new_file_round_trip unaryText unaryText_ok exampleHost asciiEnv asciiLaws (fun _ _ => true) ⟨[], .num 1000, false, []⟩ finiteStore
    .assert false sqlExampleSchema (by decide +kernel) (by decide +kernel) (fun _ _ => rfl) sqlExampleDat rfl sqlExample_shape
    (fun tc htc tab hg hn f x hx => finiteStore_keeps 1000 rfl (sqlExample_cells false tc htc tab hg hn f x hx).1) (by simp)
    "diet.mdb" (.inl rfl) (.inl ⟨⟨"diet".toList, by decide⟩, rfl, rfl⟩)

/-- The tables that come of it, with a type asked for. -/
example : mdbWriteSchema exampleHost asciiEnv (fun _ _ => true) false [] [("food", ⟨["name"], ["cost", "isbn"], []⟩),
      ("parameters", ⟨["key"], ["value"], []⟩)] [("food", some [("isbn", "int")])] "diet.mdb" none =
    (some [("food", ⟨⟨[⟨"name", false, none⟩, ⟨"cost", false, some .none⟩, ⟨"isbn", false, some .none⟩], ["name"], []⟩,
        ["text", "double", "int"]⟩),
      ("parameters", ⟨⟨[⟨"key", false, none⟩, ⟨"value", false, some .none⟩], ["key"], []⟩, ["text", "double"]⟩)], false) := by
  rfl

/-- With parameters, their table is all text. -/
example : ((mdbWriteSchema exampleHost asciiEnv (fun _ _ => true) false [(.str "p", none, .none)] [
      ("parameters", ⟨["key"], ["value"], []⟩)] [] "diet.mdb" none).1.map (fun b => b.map (fun p => p.2.types))) =
    some [["text", "text"]] := by
  rfl

theorem checkFields_names (cenv : CaseEnv) (file : SqlFile) (schema : List (String × TabClass)) (names : PyDict String String)
    (h : file.checkFields cenv schema = some names) (t n : String) (hm : (t, n) ∈ names) :
    file.tableName cenv t = some (some n) := by
  induction schema generalizing names with
  | nil =>
    unfold SqlFile.checkFields at h
    cases h
    cases hm
  | cons a rest ih =>
    unfold SqlFile.checkFields at h
    rw [Option.bind_eq_some_iff] at h
    obtain ⟨m, h1, h⟩ := h
    rw [Option.bind_eq_some_iff] at h
    obtain ⟨r, h2, h⟩ := h
    cases m with
    | none =>
      simp only [Option.some.injEq] at h
      subst h
      exact ih r h2 hm
    | some m =>
      simp only at h
      rw [Option.bind_eq_some_iff] at h
      obtain ⟨tab, _, h⟩ := h
      rw [Option.map_eq_some_iff] at h
      obtain ⟨_, _, h⟩ := h
      subst h
      rcases List.mem_cons.mp hm with e | hm
      · cases e
        exact h1
      · exact ih r h2 hm

theorem fileTables_unnamed (env : TextEnv) (cenv : CaseEnv) (cf : IOConf) (store : Store) (ow : Bool) (names : PyDict String String)
    (dat : PyDict String TabVal) (schema : List (String × TabClass)) (tc : String × TabClass) (htc : tc ∈ schema)
    (h : PyDict.get? names tc.1 ≠ some tc.1) (s : MdbConn) :
    (mdbFileTables env cenv cf store ow names dat schema s).2 = true := by
  induction schema generalizing s with
  | nil => cases htc
  | cons a rest ih =>
    unfold mdbFileTables
    cases hx : mdbFileTable env cenv cf store ow names dat a s with
    | mk s' r =>
      cases r with
      | true => rfl
      | false =>
        rcases List.mem_cons.mp htc with e | hm
        · subst e
          unfold mdbFileTable at hx
          rw [if_pos h] at hx
          cases hx
        · exact ih hm s'

/-- **C90, a missing table.**  Writing to a database that has no table for one of the schema raises, whatever the data. -/
theorem mdb_write_needs_tables (env : TextEnv) (cenv : CaseEnv) (laws : CaseLaws cenv) (cf : IOConf) (store : Store) (ow : Bool)
    (schema : List (String × TabClass)) (hg : goodTableNames cenv (schema.map (fun tc => tc.1.toList)) = true)
    (dat : PyDict String TabVal) (file : SqlFile) (tc : String × TabClass) (htc : tc ∈ schema) (hmiss : NoTable cenv file tc.1) :
    (mdbFileWrite env cenv cf store ow schema dat file).2 = true := by
  have hb : ' ' ∉ tc.1.toList := ((goodTableNames_iff cenv _).mp hg).2.1 _ (List.mem_map.mpr ⟨tc, htc, rfl⟩)
  unfold mdbFileWrite
  cases hc : file.checkFields cenv schema with
  | none => rfl
  | some names =>
    have hun : PyDict.get? names tc.1 ≠ some tc.1 := by
      intro e
      have := checkFields_names cenv file schema names hc tc.1 tc.1 (PyDict.get?_mem e)
      rw [tableName_none cenv laws file tc.1 hb hmiss] at this
      cases this
    have := fileTables_unnamed env cenv cf store ow names dat schema tc htc hun ⟨file, file⟩
    cases hx : mdbFileTables env cenv cf store ow names dat schema ⟨file, file⟩ with
    | mk s r =>
      rw [hx] at this
      cases r with
      | true => simp only; rw [hx]
      | false => cases this

/-- **C90, half a schema.**  A file made by `write_schema` stays behind, with the tables before the one that Access refuses; then a
second call is refused at the first table, and so writing to this path raises from then on, whatever the data. -/
theorem mdb_half_schema : ∃ (host : MdbHost) (schema : List (String × TabClass)) (path : String) (base : MdbBase),
    mdbWriteSchema host asciiEnv (fun _ _ => true) false [] schema [] path none = (some base, true) ∧ base ≠ [] ∧
    mdbWriteSchema host asciiEnv (fun _ _ => true) false [] schema [] path (some base) = (some base, true) ∧
    ∀ env cf store ow dat, (mdbPathWrite env host asciiEnv (fun _ _ => true) cf store ow schema dat path (some base)).2 = true :=
  ⟨exampleHost, [("food", ⟨["name"], ["cost"], []⟩), ("log", ⟨["id"], ["Id"], []⟩)], "diet.mdb",
    [("food", ⟨⟨[⟨"name", false, none⟩, ⟨"cost", false, some .none⟩], ["name"], []⟩, ["text", "double"]⟩)], rfl, by simp, rfl,
    fun env cf store ow dat => mdb_write_needs_tables env asciiEnv asciiLaws cf store ow _ (by decide +kernel) dat _
      ("log", ⟨["id"], ["Id"], []⟩) (by simp) (by unfold NoTable; decide +kernel)⟩

/-- A second call after the first. -/
example : mdbWriteSchema exampleHost asciiEnv (fun _ _ => true) false [] [("food", ⟨["name"], ["cost"], []⟩)] [] "diet.accdb"
      (some [("Food", ⟨⟨[⟨"name", false, none⟩], ["name"], []⟩, ["text"]⟩)]) =
    (some [("Food", ⟨⟨[⟨"name", false, none⟩], ["name"], []⟩, ["text"]⟩)], true) :=
  mdb_write_schema_twice exampleHost asciiEnv _ [] ("food", ⟨["name"], ["cost"], []⟩) [] (by decide) [] "diet.accdb" _ "Food"
    (by decide) (by unfold SqlSame; decide +kernel) false

end Ticdat

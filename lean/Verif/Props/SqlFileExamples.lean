import Verif.Props.SqlFileWrite
/-!
# C77: databases made by `write_db_schema`, and examples
-/
set_option linter.unusedSectionVars false
set_option linter.unusedSimpArgs false
namespace Ticdat
open Spec

/-- **C77, `write_db_schema`.**  The databases it makes are among those `sqlite_existing_db_round_trip` is about. -/
theorem schema_file_takes_rows (cenv : CaseEnv) (laws : CaseLaws cenv) (cf : IOConf) (dv : Defaults)
    (schema : List (String × TabClass)) (hg : goodTableNames cenv (schema.map (fun tc => tc.1.toList)) = true)
    (hf : ∀ tc ∈ schema, (tc.2.fields.map (fun f => cenv.lower f.toList)).Nodup)
    (hpk : ∀ tc ∈ schema, ∀ f ∈ tc.2.pks, ¬ SqlNumColumn cf dv tc.1 f) :
    SqlFileWF cenv (sqlSchemaFile cf dv schema) ∧ ∀ tc ∈ schema, ∃ tab, HasTable cenv (sqlSchemaFile cf dv schema) tc.1 tab ∧
      TakesRows cenv cf dv tc.1 tc.2 tab ∧ tab.rows = [] := by
  obtain ⟨_, hblank, hlow⟩ := (goodTableNames_iff cenv _).mp hg
  have hkeys : PyDict.keys (sqlSchemaFile cf dv schema) = schema.map Prod.fst := by
    simp [sqlSchemaFile, PyDict.keys, Function.comp_def]
  have hcol : ∀ tc : String × TabClass, (tc.2.pks.map (fun f => (⟨f, false, some .none⟩ : SqlCol)) ++
      tc.2.dfs.map (fun f => (⟨f, sqlAffinity cf dv tc.1 f, dv tc.1 f⟩ : SqlCol))).map SqlCol.name = tc.2.fields := by
    intro tc
    simp [TabClass.fields, Function.comp_def]
  have hmemc : ∀ (tc : String × TabClass) (f : String), f ∈ tc.2.fields → ∃ c ∈ tc.2.pks.map (fun f => (⟨f, false, some .none⟩ : SqlCol)) ++
      tc.2.dfs.map (fun f => (⟨f, sqlAffinity cf dv tc.1 f, dv tc.1 f⟩ : SqlCol)), c.name = f := by
    intro tc f h
    rw [← hcol tc] at h
    obtain ⟨c, hc, e⟩ := List.mem_map.mp h
    exact ⟨c, hc, e⟩
  constructor
  · refine ⟨?_, ?_, ?_, ?_⟩
    · rw [hkeys, List.map_map]
      rw [List.map_map] at hlow
      exact hlow
    · intro p hp
      obtain ⟨tc, htc, rfl⟩ := List.mem_map.mp hp
      have := hf tc htc
      rw [← hcol tc, List.map_map] at this
      exact this
    · intro p hp k hk
      obtain ⟨tc, htc, rfl⟩ := List.mem_map.mp hp
      obtain ⟨c, hc, e⟩ := hmemc tc k (List.mem_append_left _ hk)
      exact ⟨c, hc, by rw [e]; rfl⟩
    · intro p hp r hr
      obtain ⟨tc, htc, rfl⟩ := List.mem_map.mp hp
      cases hr
  · intro tc htc
    refine ⟨_, ⟨⟨tc.1, List.mem_map.mpr ⟨tc, htc, rfl⟩, rfl⟩, ?_⟩, ?_, rfl⟩
    · intro k hk he
      rw [hkeys] at hk
      obtain ⟨tc', htc', rfl⟩ := List.mem_map.mp hk
      rw [unblank_of_no_blank _ (fun h => hblank _ (List.mem_map.mpr ⟨tc', htc', rfl⟩) ((lower_blank cenv laws _).mp h))] at he
      exact he
    · refine ⟨?_, ?_, ?_, ?_⟩
      · intro f hff
        obtain ⟨c, hc, e⟩ := hmemc tc f hff
        exact ⟨c, hc, by rw [e]; rfl⟩
      · intro col hcm f hff hs
        have hinj : ∀ g ∈ tc.2.fields, SqlSame cenv g f → g = f := fun g hg' he => inj_of_nodup_map _ (hf tc htc) hg' hff he
        rcases List.mem_append.mp hcm with h | h
        · obtain ⟨g, hg', rfl⟩ := List.mem_map.mp h
          have e := hinj g (List.mem_append_left _ hg') hs
          subst e
          exact ⟨fun h => absurd h (by simp), fun h => absurd h (hpk tc htc g hg')⟩
        · obtain ⟨g, hg', rfl⟩ := List.mem_map.mp h
          have e := hinj g (List.mem_append_right _ hg') hs
          subst e
          exact sqlAffinity_iff cf dv tc.1 g
      · intro col hcm hno
        exfalso
        have : col.name ∈ tc.2.fields := by rw [← hcol tc]; exact List.mem_map.mpr ⟨col, hcm, rfl⟩
        exact hno col.name this rfl
      · by_cases h : tc.2.pks = []
        · exact .inl h
        · exact .inr ⟨h, fun f hff => ⟨f, hff, rfl⟩⟩

/-! ### Non-vacuity -/

/-- A database with columns in another order, further columns, other spellings, and another table. -/
def foreignFile : SqlFile :=
  [("other", ⟨[⟨"x", false, none⟩], [], [[.str "kept"]]⟩),
    ("LOG", ⟨[⟨"id", true, some (.num (.fin 7))⟩, ⟨"Note", true, none⟩], [], [[.num (.fin 1), .str "old"]]⟩),
    ("Food_List", ⟨[⟨"cost", true, none⟩, ⟨"stamp", false, some .none⟩, ⟨"NAME", true, none⟩], ["name"], []⟩)]

theorem foreignFile_wf : SqlFileWF asciiEnv foreignFile := by
  refine ⟨by decide +kernel, by decide +kernel, ?_, by decide⟩
  intro p hp k hk
  simp only [foreignFile, List.mem_cons, List.not_mem_nil, or_false] at hp
  rcases hp with rfl | rfl | rfl
  · cases hk
  · cases hk
  · simp only [List.mem_cons, List.not_mem_nil, or_false] at hk
    subst hk
    exact ⟨⟨"NAME", true, none⟩, by simp, by unfold SqlSame; decide +kernel⟩

theorem foreignFile_takes : ∀ tc ∈ sqlExampleSchema, ∃ tab, HasTable asciiEnv foreignFile tc.1 tab ∧
    TakesRows asciiEnv ⟨[], .num 1000, false, []⟩ (fun _ _ => some (.num (.fin 0))) tc.1 tc.2 tab ∧
    (true = true ∨ tab.rows = []) := by
  have hnum : ∀ t f, SqlNumColumn ⟨[], .num 1000, false, []⟩ (fun _ _ => some (.num (.fin 0))) t f :=
    fun t f => ⟨by simp, _, rfl, rfl⟩
  intro tc htc
  simp only [sqlExampleSchema, List.mem_cons, List.not_mem_nil, or_false] at htc
  rcases htc with rfl | rfl
  · refine ⟨⟨[⟨"cost", true, none⟩, ⟨"stamp", false, some .none⟩, ⟨"NAME", true, none⟩], ["name"], []⟩,
      ⟨⟨"Food_List", by simp [foreignFile], by unfold SqlSame; decide +kernel⟩, by unfold SqlSame; decide +kernel⟩, ⟨?_, ?_, ?_, ?_⟩, .inl rfl⟩
    · unfold SqlSame; decide +kernel
    · intro col hcol f hf hs
      simp only [List.mem_cons, List.not_mem_nil, or_false] at hcol
      rcases hcol with rfl | rfl | rfl
      · exact ⟨fun _ => hnum _ _, fun _ => rfl⟩
      · exfalso
        revert hs
        revert f
        unfold SqlSame
        decide +kernel
      · exact ⟨fun _ => hnum _ _, fun _ => rfl⟩
    · intro col hcol hno
      simp only [List.mem_cons, List.not_mem_nil, or_false] at hcol
      rcases hcol with rfl | rfl | rfl
      · exact absurd (by unfold SqlSame; decide +kernel) (hno "cost" (by decide))
      · exact ⟨_, rfl⟩
      · exact absurd (by unfold SqlSame; decide +kernel) (hno "name" (by decide))
    · exact .inr ⟨by decide, by unfold SqlSame; decide +kernel⟩
  · refine ⟨⟨[⟨"id", true, some (.num (.fin 7))⟩, ⟨"Note", true, none⟩], [], [[.num (.fin 1), .str "old"]]⟩,
      ⟨⟨"LOG", by simp [foreignFile], by unfold SqlSame; decide +kernel⟩, by unfold SqlSame; decide +kernel⟩, ⟨?_, ?_, ?_, ?_⟩, .inl rfl⟩
    · unfold SqlSame; decide +kernel
    · intro col hcol f hf hs
      simp only [List.mem_cons, List.not_mem_nil, or_false] at hcol
      rcases hcol with rfl | rfl
      · exact ⟨fun _ => hnum _ _, fun _ => rfl⟩
      · exact ⟨fun _ => hnum _ _, fun _ => rfl⟩
    · intro col hcol hno
      simp only [List.mem_cons, List.not_mem_nil, or_false] at hcol
      rcases hcol with rfl | rfl
      · exact ⟨_, rfl⟩
      · exact absurd (by unfold SqlSame; decide +kernel) (hno "note" (by decide))
    · exact .inl rfl

example : ∃ file', sqlFileWrite unaryText noNums asciiEnv ⟨[], .num 1000, false, []⟩ true sqlExampleSchema sqlExampleDat
      foreignFile = (file', false) ∧ ("other", ⟨[⟨"x", false, none⟩], [], [[.str "kept"]]⟩) ∈ file' ∧
      ∀ file'', SameSqlFile file' file'' → ∃ dat2, sqlFileCreate unaryText asciiEnv ⟨[], .num 1000, false, []⟩ .assert
        sqlExampleSchema file'' = some dat2 ∧ SameUpToOrder sqlExampleDat dat2 := by
  obtain ⟨file', h1, _, h2, _, h3⟩ := sqlite_existing_db_round_trip unaryText unaryText_ok.dt noNums asciiEnv asciiLaws
    ascii_sqlWords ⟨[], .num 1000, false, []⟩ (fun _ _ => some (.num (.fin 0))) .assert true sqlExampleSchema
    (by decide +kernel) (by decide +kernel) sqlExampleDat rfl sqlExample_shape (sqlExample_cells false) (by simp)
    foreignFile foreignFile_wf foreignFile_takes
  refine ⟨file', h1, h2 _ (by simp [foreignFile]) ?_, h3⟩
  unfold SqlSame
  decide +kernel

/-- What is in the database afterwards. -/
example : sqlFileWrite unaryText noNums asciiEnv ⟨[], .num 1000, false, []⟩ true sqlExampleSchema sqlExampleDat foreignFile =
    ([("other", ⟨[⟨"x", false, none⟩], [], [[.str "kept"]]⟩),
      ("LOG", ⟨[⟨"id", true, some (.num (.fin 7))⟩, ⟨"Note", true, none⟩], [], [[.num (.fin 7), .str "a"],
        [.num (.fin 7), .none]]⟩),
      ("Food_List", ⟨[⟨"cost", true, none⟩, ⟨"stamp", false, some .none⟩, ⟨"NAME", true, none⟩], ["name"],
        [[.num (.fin 1000), .none, .str "it's"], [.str "True", .none, .str "egg"]]⟩)], false) := by
  rfl

/-- Without `allow_overwrite` the one row in `LOG` is enough to refuse. -/
example : sqlFileWrite unaryText noNums asciiEnv ⟨[], .num 1000, false, []⟩ false sqlExampleSchema sqlExampleDat foreignFile =
    (foreignFile, true) :=
  sqlite_existing_no_overwrite _ _ _ _ _ _ _ foreignFile_wf ("log", ⟨[], ["note"], []⟩) (by simp [sqlExampleSchema])
    ⟨[⟨"id", true, some (.num (.fin 7))⟩, ⟨"Note", true, none⟩], [], [[.num (.fin 1), .str "old"]]⟩
    ⟨⟨"LOG", by simp [foreignFile], by unfold SqlSame; decide +kernel⟩, by unfold SqlSame; decide +kernel⟩ (by simp)

/-- A row with a key that is there already takes back all that was written before, here the emptying of the tables. -/
theorem sqlite_duplicate_key_restores : sqlFileWrite unaryText noNums asciiEnv ⟨[], .na, false, []⟩ true
    [("log", ⟨[], ["note"], []⟩)] [("log", .plain [[("note", .str "a")], [("note", .str "a")]])]
    [("log", ⟨[⟨"note", false, none⟩], ["note"], [[.str "old"]]⟩)] =
    ([("log", ⟨[⟨"note", false, none⟩], ["note"], [[.str "old"]]⟩)], true) := by
  rfl

/-- A missing table: read as empty from a database, an error in a .sql file. -/
example : ∃ dat, sqlFileCreate unaryText asciiEnv ⟨[], .na, false, []⟩ .assert sqlExampleSchema
      [("LOG", ⟨[⟨"note", false, none⟩], [], [[.str "x"]]⟩)] = some dat ∧
    PyDict.get? dat "food_list" = some (.keyed []) := ⟨_, rfl, rfl⟩

example : sqlTextCreate unaryText asciiEnv ⟨[], .na, false, []⟩ .assert sqlExampleSchema
    [("LOG", ⟨[⟨"note", false, none⟩], [], [[.str "x"]]⟩)] = none :=
  sql_text_missing_table_raises _ _ _ _ _ (by decide) _ ("food_list", ⟨["name"], ["cost"], []⟩) (by simp [sqlExampleSchema])
    (by unfold SqlSame; decide +kernel)

/-- The same data in a database with its own layout. -/
example : sqlFileCreate unaryText asciiEnv ⟨[], .na, false, []⟩ .assert [("log", ⟨[], ["note"], []⟩)]
      [("log", ⟨[⟨"note", false, none⟩], [], [[.str "x"]]⟩)] =
    sqlFileCreate unaryText asciiEnv ⟨[], .na, false, []⟩ .assert [("log", ⟨[], ["note"], []⟩)]
      [("other", ⟨[], [], []⟩), ("LOG", ⟨[⟨"id", true, none⟩, ⟨"Note", false, none⟩], ["id"], [[.num (.fin 3), .str "x"]]⟩)] := by
  refine sqlite_reads_by_name _ _ asciiLaws _ _ _ (by decide +kernel) _ _
    ⟨by decide +kernel, by decide +kernel, by unfold SqlSame; decide +kernel, by decide⟩
    ⟨by decide +kernel, by decide +kernel, ?_, by decide⟩ ?_
  · intro p hp k hk
    simp only [List.mem_cons, List.not_mem_nil, or_false] at hp
    rcases hp with rfl | rfl
    · cases hk
    · simp only [List.mem_cons, List.not_mem_nil, or_false] at hk
      subst hk
      exact ⟨⟨"id", true, none⟩, by simp, rfl⟩
  · intro tc htc
    simp only [List.mem_cons, List.not_mem_nil, or_false] at htc
    subst htc
    refine .inr ⟨⟨[⟨"note", false, none⟩], [], [[.str "x"]]⟩,
      ⟨[⟨"id", true, none⟩, ⟨"Note", false, none⟩], ["id"], [[.num (.fin 3), .str "x"]]⟩,
      ⟨⟨"log", by simp, rfl⟩, by unfold SqlSame; decide +kernel⟩,
      ⟨⟨"LOG", by simp, by unfold SqlSame; decide +kernel⟩, by unfold SqlSame; decide +kernel⟩,
      by unfold SqlSame; decide +kernel, .cons ?_ .nil⟩
    intro f hf
    simp only [TabClass.fields, List.nil_append, List.mem_cons, List.not_mem_nil, or_false] at hf
    subst hf
    exact ⟨.str "x", ⟨0, _, rfl, rfl, rfl⟩, 1, _, rfl, by unfold SqlSame; decide +kernel, rfl⟩

end Ticdat

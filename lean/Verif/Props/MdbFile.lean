import Verif.Spec.MdbFile
import Verif.Props.SqlFileWrite
import Verif.Props.SqlFileExamples
import Verif.Props.Mdb
import Verif.Props.GenFiles
/-!
# C89: Access databases with a schema of their own
-/
set_option linter.unusedSectionVars false
set_option linter.unusedSimpArgs false
namespace Ticdat
open Spec

/-- One table as it is read. -/
def mdbFileFind (env : TextEnv) (cenv : CaseEnv) (cf : IOConf) (file : SqlFile) (tc : String × TabClass) :
    Option (Option TableIn) :=
  (file.tableName cenv tc.1).bind (fun n =>
    match n with
    | none => some none
    | some n => (mdbTabRows env cenv cf file tc n).map some)

theorem checkFields_none_mdb (env : TextEnv) (cenv : CaseEnv) (cf : IOConf) (file : SqlFile) (s : List (String × TabClass))
    (h : file.checkFields cenv s = none) : ∃ tc ∈ s, mdbFileFind env cenv cf file tc = none := by
  induction s with
  | nil => cases h
  | cons a rest ih =>
    unfold SqlFile.checkFields at h
    cases h1 : file.tableName cenv a.1 with
    | none => exact ⟨a, List.mem_cons_self, by unfold mdbFileFind; rw [h1]; rfl⟩
    | some n =>
      cases h2 : file.checkFields cenv rest with
      | none =>
        obtain ⟨tc, htc, h3⟩ := ih h2
        exact ⟨tc, List.mem_cons_of_mem _ htc, h3⟩
      | some r =>
        rw [h1, h2] at h
        simp only [Option.bind_some] at h
        cases n with
        | none => cases h
        | some n =>
          refine ⟨a, List.mem_cons_self, ?_⟩
          unfold mdbFileFind mdbTabRows SqlTab.select
          rw [h1]
          simp only [Option.bind_some]
          cases h4 : file.find cenv n with
          | none => rfl
          | some tab =>
            simp only [h4, Option.bind_some, Option.map_eq_none_iff] at h
            rw [Option.bind_some, h]
            rfl

/-- Checking the fields first makes no difference to what is read. -/
theorem mdbFileCreate_eq (env : TextEnv) (cenv : CaseEnv) (cf : IOConf) (policy : DupPolicy) (schema : List (String × TabClass))
    (hn : (schema.map Prod.fst).Nodup) (file : SqlFile) :
    mdbFileCreate env cenv cf policy schema file = readAll env cf.params policy schema (mdbFileFind env cenv cf file) := by
  unfold mdbFileCreate readAll
  cases h : file.checkFields cenv schema with
  | none =>
    obtain ⟨tc, htc, h1⟩ := checkFields_none_mdb env cenv cf file schema h
    rw [gather_raises _ schema tc htc h1]
    rfl
  | some names =>
    rw [Option.bind_some, gather_congr _ (mdbFileFind env cenv cf file) schema]
    intro tc htc
    unfold mdbFileFind
    rw [(checkFields_spec cenv file schema hn names h).2 tc htc, Option.bind_some]
    cases PyDict.get? names tc.1 <;> rfl

/-- **C89, columns by name.**  What is read from an Access database depends only on the cells its tables have under the names of the
fields: not on the order of the columns and of the tables, on other columns and other tables, on the case of the names. -/
theorem mdb_reads_by_name (env : TextEnv) (cenv : CaseEnv) (laws : CaseLaws cenv) (cf : IOConf) (policy : DupPolicy)
    (schema : List (String × TabClass)) (hg : goodTableNames cenv (schema.map (fun tc => tc.1.toList)) = true)
    (file file' : SqlFile) (hwf : SqlFileWF cenv file) (hwf' : SqlFileWF cenv file')
    (h : ∀ tc ∈ schema, (NoTable cenv file tc.1 ∧ NoTable cenv file' tc.1) ∨
      ∃ tab tab', HasTable cenv file tc.1 tab ∧ HasTable cenv file' tc.1 tab' ∧
      (∀ f ∈ tc.2.fields, (∃ c ∈ tab.cols, SqlSame cenv c.name f) ∧ ∃ c ∈ tab'.cols, SqlSame cenv c.name f) ∧
      SameByName cenv tc.2.fields tab tab') :
    mdbFileCreate env cenv cf policy schema file = mdbFileCreate env cenv cf policy schema file' := by
  rw [mdbFileCreate_eq env cenv cf policy schema (good_names_nodup cenv schema hg),
    mdbFileCreate_eq env cenv cf policy schema (good_names_nodup cenv schema hg)]
  unfold readAll
  rw [gather_congr _ (mdbFileFind env cenv cf file') schema]
  intro tc htc
  have hb : ' ' ∉ tc.1.toList := ((goodTableNames_iff cenv _).mp hg).2.1 _ (List.mem_map.mpr ⟨tc, htc, rfl⟩)
  rcases h tc htc with ⟨h1, h2⟩ | ⟨tab, tab', h1, h2, h3, h4⟩
  · unfold mdbFileFind
    rw [tableName_none cenv laws file tc.1 hb h1, tableName_none cenv laws file' tc.1 hb h2]
    rfl
  have ⟨⟨k, hk, hs⟩, _⟩ := h1
  have ⟨⟨k', hk', hs'⟩, _⟩ := h2
  unfold mdbFileFind
  rw [tableName_found cenv laws file tc.1 hb tab h1, tableName_found cenv laws file' tc.1 hb tab' h2]
  simp only [Option.bind_some]
  unfold mdbTabRows
  rw [find_of_mem cenv file hwf.names k tab hk tc.1 hs, find_of_mem cenv file' hwf'.names k' tab' hk' tc.1 hs',
    Option.bind_some, Option.bind_some, select_same cenv tab tab' (hwf.cols _ hk) (hwf'.cols _ hk') tc.2.fields
      (fun f hf => (h3 f hf).1) (fun f hf => (h3 f hf).2) (hwf.rows _ hk) h4]

/-- **C89, missing fields.**  A table that is found but lacks a column for a field makes reading raise, and writing too, which then
leaves the database as it was: even if the table has no rows. -/
theorem mdb_missing_field_raises (env : TextEnv) (cenv : CaseEnv) (laws : CaseLaws cenv) (cf : IOConf) (store : Store)
    (policy : DupPolicy) (allowOverwrite : Bool) (schema : List (String × TabClass))
    (hg : goodTableNames cenv (schema.map (fun tc => tc.1.toList)) = true)
    (dat : PyDict String TabVal) (file : SqlFile) (hwf : SqlFileWF cenv file) (tc : String × TabClass) (htc : tc ∈ schema)
    (tab : SqlTab) (h : HasTable cenv file tc.1 tab) (f : String) (hf : f ∈ tc.2.fields)
    (hmiss : ∀ c ∈ tab.cols, ¬ SqlSame cenv c.name f) :
    mdbFileCreate env cenv cf policy schema file = none ∧
      mdbFileWrite env cenv cf store allowOverwrite schema dat file = (file, true) := by
  have hb : ' ' ∉ tc.1.toList := ((goodTableNames_iff cenv _).mp hg).2.1 _ (List.mem_map.mpr ⟨tc, htc, rfl⟩)
  have hname := tableName_found cenv laws file tc.1 hb tab h
  obtain ⟨⟨k, hk, hs⟩, _⟩ := h
  have hfind := find_of_mem cenv file hwf.names k tab hk tc.1 hs
  have hm : tc.2.fields.mapM (tab.col cenv) = none := mapM_none_of hf (col_none cenv tab f hmiss)
  constructor
  · unfold mdbFileCreate
    rw [checkFields_raises cenv file schema tc htc tc.1 hname tab hfind hm]
    rfl
  · unfold mdbFileWrite
    rw [checkFields_raises cenv file schema tc htc tc.1 hname tab hfind hm]

/-- **C89, missing tables.**  A table of the schema that the database does not have is read as an empty table. -/
theorem mdb_missing_table_empty (env : TextEnv) (cenv : CaseEnv) (laws : CaseLaws cenv) (cf : IOConf)
    (policy : DupPolicy) (schema : List (String × TabClass))
    (hg : goodTableNames cenv (schema.map (fun tc => tc.1.toList)) = true) (file : SqlFile) (dat : PyDict String TabVal)
    (hr : mdbFileCreate env cenv cf policy schema file = some dat) (tc : String × TabClass) (htc : tc ∈ schema)
    (hmiss : NoTable cenv file tc.1) :
    PyDict.get? dat tc.1 = some (emptyTable tc.2) := by
  have hnames := good_names_nodup cenv schema hg
  have hb : ' ' ∉ tc.1.toList := ((goodTableNames_iff cenv _).mp hg).2.1 _ (List.mem_map.mpr ⟨tc, htc, rfl⟩)
  rw [mdbFileCreate_eq env cenv cf policy schema hnames] at hr
  rcases readAll_table env cf.params policy schema hnames (mdbFileFind env cenv cf file) dat hr tc htc with h | ⟨x, tab, h, _⟩
  · exact h.2
  · unfold mdbFileFind at h
    rw [tableName_none cenv laws file tc.1 hb hmiss] at h
    simp at h

theorem checkFields_two (cenv : CaseEnv) (file : SqlFile) (schema : List (String × TabClass)) (tc : String × TabClass)
    (htc : tc ∈ schema) (hn : file.tableName cenv tc.1 = none) : file.checkFields cenv schema = none := by
  induction schema with
  | nil => cases htc
  | cons a rest ih =>
    unfold SqlFile.checkFields
    rcases List.mem_cons.mp htc with e | h
    · subst e
      rw [hn]
      rfl
    · rw [ih h]
      cases file.tableName cenv a.1 <;> rfl

theorem tableName_two (cenv : CaseEnv) (file : SqlFile) (t : String) (k1 k2 : String) (n1 n2 : List Char)
    (h1 : k1 ∈ PyDict.keys file) (h2 : k2 ∈ PyDict.keys file) (hv1 : BlankedVariant t.toList n1) (hv2 : BlankedVariant t.toList n2)
    (he1 : cenv.lower k1.toList = cenv.lower n1) (he2 : cenv.lower k2.toList = cenv.lower n2) (hne : n1 ≠ n2) :
    file.tableName cenv t = none := by
  have hin : ∀ k n, k ∈ PyDict.keys file → BlankedVariant t.toList n → cenv.lower k.toList = cenv.lower n →
      n ∈ (underscoreReplacements t.toList).filter (fun n =>
        (file.map (fun p => (p.1, ([] : List (List Cell))))).any (fun p => decide (cenv.lower p.1.toList = cenv.lower n))) := by
    intro k n hk hv he
    rw [List.mem_filter, List.any_eq_true]
    obtain ⟨p, hp, e⟩ := List.mem_map.mp hk
    exact ⟨(mem_underscoreReplacements _ _).mpr hv, (p.1, []), List.mem_map.mpr ⟨p, hp, rfl⟩,
      decide_eq_true (by rw [← he, ← e])⟩
  have a1 := hin k1 n1 h1 hv1 he1
  have a2 := hin k2 n2 h2 hv2 he2
  unfold SqlFile.tableName sqlTableName
  generalize (underscoreReplacements t.toList).filter (fun n =>
        (file.map (fun p => (p.1, ([] : List (List Cell))))).any (fun p => decide (cenv.lower p.1.toList = cenv.lower n))) = l at a1 a2 ⊢
  match l, a1, a2 with
  | [], a1, _ => cases a1
  | [x], a1, a2 => exact absurd ((List.mem_singleton.mp a1).trans (List.mem_singleton.mp a2).symm) hne
  | _ :: _ :: _, _, _ => rfl

/-- **C89 and C77, two candidates.**  If two tables of the database could be a table of the schema, such as `food_list` and
`Food List`, reading raises, and so does writing, which then changes nothing; for Access and for SQLite. -/
theorem two_candidates_raise (env : TextEnv) (senv : SqlEnv) (cenv : CaseEnv) (cf : IOConf) (store : Store)
    (policy : DupPolicy) (allowOverwrite : Bool) (schema : List (String × TabClass)) (dat : PyDict String TabVal) (file : SqlFile)
    (tc : String × TabClass) (htc : tc ∈ schema) (k1 k2 : String) (n1 n2 : List Char)
    (h1 : k1 ∈ PyDict.keys file) (h2 : k2 ∈ PyDict.keys file)
    (hv1 : BlankedVariant tc.1.toList n1) (hv2 : BlankedVariant tc.1.toList n2)
    (he1 : cenv.lower k1.toList = cenv.lower n1) (he2 : cenv.lower k2.toList = cenv.lower n2) (hne : n1 ≠ n2) :
    mdbFileCreate env cenv cf policy schema file = none ∧
      mdbFileWrite env cenv cf store allowOverwrite schema dat file = (file, true) ∧
      sqlFileCreate env cenv cf policy schema file = none ∧
      sqlFileWrite env senv cenv cf allowOverwrite schema dat file = (file, true) := by
  have h := checkFields_two cenv file schema tc htc (tableName_two cenv file tc.1 k1 k2 n1 n2 h1 h2 hv1 hv2 he1 he2 hne)
  unfold mdbFileCreate mdbFileWrite sqlFileCreate sqlFileWrite
  rw [h]
  exact ⟨rfl, rfl, rfl, rfl⟩

/-! ### Generator tables -/

theorem mdb_probe (env : TextEnv) (cenv : CaseEnv) (cf : IOConf) (file : SqlFile) (tc : String × TabClass) (x : Option TableIn)
    (h : mdbFileFind env cenv cf file tc = some x) (hg : ∀ y, x = some y → lazyGood tc.2 y = true) :
    ∃ s, mdbProbe env cenv cf file tc = some s ∧ mdbLazyRows env cenv cf file tc s = foundRows tc.2 x := by
  unfold mdbFileFind at h
  unfold mdbProbe
  cases hp : file.tableName cenv tc.1 with
  | none => rw [hp] at h; cases h
  | some name =>
    rw [hp] at h
    cases name with
    | none =>
      cases h
      exact ⟨none, rfl, rfl⟩
    | some n =>
      simp only [Option.bind_some, Option.map_eq_some_iff] at h
      obtain ⟨y, h1, rfl⟩ := h
      refine ⟨some n, ?_, ?_⟩
      · simp [h1, hg _ rfl]
      · simp [mdbLazyRows, h1, foundRows]

/-- **C89, generator tables.**  If all tables can be read into memory, the object with generator tables can be made, its other tables
are the same, and each generator table gives the rows that would be in memory, as long as the file stays as it is. -/
theorem mdb_generators_read (env : TextEnv) (cenv : CaseEnv) (cf : IOConf) (policy : DupPolicy) (schema : List (String × TabClass))
    (gens : List String) (hn : (schema.map Prod.fst).Nodup) (hpk : ∀ tc ∈ schema, tc.1 ∈ gens → tc.2.pks = [])
    (file : SqlFile) (dat : PyDict String TabVal) (h : mdbFileCreate env cenv cf policy schema file = some dat) :
    ∃ obj, mdbLazyCreate env cenv cf policy gens schema file = some obj ∧
      (∀ tc ∈ schema, tc.1 ∉ gens → PyDict.get? obj.eager tc.1 = PyDict.get? dat tc.1) ∧
      ∀ tc ∈ schema, tc.1 ∈ gens → ∃ src rows, PyDict.get? obj.lazy tc.1 = some src ∧
        mdbLazyRows env cenv cf file tc src = some rows ∧ PyDict.get? dat tc.1 = some (.plain rows) := by
  rw [mdbFileCreate_eq env cenv cf policy schema hn] at h
  obtain ⟨obj, h1, h2, h3⟩ := lazy_read env cf.params policy schema hn gens hpk (mdbFileFind env cenv cf file)
    (mdbProbe env cenv cf file) (mdbLazyRows env cenv cf file) (fun tc x hx hg => mdb_probe env cenv cf file tc x hx hg) dat h
  refine ⟨obj, ?_, fun tc htc hg => (h2 tc htc hg).1, ?_⟩
  · rw [← h1]
    unfold mdbLazyCreate lazyCreate
    simp only
    rw [mdbFileCreate_eq env cenv cf policy _ (List.Nodup.sublist ((List.filter_sublist (l := schema)).map Prod.fst) hn)]
  · intro tc htc hg
    obtain ⟨s, rs, h4, _, h5, h6⟩ := h3 tc htc hg
    exact ⟨s, rs, h4, h5, h6⟩

/-! ### Non-vacuity -/

/-- Two tables that could be `food_list`. -/
example : mdbFileCreate unaryText asciiEnv ⟨[], .na, false, []⟩ .assert sqlExampleSchema
      [("FOOD_LIST", ⟨[], [], []⟩), ("Food List", ⟨[], [], []⟩)] = none ∧
    mdbFileWrite unaryText asciiEnv ⟨[], .na, false, []⟩ finiteStore true sqlExampleSchema sqlExampleDat
      [("FOOD_LIST", ⟨[], [], []⟩), ("Food List", ⟨[], [], []⟩)] =
      ([("FOOD_LIST", ⟨[], [], []⟩), ("Food List", ⟨[], [], []⟩)], true) := by
  have h := two_candidates_raise unaryText noNums asciiEnv ⟨[], .na, false, []⟩ finiteStore .assert true sqlExampleSchema sqlExampleDat
    [("FOOD_LIST", ⟨[], [], []⟩), ("Food List", ⟨[], [], []⟩)] ("food_list", ⟨["name"], ["cost"], []⟩) (by simp [sqlExampleSchema])
    "FOOD_LIST" "Food List" "food_list".toList "food list".toList (by decide) (by decide)
    ((mem_underscoreReplacements _ _).mp (by decide +kernel)) ((mem_underscoreReplacements _ _).mp (by decide +kernel))
    (by decide +kernel) (by decide +kernel) (by decide)
  exact ⟨h.1, h.2.1⟩

/-- A missing table is read as empty. -/
example : ∃ dat, mdbFileCreate unaryText asciiEnv ⟨[], .na, false, []⟩ .assert sqlExampleSchema
      [("LOG", ⟨[⟨"note", false, none⟩], [], [[.str "x"]]⟩)] = some dat ∧
    PyDict.get? dat "food_list" = some (emptyTable ⟨["name"], ["cost"], []⟩) := by
  refine ⟨_, rfl, ?_⟩
  exact mdb_missing_table_empty unaryText asciiEnv asciiLaws ⟨[], .na, false, []⟩ .assert sqlExampleSchema (by decide +kernel)
    [("LOG", ⟨[⟨"note", false, none⟩], [], [[.str "x"]]⟩)] _ rfl
    ("food_list", ⟨["name"], ["cost"], []⟩) (by simp [sqlExampleSchema]) (by unfold NoTable; decide +kernel)

/-- A table without a column for a field. -/
example : mdbFileCreate unaryText asciiEnv ⟨[], .na, false, []⟩ .assert [("log", ⟨[], ["note"], []⟩)]
      [("LOG", ⟨[⟨"notes", false, none⟩], [], []⟩)] = none :=
  (mdb_missing_field_raises unaryText asciiEnv asciiLaws ⟨[], .na, false, []⟩ finiteStore .assert true [("log", ⟨[], ["note"], []⟩)]
    (by decide +kernel) [] _ ⟨by decide +kernel, by decide +kernel, by unfold SqlSame; decide +kernel, by decide⟩
    ("log", ⟨[], ["note"], []⟩) (by simp) ⟨[⟨"notes", false, none⟩], [], []⟩
    ⟨⟨"LOG", by simp, by unfold SqlSame; decide +kernel⟩, by unfold SqlSame; decide +kernel⟩ "note" (by decide)
    (by unfold SqlSame; decide +kernel)).1

/-- The same data in a database with its own layout. -/
example : mdbFileCreate unaryText asciiEnv ⟨[], .na, false, []⟩ .assert [("log", ⟨[], ["note"], []⟩)]
      [("log", ⟨[⟨"note", false, none⟩], [], [[.str "x"]]⟩)] =
    mdbFileCreate unaryText asciiEnv ⟨[], .na, false, []⟩ .assert [("log", ⟨[], ["note"], []⟩)]
      [("other", ⟨[], [], []⟩), ("LOG", ⟨[⟨"id", true, none⟩, ⟨"Note", false, none⟩], ["id"], [[.num (.fin 3), .str "x"]]⟩)] := by
  refine mdb_reads_by_name _ _ asciiLaws _ _ _ (by decide +kernel) _ _
    ⟨by decide +kernel, by decide +kernel, by unfold SqlSame; decide +kernel, by decide⟩
    ⟨by decide +kernel, by decide +kernel, ?_, by decide⟩ ?_
  · intro p hp k hk
    simp only [List.mem_cons, List.not_mem_nil, or_false] at hp
    rcases hp with rfl | rfl
    · cases hk
    · simp only [List.mem_cons, List.not_mem_nil, or_false] at hk
      subst hk
      exact ⟨⟨"id", true, none⟩, by simp, rfl⟩
  · intro tc htc
    simp only [List.mem_cons, List.not_mem_nil, or_false] at htc
    subst htc
    refine .inr ⟨⟨[⟨"note", false, none⟩], [], [[.str "x"]]⟩,
      ⟨[⟨"id", true, none⟩, ⟨"Note", false, none⟩], ["id"], [[.num (.fin 3), .str "x"]]⟩,
      ⟨⟨"log", by simp, rfl⟩, by unfold SqlSame; decide +kernel⟩,
      ⟨⟨"LOG", by simp, by unfold SqlSame; decide +kernel⟩, by unfold SqlSame; decide +kernel⟩,
      by unfold SqlSame; decide +kernel, .cons ?_ .nil⟩
    intro f hf
    simp only [TabClass.fields, List.nil_append, List.mem_cons, List.not_mem_nil, or_false] at hf
    subst hf
    exact ⟨.str "x", ⟨0, _, rfl, rfl, rfl⟩, 1, _, rfl, by unfold SqlSame; decide +kernel, rfl⟩

/-- A generator table. -/
example : ∃ obj, mdbLazyCreate unaryText asciiEnv ⟨[], .na, false, []⟩ .assert ["log"] sqlExampleSchema foreignFile = some obj ∧
    ∃ src rows, PyDict.get? obj.lazy "log" = some src ∧ mdbLazyRows unaryText asciiEnv ⟨[], .na, false, []⟩ foreignFile
      ("log", ⟨[], ["note"], []⟩) src = some rows ∧ rows = [[("note", .str "old")]] := by
  obtain ⟨dat, hd, hl⟩ : ∃ dat, mdbFileCreate unaryText asciiEnv ⟨[], .na, false, []⟩ .assert sqlExampleSchema foreignFile = some dat ∧
    PyDict.get? dat "log" = some (.plain [[("note", .str "old")]]) := ⟨_, rfl, rfl⟩
  obtain ⟨obj, h1, _, h3⟩ := mdb_generators_read unaryText asciiEnv ⟨[], .na, false, []⟩ .assert sqlExampleSchema ["log"] (by decide)
    (by decide) foreignFile dat hd
  obtain ⟨src, rows, h4, h5, h6⟩ := h3 ("log", ⟨[], ["note"], []⟩) (by simp [sqlExampleSchema]) (by decide)
  refine ⟨obj, h1, src, rows, h4, h5, ?_⟩
  have h6 : PyDict.get? dat "log" = some (.plain rows) := h6
  rw [hl] at h6
  cases h6
  rfl

end Ticdat

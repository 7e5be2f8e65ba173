import Verif.Props.ExcelRound
import Verif.Props.SqliteTable
/-!
# C50: readers take each table from its own file, sheet, key or database table
-/
namespace Ticdat
open Spec
set_option linter.unusedSimpArgs false

theorem gather_get (rd : String × TabClass → Option (Option TableIn)) (s : List (String × TabClass))
    (hn : (s.map Prod.fst).Nodup) (input : PyDict String TableIn) (h : gatherTables rd s = some input) :
    (∀ t ∈ PyDict.keys input, t ∈ s.map Prod.fst) ∧ ∀ tc ∈ s, ∃ x, rd tc = some x ∧ PyDict.get? input tc.1 = x := by
  induction s generalizing input with
  | nil =>
    cases h
    exact ⟨by simp [PyDict.keys], by simp⟩
  | cons tc rest ih =>
    rw [List.map_cons, List.nodup_cons] at hn
    unfold gatherTables at h
    simp only [Option.bind_eq_some_iff, Option.map_eq_some_iff] at h
    obtain ⟨x, hx, r, hr, rfl⟩ := h
    obtain ⟨h1, h2⟩ := ih hn.2 r hr
    have hnot : PyDict.get? r tc.1 = none := by
      rw [PyDict.get?_eq_none]
      exact fun hm => hn.1 (h1 _ hm)
    cases x with
    | none =>
      refine ⟨fun t ht => by rw [List.map_cons]; exact List.mem_cons_of_mem _ (h1 t ht), ?_⟩
      intro tc' htc'
      rcases List.mem_cons.mp htc' with rfl | hm
      · exact ⟨none, hx, hnot⟩
      · exact h2 tc' hm
    | some y =>
      refine ⟨?_, ?_⟩
      · intro t ht
        rw [List.map_cons]
        simp only [PyDict.keys, List.map_cons, List.mem_cons] at ht
        rcases ht with rfl | ht
        · exact List.mem_cons_self
        · exact List.mem_cons_of_mem _ (h1 t ht)
      · intro tc' htc'
        rcases List.mem_cons.mp htc' with rfl | hm
        · exact ⟨some y, hx, by simp [PyDict.get?]⟩
        · obtain ⟨x', h3, h4⟩ := h2 tc' hm
          refine ⟨x', h3, ?_⟩
          have hne : tc.1 ≠ tc'.1 := by
            intro e
            exact hn.1 (e ▸ List.mem_map.mpr ⟨tc', hm, rfl⟩)
          simp only [PyDict.get?]
          rw [if_neg (by first | exact hne | exact Ne.symm hne)]
          exact h4

theorem gather_raises (rd : String × TabClass → Option (Option TableIn)) (s : List (String × TabClass))
    (tc : String × TabClass) (htc : tc ∈ s) (h : rd tc = none) : gatherTables rd s = none := by
  induction s with
  | nil => cases htc
  | cons a rest ih =>
    unfold gatherTables
    rcases List.mem_cons.mp htc with rfl | hm
    · rw [h]; rfl
    · rw [ih hm]
      cases rd a <;> rfl

theorem gather_congr (rd rd' : String × TabClass → Option (Option TableIn)) (s : List (String × TabClass))
    (h : ∀ tc ∈ s, rd tc = rd' tc) : gatherTables rd s = gatherTables rd' s := by
  induction s with
  | nil => rfl
  | cons a rest ih =>
    unfold gatherTables
    rw [h a List.mem_cons_self, ih (fun tc htc => h tc (List.mem_cons_of_mem _ htc))]

/-- What `postRead` does to one table. -/
def postReadTab (env : TextEnv) (params : Params) (t : String) (tab : TabVal) : TabVal :=
  if params = [] then tab
  else if t = "parameters" then
    match tab with
    | .keyed d => .keyed (d.map (postReadEntry env params))
    | t => t
  else tab

theorem postRead_get (env : TextEnv) (params : Params) (dat : PyDict String TabVal) (t : String) :
    PyDict.get? (postRead env params dat) t = (PyDict.get? dat t).map (postReadTab env params t) := by
  unfold postRead postReadTab
  split
  · simp
  · induction dat with
    | nil => rfl
    | cons p rest ih =>
      obtain ⟨k, tab⟩ := p
      rw [List.map_cons]
      by_cases hk : k = t
      · subst hk
        by_cases hp : k = "parameters"
        · simp [PyDict.get?, hp]; cases tab <;> rfl
        · simp [PyDict.get?, hp]
      · by_cases hp : k = "parameters"
        · rw [if_pos hp]
          simp only [PyDict.get?, if_neg hk]
          exact ih
        · rw [if_neg hp]
          simp only [PyDict.get?, if_neg hk]
          exact ih

/-- The common end of all readers. -/
def readAll (env : TextEnv) (params : Params) (policy : DupPolicy) (schema : List (String × TabClass))
    (rd : String × TabClass → Option (Option TableIn)) : Option (PyDict String TabVal) :=
  ((gatherTables rd schema).bind (initDat policy schema)).map (postRead env params)

theorem readAll_table (env : TextEnv) (params : Params) (policy : DupPolicy) (schema : List (String × TabClass))
    (hn : (schema.map Prod.fst).Nodup) (rd : String × TabClass → Option (Option TableIn)) (dat : PyDict String TabVal)
    (h : readAll env params policy schema rd = some dat) (tc : String × TabClass) (htc : tc ∈ schema) :
    (rd tc = some none ∧ PyDict.get? dat tc.1 = some (emptyTable tc.2)) ∨
      ∃ x tab, rd tc = some (some x) ∧ initTable tc.2 x = some tab ∧
        PyDict.get? dat tc.1 = some (postReadTab env params tc.1 tab) := by
  unfold readAll at h
  simp only [Option.map_eq_some_iff, Option.bind_eq_some_iff] at h
  obtain ⟨d, ⟨input, h1, h2⟩, rfl⟩ := h
  obtain ⟨x, hx, hg⟩ := (gather_get rd schema hn input h1).2 tc htc
  obtain ⟨tab, h3, h4⟩ := (init_object policy schema hn input d h2).2.2 tc htc
  rw [postRead_get, h3]
  rcases h4 with ⟨h4, rfl⟩ | ⟨y, h4, h5⟩
  · left
    rw [hg] at h4
    subst h4
    refine ⟨hx, ?_⟩
    simp only [Option.map_some, Option.some.injEq]
    unfold postReadTab emptyTable
    split
    · rfl
    · by_cases hpk : tc.2.pks ≠ []
      · simp only [if_pos hpk]; split <;> rfl
      · simp only [if_neg hpk]; split <;> rfl
  · right
    rw [hg] at h4
    subst h4
    exact ⟨y, tab, hx, h5, rfl⟩

theorem readAll_local (env : TextEnv) (params : Params) (policy : DupPolicy) (schema : List (String × TabClass))
    (hn : (schema.map Prod.fst).Nodup) (rd rd' : String × TabClass → Option (Option TableIn)) (dat dat' : PyDict String TabVal)
    (h : readAll env params policy schema rd = some dat) (h' : readAll env params policy schema rd' = some dat')
    (tc : String × TabClass) (htc : tc ∈ schema) (he : rd tc = rd' tc) :
    PyDict.get? dat tc.1 = PyDict.get? dat' tc.1 := by
  rcases readAll_table env params policy schema hn rd dat h tc htc with ⟨h1, h2⟩ | ⟨x, tab, h1, h2, h3⟩ <;>
    rcases readAll_table env params policy schema hn rd' dat' h' tc htc with ⟨h1', h2'⟩ | ⟨x', tab', h1', h2', h3'⟩
  · rw [h2, h2']
  · rw [he, h1'] at h1; cases h1
  · rw [he, h1'] at h1; cases h1
  · rw [he, h1'] at h1
    cases h1
    rw [h2'] at h2
    cases h2
    rw [h3, h3']

theorem readAll_raises (env : TextEnv) (params : Params) (policy : DupPolicy) (schema : List (String × TabClass))
    (rd : String × TabClass → Option (Option TableIn)) (tc : String × TabClass) (htc : tc ∈ schema) (h : rd tc = none) :
    readAll env params policy schema rd = none := by
  unfold readAll
  rw [gather_raises rd schema tc htc h]
  rfl

/-! ### Looking up one name -/

theorem keys_filter {K V : Type} (p : K → Bool) (d : PyDict K V) :
    (PyDict.keys d).filter p = PyDict.keys (d.filter (fun e => p e.1)) := by
  unfold PyDict.keys
  rw [List.filter_map]
  rfl

theorem get?_filter {K V : Type} [DecidableEq K] (p : K → Bool) (d : PyDict K V) (k : K) (h : p k = true) :
    PyDict.get? (d.filter (fun e => p e.1)) k = PyDict.get? d k := by
  induction d with
  | nil => rfl
  | cons e rest ih =>
    obtain ⟨k', v⟩ := e
    by_cases hk : k' = k
    · subst hk
      rw [List.filter_cons_of_pos (by simpa using h)]
      simp [PyDict.get?]
    · by_cases hp : p k' = true
      · rw [List.filter_cons_of_pos (by simpa using hp)]
        simp only [PyDict.get?, if_neg hk]
        exact ih
      · rw [List.filter_cons_of_neg (by simpa using hp)]
        rw [ih]
        simp only [PyDict.get?, if_neg hk]

/-- The entry of a directory, file or database that matches a name: `none` if there are several. -/
def oneEntry {K V : Type} (p : K → Bool) (d : PyDict K V) : Option (Option V) :=
  match d.filter (fun e => p e.1) with
  | [] => some none
  | [e] => some (some e.2)
  | _ => none

theorem oneEntry_none {K V : Type} (p : K → Bool) (d : PyDict K V) (h : ∀ e ∈ d, p e.1 = false) :
    oneEntry p d = some none := by
  have : d.filter (fun e => p e.1) = [] := by
    rw [List.filter_eq_nil_iff]
    intro e he
    simp [h e he]
  unfold oneEntry
  rw [this]

theorem oneEntry_several {K V : Type} (p : K → Bool) (d : PyDict K V) (h : 2 ≤ (d.filter (fun e => p e.1)).length) :
    oneEntry p d = none := by
  unfold oneEntry
  cases hd : d.filter (fun e => p e.1) with
  | nil => rw [hd] at h; simp at h
  | cons e l =>
    cases l with
    | nil => rw [hd] at h; simp at h
    | cons _ _ => rfl

theorem oneEntry_congr {K V : Type} (p : K → Bool) (d d' : PyDict K V)
    (h : d.filter (fun e => p e.1) = d'.filter (fun e => p e.1)) : oneEntry p d = oneEntry p d' := by
  unfold oneEntry
  rw [h]

/-- Reading the entry, if there is one. -/
def entryRead {V W : Type} (g : V → Option (Option W)) : Option V → Option (Option W)
  | none => some none
  | some v => g v

theorem oneEntry_cases {K V : Type} [DecidableEq K] (p : K → Bool) (d : PyDict K V) :
    ((PyDict.keys d).filter p = [] ∧ oneEntry p d = some none) ∨
    (∃ k v, (PyDict.keys d).filter p = [k] ∧ PyDict.get? d k = some v ∧ oneEntry p d = some (some v)) ∨
    (∃ a b l, (PyDict.keys d).filter p = a :: b :: l ∧ oneEntry p d = none) := by
  rw [keys_filter]
  unfold oneEntry
  cases hd : d.filter (fun e => p e.1) with
  | nil => exact .inl ⟨rfl, rfl⟩
  | cons e l =>
    cases l with
    | nil =>
      refine .inr (.inl ⟨e.1, e.2, rfl, ?_, rfl⟩)
      have hp : p e.1 = true := by
        have : e ∈ d.filter (fun e => p e.1) := by rw [hd]; exact List.mem_singleton.mpr rfl
        simpa using (List.mem_filter.mp this).2
      have hg := get?_filter p d e.1 hp
      rw [hd] at hg
      rw [← hg]
      simp [PyDict.get?]
    | cons b l => exact .inr (.inr ⟨e.1, b.1, l.map Prod.fst, rfl, rfl⟩)

theorem csvFind_eq (env : TextEnv) (cenv : CaseEnv) (cf : IOConf) (dv : Defaults) (hp : Bool)
    (dir : PyDict (List Char) CsvFile) (tc : String × TabClass) :
    csvFind env cenv cf dv hp dir tc = (oneEntry (csvMatches cenv tc.1.toList) dir).bind (entryRead (fun lines =>
      (csvReadTable env cenv cf dv tc.1 tc.2 hp lines).map (fun x => if x.size = 0 then none else some x))) := by
  unfold csvFind csvFilePath
  rcases oneEntry_cases (csvMatches cenv tc.1.toList) dir with ⟨h1, h2⟩ | ⟨k, v, h1, h2, h3⟩ | ⟨a, b, l, h1, h2⟩
  · rw [h1, h2]; rfl
  · rw [h1, h3]; simp [h2, entryRead]
  · rw [h1, h2]; rfl

theorem xlFind_eq (env : XlEnv) (cf : IOConf) (dv : Defaults) (o : XlOpts) (book : Book) (tc : String × TabClass) :
    xlFind env cf dv o book tc = (oneEntry (sheetMatches env.case tc.1.toList) book).bind (entryRead (fun g =>
      (xlReadTable env cf dv o tc.1 tc.2 g).map some)) := by
  unfold xlFind sheetOf
  rcases oneEntry_cases (sheetMatches env.case tc.1.toList) book with ⟨h1, h2⟩ | ⟨k, v, h1, h2, h3⟩ | ⟨a, b, l, h1, h2⟩
  · rw [h1, h2]; rfl
  · rw [h1, h3]; simp [h2, entryRead]
  · rw [h1, h2]; rfl

/-- One table of a json file. -/
def jsonFind (env : TextEnv) (cenv : CaseEnv) (cf : IOConf) (file : PyDict String (List RowIn)) (tc : String × TabClass) :
    Option (Option TableIn) :=
  (oneEntry (fun k => jsonMatches cenv tc.1.toList k.toList) file).bind (entryRead (fun rows =>
    (jsonReadTable env cf tc.1 tc.2 rows).map some))

theorem jsonTables_eq (env : TextEnv) (cenv : CaseEnv) (cf : IOConf) (file : PyDict String (List RowIn))
    (schema : List (String × TabClass)) :
    jsonTables env cenv cf file schema = gatherTables (jsonFind env cenv cf file) schema := by
  induction schema with
  | nil => rfl
  | cons tc rest ih =>
    unfold jsonTables gatherTables jsonKeyOf jsonFind
    rw [ih]
    rcases oneEntry_cases (fun k => jsonMatches cenv tc.1.toList k.toList) file with
      ⟨h1, h2⟩ | ⟨k, v, h1, h2, h3⟩ | ⟨a, b, l, h1, h2⟩
    · rw [h1, h2]
      simp only [Option.bind_some, entryRead]
      show gatherTables (jsonFind env cenv cf file) rest = Option.map (fun r => r) (gatherTables (jsonFind env cenv cf file) rest)
      cases gatherTables (jsonFind env cenv cf file) rest <;> rfl
    · rw [h1, h3]
      simp only [Option.bind_some, entryRead, h2]
      cases jsonReadTable env cf tc.1 tc.2 v <;> rfl
    · rw [h1, h2]; rfl

/-! ### The theorems -/

section Csv
variable (env : TextEnv) (cenv : CaseEnv) (cf : IOConf) (dv : Defaults) (policy : DupPolicy) (headers : Bool)
  (schema : List (String × TabClass))

theorem csvCreate_eq (dir : PyDict (List Char) CsvFile) : csvCreate env cenv cf dv policy headers schema dir =
    readAll env cf.params policy schema (csvFind env cenv cf dv headers dir) := rfl

/-- **C50, csv.**  What is read, and whether the reader raises, depends only on the files that match the tables: other
files make no difference. -/
theorem csv_other_files (dir dir' : PyDict (List Char) CsvFile)
    (h : ∀ tc ∈ schema, dir.filter (fun e => csvMatches cenv tc.1.toList e.1) =
      dir'.filter (fun e => csvMatches cenv tc.1.toList e.1)) :
    csvCreate env cenv cf dv policy headers schema dir = csvCreate env cenv cf dv policy headers schema dir' := by
  rw [csvCreate_eq, csvCreate_eq]
  unfold readAll
  rw [gather_congr _ (csvFind env cenv cf dv headers dir')]
  intro tc htc
  rw [csvFind_eq, csvFind_eq, oneEntry_congr _ _ _ (h tc htc)]

/-- Each table is read from its own file. -/
theorem csv_table_local (hn : (schema.map Prod.fst).Nodup) (dir dir' : PyDict (List Char) CsvFile) (dat dat' : PyDict String TabVal)
    (h : csvCreate env cenv cf dv policy headers schema dir = some dat)
    (h' : csvCreate env cenv cf dv policy headers schema dir' = some dat') (tc : String × TabClass) (htc : tc ∈ schema)
    (he : dir.filter (fun e => csvMatches cenv tc.1.toList e.1) = dir'.filter (fun e => csvMatches cenv tc.1.toList e.1)) :
    PyDict.get? dat tc.1 = PyDict.get? dat' tc.1 := by
  refine readAll_local env cf.params policy schema hn _ _ dat dat' h h' tc htc ?_
  rw [csvFind_eq, csvFind_eq, oneEntry_congr _ _ _ he]

/-- A table without file is empty. -/
theorem csv_missing_empty (hn : (schema.map Prod.fst).Nodup) (dir : PyDict (List Char) CsvFile) (dat : PyDict String TabVal)
    (h : csvCreate env cenv cf dv policy headers schema dir = some dat) (tc : String × TabClass) (htc : tc ∈ schema)
    (he : ∀ e ∈ dir, csvMatches cenv tc.1.toList e.1 = false) :
    PyDict.get? dat tc.1 = some (emptyTable tc.2) := by
  have hf : csvFind env cenv cf dv headers dir tc = some none := by rw [csvFind_eq, oneEntry_none _ _ he]; rfl
  rcases readAll_table env cf.params policy schema hn _ dat h tc htc with ⟨_, h2⟩ | ⟨x, tab, h1, _⟩
  · exact h2
  · rw [hf] at h1; cases h1

/-- Two files for one table are refused. -/
theorem csv_two_files_raise (dir : PyDict (List Char) CsvFile) (tc : String × TabClass) (htc : tc ∈ schema)
    (he : 2 ≤ (dir.filter (fun e => csvMatches cenv tc.1.toList e.1)).length) :
    csvCreate env cenv cf dv policy headers schema dir = none :=
  readAll_raises env cf.params policy schema _ tc htc (by rw [csvFind_eq, oneEntry_several _ _ he]; rfl)

end Csv

section Json
variable (env : TextEnv) (cenv : CaseEnv) (cf : IOConf) (policy : DupPolicy) (schema : List (String × TabClass))

theorem jsonCreate_eq (file : PyDict String (List RowIn)) : jsonCreate env cenv cf policy schema file =
    readAll env cf.params policy schema (jsonFind env cenv cf file) := by
  unfold jsonCreate readAll
  rw [jsonTables_eq]
  cases gatherTables (jsonFind env cenv cf file) schema <;> rfl

/-- **C50, json.**  Keys that match no table make no difference. -/
theorem json_other_keys (file file' : PyDict String (List RowIn))
    (h : ∀ tc ∈ schema, file.filter (fun e => jsonMatches cenv tc.1.toList e.1.toList) =
      file'.filter (fun e => jsonMatches cenv tc.1.toList e.1.toList)) :
    jsonCreate env cenv cf policy schema file = jsonCreate env cenv cf policy schema file' := by
  rw [jsonCreate_eq, jsonCreate_eq]
  unfold readAll
  rw [gather_congr _ (jsonFind env cenv cf file')]
  intro tc htc
  unfold jsonFind
  rw [oneEntry_congr (fun k : String => jsonMatches cenv tc.1.toList k.toList) _ _ (h tc htc)]

theorem json_table_local (hn : (schema.map Prod.fst).Nodup) (file file' : PyDict String (List RowIn)) (dat dat' : PyDict String TabVal)
    (h : jsonCreate env cenv cf policy schema file = some dat) (h' : jsonCreate env cenv cf policy schema file' = some dat')
    (tc : String × TabClass) (htc : tc ∈ schema)
    (he : file.filter (fun e => jsonMatches cenv tc.1.toList e.1.toList) =
      file'.filter (fun e => jsonMatches cenv tc.1.toList e.1.toList)) :
    PyDict.get? dat tc.1 = PyDict.get? dat' tc.1 := by
  rw [jsonCreate_eq] at h h'
  refine readAll_local env cf.params policy schema hn _ _ dat dat' h h' tc htc ?_
  unfold jsonFind
  rw [oneEntry_congr (fun k : String => jsonMatches cenv tc.1.toList k.toList) _ _ he]

theorem json_missing_empty (hn : (schema.map Prod.fst).Nodup) (file : PyDict String (List RowIn)) (dat : PyDict String TabVal)
    (h : jsonCreate env cenv cf policy schema file = some dat) (tc : String × TabClass) (htc : tc ∈ schema)
    (he : ∀ e ∈ file, jsonMatches cenv tc.1.toList e.1.toList = false) :
    PyDict.get? dat tc.1 = some (emptyTable tc.2) := by
  rw [jsonCreate_eq] at h
  have hf : jsonFind env cenv cf file tc = some none := by
    unfold jsonFind
    rw [oneEntry_none (fun k : String => jsonMatches cenv tc.1.toList k.toList) _ he]; rfl
  rcases readAll_table env cf.params policy schema hn _ dat h tc htc with ⟨_, h2⟩ | ⟨x, tab, h1, _⟩
  · exact h2
  · rw [hf] at h1; cases h1

theorem json_two_keys_raise (file : PyDict String (List RowIn)) (tc : String × TabClass) (htc : tc ∈ schema)
    (he : 2 ≤ (file.filter (fun e => jsonMatches cenv tc.1.toList e.1.toList)).length) :
    jsonCreate env cenv cf policy schema file = none := by
  rw [jsonCreate_eq]
  refine readAll_raises env cf.params policy schema _ tc htc ?_
  unfold jsonFind
  rw [oneEntry_several (fun k : String => jsonMatches cenv tc.1.toList k.toList) _ he]
  rfl

end Json

section Excel
variable (env : XlEnv) (cf : IOConf) (dv : Defaults) (policy : DupPolicy) (o : XlOpts) (schema : List (String × TabClass))

theorem xlCreate_some (book : Book) (dat : PyDict String TabVal) (h : xlCreate env cf dv policy o schema book = some dat) :
    readAll env.text cf.params policy schema (xlFind env cf dv o book) = some dat := by
  unfold xlCreate at h
  split at h
  · exact h
  · cases h

/-- **C50, Excel.**  Sheets that match no table make no difference. -/
theorem xl_other_sheets (book book' : Book)
    (h : ∀ tc ∈ schema, book.filter (fun e => sheetMatches env.case tc.1.toList e.1) =
      book'.filter (fun e => sheetMatches env.case tc.1.toList e.1)) :
    xlCreate env cf dv policy o schema book = xlCreate env cf dv policy o schema book' := by
  unfold xlCreate
  rw [gather_congr _ (xlFind env cf dv o book')]
  intro tc htc
  rw [xlFind_eq, xlFind_eq, oneEntry_congr _ _ _ (h tc htc)]

theorem xl_table_local (hn : (schema.map Prod.fst).Nodup) (book book' : Book) (dat dat' : PyDict String TabVal)
    (h : xlCreate env cf dv policy o schema book = some dat) (h' : xlCreate env cf dv policy o schema book' = some dat')
    (tc : String × TabClass) (htc : tc ∈ schema)
    (he : book.filter (fun e => sheetMatches env.case tc.1.toList e.1) =
      book'.filter (fun e => sheetMatches env.case tc.1.toList e.1)) :
    PyDict.get? dat tc.1 = PyDict.get? dat' tc.1 := by
  refine readAll_local env.text cf.params policy schema hn _ _ dat dat' (xlCreate_some _ _ _ _ _ _ _ _ h)
    (xlCreate_some _ _ _ _ _ _ _ _ h') tc htc ?_
  rw [xlFind_eq, xlFind_eq, oneEntry_congr _ _ _ he]

theorem xl_missing_empty (hn : (schema.map Prod.fst).Nodup) (book : Book) (dat : PyDict String TabVal)
    (h : xlCreate env cf dv policy o schema book = some dat) (tc : String × TabClass) (htc : tc ∈ schema)
    (he : ∀ e ∈ book, sheetMatches env.case tc.1.toList e.1 = false) :
    PyDict.get? dat tc.1 = some (emptyTable tc.2) := by
  have hf : xlFind env cf dv o book tc = some none := by rw [xlFind_eq, oneEntry_none _ _ he]; rfl
  rcases readAll_table env.text cf.params policy schema hn _ dat (xlCreate_some _ _ _ _ _ _ _ _ h) tc htc with
    ⟨_, h2⟩ | ⟨x, tab, h1, _⟩
  · exact h2
  · rw [hf] at h1; cases h1

theorem xl_two_sheets_raise (book : Book) (tc : String × TabClass) (htc : tc ∈ schema)
    (he : 2 ≤ (book.filter (fun e => sheetMatches env.case tc.1.toList e.1)).length) :
    xlCreate env cf dv policy o schema book = none := by
  unfold xlCreate
  split
  · exact readAll_raises env.text cf.params policy schema _ tc htc (by rw [xlFind_eq, oneEntry_several _ _ he]; rfl)
  · rfl

end Excel

section Sql
variable (env : TextEnv) (cenv : CaseEnv) (cf : IOConf) (policy : DupPolicy) (schema : List (String × TabClass))

/-- Does a table of the database have the name of `t`, up to case and with blanks for some of its underscores. -/
def sqlMatches (t name : String) : Bool :=
  (underscoreReplacements t.toList).any (fun n => decide (cenv.lower name.toList = cenv.lower n))

theorem sqlTableName_filter (db : SqlDb) (t : String) :
    sqlTableName cenv db t = sqlTableName cenv (db.filter (fun e => sqlMatches cenv t e.1)) t := by
  unfold sqlTableName
  have : (underscoreReplacements t.toList).filter (fun n => db.any (fun p => decide (cenv.lower p.1.toList = cenv.lower n))) =
      (underscoreReplacements t.toList).filter (fun n => (db.filter (fun e => sqlMatches cenv t e.1)).any
        (fun p => decide (cenv.lower p.1.toList = cenv.lower n))) := by
    apply List.filter_congr
    intro n hn
    rw [List.any_filter]
    congr 1
    funext p
    by_cases h : cenv.lower p.1.toList = cenv.lower n
    · have : sqlMatches cenv t p.1 = true := by
        unfold sqlMatches
        rw [List.any_eq_true]
        exact ⟨n, hn, by simpa using h⟩
      simp [this]
    · simp [h]
  rw [this]

theorem sqlSelect_filter (db : SqlDb) (t : String) (n : List Char) (hn : n ∈ underscoreReplacements t.toList) :
    sqlSelect cenv db (String.ofList n) = sqlSelect cenv (db.filter (fun e => sqlMatches cenv t e.1)) (String.ofList n) := by
  unfold sqlSelect
  rw [List.find?_filter]
  congr 2
  funext p
  rw [String.toList_ofList]
  by_cases h : cenv.lower p.1.toList = cenv.lower n
  · have : sqlMatches cenv t p.1 = true := by
      unfold sqlMatches
      rw [List.any_eq_true]
      exact ⟨n, hn, by simpa using h⟩
    simp [this]
  · simp [h]

theorem sqlTableName_mem (db : SqlDb) (t n : String) (h : sqlTableName cenv db t = some (some n)) :
    ∃ m ∈ underscoreReplacements t.toList, n = String.ofList m := by
  unfold sqlTableName at h
  split at h
  · cases h
  · rename_i m hm
    cases h
    have : m ∈ (underscoreReplacements t.toList).filter (fun n => db.any (fun p => decide (cenv.lower p.1.toList = cenv.lower n))) := by
      rw [hm]; exact List.mem_singleton.mpr rfl
    exact ⟨m, (List.mem_filter.mp this).1, rfl⟩
  · cases h

theorem sqlFind_filter (db : SqlDb) (tc : String × TabClass) :
    sqlFind env cenv cf db tc = sqlFind env cenv cf (db.filter (fun e => sqlMatches cenv tc.1 e.1)) tc := by
  unfold sqlFind
  rw [← sqlTableName_filter]
  cases h : sqlTableName cenv db tc.1 with
  | none => rfl
  | some x =>
    cases x with
    | none => rfl
    | some n =>
      obtain ⟨m, hm, rfl⟩ := sqlTableName_mem cenv db tc.1 n h
      simp only [Option.bind_some]
      rw [sqlSelect_filter cenv db tc.1 m hm]

/-- **C50, SQLite.**  Tables of the database that match no table make no difference. -/
theorem sql_other_tables (db db' : SqlDb)
    (h : ∀ tc ∈ schema, db.filter (fun e => sqlMatches cenv tc.1 e.1) = db'.filter (fun e => sqlMatches cenv tc.1 e.1)) :
    sqlCreate env cenv cf policy schema db = sqlCreate env cenv cf policy schema db' := by
  unfold sqlCreate
  rw [gather_congr _ (sqlFind env cenv cf db')]
  intro tc htc
  rw [sqlFind_filter, sqlFind_filter (db := db'), h tc htc]

theorem sql_table_local (hn : (schema.map Prod.fst).Nodup) (db db' : SqlDb) (dat dat' : PyDict String TabVal)
    (h : sqlCreate env cenv cf policy schema db = some dat) (h' : sqlCreate env cenv cf policy schema db' = some dat')
    (tc : String × TabClass) (htc : tc ∈ schema)
    (he : db.filter (fun e => sqlMatches cenv tc.1 e.1) = db'.filter (fun e => sqlMatches cenv tc.1 e.1)) :
    PyDict.get? dat tc.1 = PyDict.get? dat' tc.1 := by
  refine readAll_local env cf.params policy schema hn _ _ dat dat' h h' tc htc ?_
  rw [sqlFind_filter, sqlFind_filter (db := db'), he]

theorem sql_missing_empty (hn : (schema.map Prod.fst).Nodup) (db : SqlDb) (dat : PyDict String TabVal)
    (h : sqlCreate env cenv cf policy schema db = some dat) (tc : String × TabClass) (htc : tc ∈ schema)
    (he : ∀ e ∈ db, sqlMatches cenv tc.1 e.1 = false) :
    PyDict.get? dat tc.1 = some (emptyTable tc.2) := by
  have hf : sqlFind env cenv cf db tc = some none := by
    rw [sqlFind_filter]
    have : db.filter (fun e => sqlMatches cenv tc.1 e.1) = [] := by
      rw [List.filter_eq_nil_iff]
      intro e hm
      simp [he e hm]
    rw [this]
    unfold sqlFind sqlTableName
    have h0 : (underscoreReplacements tc.1.toList).filter (fun n => ([] : SqlDb).any
        (fun p => decide (cenv.lower p.1.toList = cenv.lower n))) = [] := by
      rw [List.filter_eq_nil_iff]
      simp
    rw [h0]
    rfl
  rcases readAll_table env cf.params policy schema hn _ dat h tc htc with ⟨_, h2⟩ | ⟨x, tab, h1, _⟩
  · exact h2
  · rw [hf] at h1; cases h1

/-- Two tables of the database under different spellings of one name are refused. -/
theorem sql_two_tables_raise (db : SqlDb) (tc : String × TabClass) (htc : tc ∈ schema) (n m : List Char)
    (hn : n ∈ underscoreReplacements tc.1.toList) (hm : m ∈ underscoreReplacements tc.1.toList) (hnm : n ≠ m)
    (h1 : ∃ e ∈ db, cenv.lower e.1.toList = cenv.lower n) (h2 : ∃ e ∈ db, cenv.lower e.1.toList = cenv.lower m) :
    sqlCreate env cenv cf policy schema db = none := by
  refine readAll_raises env cf.params policy schema _ tc htc ?_
  have key : ∀ n ∈ underscoreReplacements tc.1.toList, (∃ e ∈ db, cenv.lower e.1.toList = cenv.lower n) →
      n ∈ (underscoreReplacements tc.1.toList).filter (fun n => db.any (fun p => decide (cenv.lower p.1.toList = cenv.lower n))) := by
    rintro n hn ⟨e, he, hl⟩
    rw [List.mem_filter]
    exact ⟨hn, List.any_eq_true.mpr ⟨e, he, by simpa using hl⟩⟩
  have hn' := key n hn h1
  have hm' := key m hm h2
  unfold sqlFind sqlTableName
  cases hl : (underscoreReplacements tc.1.toList).filter (fun n => db.any (fun p => decide (cenv.lower p.1.toList = cenv.lower n))) with
  | nil => rw [hl] at hn'; cases hn'
  | cons a l =>
    cases l with
    | nil =>
      rw [hl] at hn' hm'
      simp at hn' hm'
      exact absurd (hn'.trans hm'.symm) hnm
    | cons b l => rfl

end Sql

/-! ### Non-vacuity -/

/-- A directory with a file of another name: the tables without file are empty, the other file is ignored. -/
example : csvCreate unaryText asciiEnv plainIO (fun _ _ => none) .assert true [("a", ⟨["x"], [], []⟩), ("b_c", ⟨[], ["y"], []⟩)]
      [("B C.csv".toList, [["Y"], ["v"]]), ("zz.csv".toList, [["?"]])] =
    some [("a", .keyed []), ("b_c", .plain [[("y", .str "v")]])] := by decide +kernel

example : xlCreate demoXl plainIO (fun _ _ => none) .assert (demoOpts .xls true 0) [("a", ⟨["x"], [], []⟩), ("b_c", ⟨[], ["y"], []⟩)]
      [("B C".toList, [[.str "Y"], [.str "v"]]), ("zz".toList, [])] =
    some [("a", .keyed []), ("b_c", .plain [[("y", .str "v")]])] := by decide +kernel

example : jsonCreate unaryText asciiEnv plainIO .assert [("a", ⟨["x"], [], []⟩), ("b_c", ⟨[], ["y"], []⟩)]
      [("B C", [.seq [.str "v"]]), ("zz", [.scalar .nan])] =
    some [("a", .keyed []), ("b_c", .plain [[("y", .str "v")]])] := by decide +kernel

example : sqlCreate unaryText asciiEnv plainIO .assert [("a", ⟨["x"], [], []⟩), ("b_c", ⟨[], ["y"], []⟩)]
      [("B C", [[.str "v"]]), ("zz", [])] =
    some [("a", .keyed []), ("b_c", .plain [[("y", .str "v")]])] := by decide +kernel

end Ticdat

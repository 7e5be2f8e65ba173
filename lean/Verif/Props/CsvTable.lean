import Verif.Props.JsonTable
import Verif.Props.CsvHeader
import Verif.Props.Loops
/-!
# C46: csv directories carry whole data objects
-/
namespace Ticdat
open Spec
set_option linter.unusedSimpArgs false

namespace Spec

/-- How a cell travels through a csv file: `x` is written as text that is read as `y`. -/
def CsvCell (env : TextEnv) (cf : IOConf) (dv : Defaults) (t f : String) (x y : Cell) : Prop :=
  ∃ w, writeCell env cf t f x = some w ∧ csvReadCell env cf dv t f (.str (env.text w)) = some y

/-- The same where the file is written with settings `cfw` and read with settings `cf`. -/
def CsvCell2 (env : TextEnv) (cfw cf : IOConf) (dv : Defaults) (t f : String) (x y : Cell) : Prop :=
  ∃ w, writeCell env cfw t f x = some w ∧ csvReadCell env cf dv t f (.str (env.text w)) = some y

end Spec

theorem mapCells_map (g : String → Cell → Option Cell) (h : Cell → Cell) (fields : List String) (row : List Cell) :
    mapCells (fun f x => (g f x).map h) fields row = (mapCells g fields row).map (List.map h) := by
  unfold mapCells
  induction fields.zip row with
  | nil => rfl
  | cons p l ih =>
    rw [List.mapM_cons, List.mapM_cons, ih]
    cases hg : g p.1 p.2 <;> cases l.mapM (fun p => g p.1 p.2) <;> simp [hg]

theorem getElem?_nodup_inj {A : Type} {l : List A} (hn : l.Nodup) {i j : Nat} {a : A} (hi : l[i]? = some a)
    (hj : l[j]? = some a) : i = j := by
  obtain ⟨h1, h2⟩ := List.getElem?_eq_some_iff.mp hi
  obtain ⟨h3, h4⟩ := List.getElem?_eq_some_iff.mp hj
  exact (List.getElem_inj hn).mp (h2.trans h4.symm)

/-- A line as it is written is read by the header as it is written. -/
theorem csv_row_own_header (cenv : CaseEnv) (fields : List (List Char)) (hn : (fields.map cenv.lower).Nodup)
    (vals : List Cell) (hl : vals.length = fields.length) :
    csvRowByHeader cenv fields fields vals = some (fields.zip vals) := by
  have hn' := nodup_of_map _ hn
  rw [csv_cells_by_header_partial cenv fields fields vals hn' (by omega)]
  refine ⟨List.map_fst_zip (by omega), ?_⟩
  rintro ⟨f, v⟩ hp
  obtain ⟨i, hi⟩ := List.mem_iff_getElem?.mp hp
  rw [List.getElem?_zip_eq_some] at hi
  refine ⟨i, f, hi.1, by simp [hi.2], rfl, ?_⟩
  intro h' hh' he
  exact lower_inj_of_nodup hn hh' (List.mem_of_getElem? hi.1) he

theorem csv_row_no_header (fields : List (List Char)) (hn : fields.Nodup)
    (vals : List Cell) (hl : vals.length = fields.length) :
    csvRowNoHeader fields vals = some (fields.zip vals) := by
  obtain ⟨_, hlong, hget⟩ := dictReaderRow_eq fields vals hn (by omega)
  unfold csvRowNoHeader
  simp only [hlong, Bool.false_eq_true, if_false]
  rw [mapM_some_iff]
  apply List.ext_getElem?
  intro i
  rw [List.getElem?_map, List.getElem?_map]
  cases hf : fields[i]? with
  | none =>
    have : (fields.zip vals)[i]? = none := by
      rw [List.getElem?_eq_none_iff] at hf ⊢
      simp; omega
    rw [this]; rfl
  | some f =>
    have hlt : i < vals.length := by
      have := (List.getElem?_eq_some_iff.mp hf).1
      omega
    have hz : (fields.zip vals)[i]? = some (f, vals[i]) := by
      rw [List.getElem?_zip_eq_some]
      exact ⟨hf, List.getElem?_eq_getElem hlt⟩
    rw [hz, Option.map_some, Option.map_some, (hget f vals[i]).mpr ⟨i, hf, by simp [List.getElem?_eq_getElem hlt]⟩]
    rfl

/-- One line. -/
theorem csv_line (env : TextEnv) (cfw cf : IOConf) (dv : Defaults) (t : String) (fields : List String) (r r' : List Cell)
    (h : RowRel fields (CsvCell2 env cfw cf dv t) r r') :
    ∃ line : List String, (mapCells (writeCell env cfw t) fields r).map (fun vs => vs.map env.text) = some line ∧
      line.length = fields.length ∧ mapCells (csvReadCell env cf dv t) fields (line.map Cell.str) = some r' := by
  obtain ⟨ws, h1, _, h3⟩ := mapCells_round (fun f x => (writeCell env cfw t f x).map (fun w => Cell.str (env.text w)))
    (csvReadCell env cf dv t) (fun _ => True) fields r r' (by
      refine ⟨h.1, h.2.1, fun i f x y a b c => ?_⟩
      obtain ⟨w, h4, h5⟩ := h.2.2 i f x y a b c
      exact ⟨_, by rw [h4]; rfl, trivial, h5⟩)
  rw [mapCells_map] at h1
  cases hm : mapCells (writeCell env cfw t) fields r with
  | none => rw [hm] at h1; cases h1
  | some vs =>
    rw [hm] at h1
    simp only [Option.map_some, Option.some.injEq] at h1
    refine ⟨vs.map env.text, rfl, by simp [mapCells_length _ _ _ _ h.1 hm], ?_⟩
    rw [List.map_map, ← h3, ← h1]
    rfl

theorem readerTable_size (c : TabClass) (hn : c.fields.Nodup) (tab : TabVal) (h : WellShaped c tab) :
    (readerTable c (tabRows tab)).size = tab.size := by
  cases tab with
  | plain rows => simp [readerTable, h.1, TableIn.size, tabRows, TabVal.size]
  | keyed d =>
    unfold readerTable
    rw [if_pos h.1]
    simp only [TableIn.size, tabRows, List.map_map, TabVal.size]
    rw [PyDict.ofList_of_nodup]
    · simp
    · have : PyDict.keys (d.map ((fun r => (splitKey c.pks.length (.seq r), RowIn.seq (r.drop c.pks.length))) ∘
          fun p => keyCells p.1 ++ p.2.map Prod.snd)) = PyDict.keys d := by
        unfold PyDict.keys
        rw [List.map_map]
        apply List.map_congr_left
        intro p hp
        exact splitKey_flat _ _ _ (h.2.2 p hp).1
      rw [this]
      exact h.2.1

/-- **C46, one table**, written with settings `cfw` and read with settings `cf`.  A table whose cells are written and read as the cells of `tab'` is read as `tab'`: same number and
order of rows, same keys and fields, with and without headers. -/
theorem csv_table2 (env : TextEnv) (cenv : CaseEnv) (cfw cf : IOConf) (dv : Defaults) (t : String) (c : TabClass)
    (headers : Bool) (hne : c.fields ≠ []) (hn : ((c.fields.map String.toList).map cenv.lower).Nodup)
    (tab tab' : TabVal) (h : WellShaped c tab) (h' : WellShaped c tab') (hr : TabRel c (CsvCell2 env cfw cf dv t) tab tab') :
    ∃ lines x, csvTable env cfw t c headers tab = some lines ∧
      csvReadTable env cenv cf dv t c headers lines = some x ∧ initTable c x = some tab' ∧ x.size = tab'.size := by
  have hnl := nodup_of_map _ hn
  have hfn : c.fields.Nodup := nodup_of_map _ hnl
  have hdn : c.dfs.Nodup := (List.nodup_append.mp hfn).2.1
  obtain ⟨lines, hlines⟩ := pairwise2_exists
    (g := fun row => (mapCells (writeCell env cfw t) c.fields row).map (fun vs => vs.map env.text)) hr (fun r r' hrr => by
      obtain ⟨l, h1, _⟩ := csv_line env cfw cf dv t c.fields r r' hrr
      exact ⟨l, h1⟩)
  have hpair : Pairwise2 (fun r' line => line.length = c.fields.length ∧
      mapCells (csvReadCell env cf dv t) c.fields (line.map Cell.str) = some r') (tabRows tab') lines := by
    rw [mapM_eq_some_iff] at hlines
    unfold TabRel at hr
    revert hlines
    generalize tabRows tab = l at hr
    generalize tabRows tab' = l' at hr
    intro hlines
    induction hr generalizing lines with
    | nil => cases lines with
      | nil => exact .nil
      | cons a b => simp at hlines
    | cons hrr _ ih => cases lines with
      | nil => simp at hlines
      | cons a b =>
        simp only [List.map_cons, List.cons.injEq] at hlines
        obtain ⟨l, h1, h2, h3⟩ := csv_line env cfw cf dv t c.fields _ _ hrr
        rw [h1] at hlines
        have hla : l = a := Option.some.inj hlines.1
        exact .cons (hla ▸ ⟨h2, h3⟩) (ih b hlines.2)
  have hlen : ∀ l ∈ lines, l.length = c.fields.length := by
    intro l hl
    obtain ⟨_, _, hh⟩ := pairwise2_mem hpair l hl
    exact hh.1
  have hzip : ∀ l : List String, l.length = c.fields.length →
      ((c.fields.map String.toList).zip (l.map Cell.str)).map Prod.snd = l.map Cell.str := by
    intro l hl
    exact List.map_snd_zip (by simp [hl])
  refine ⟨if headers then c.fields :: lines else lines, readerTable c (tabRows tab'), ?_, ?_, init_of_reader c hfn tab' h',
    readerTable_size c hfn tab' h'⟩
  · unfold csvTable
    rw [flatRows_eq c hdn tab h, Option.bind_some, hlines]
    rfl
  · have hrows : csvParse cenv (c.fields.map String.toList) headers (if headers then c.fields :: lines else lines) =
        some (lines.map (fun l => (c.fields.map String.toList).zip (l.map Cell.str))) := by
      unfold csvParse
      cases headers with
      | true =>
        simp only [if_true]
        unfold csvRows
        rw [List.mapM_map]
        apply mapM_eq_map
        intro l hl
        exact csv_row_own_header cenv _ hn _ (by simp [hlen l hl])
      | false =>
        simp only [Bool.false_eq_true, if_false]
        rw [List.mapM_map]
        apply mapM_eq_map
        intro l hl
        exact csv_row_no_header _ hnl _ (by simp [hlen l hl])
    unfold csvReadTable
    rw [if_neg hne, hrows, Option.bind_some, List.mapM_map]
    have : lines.mapM (fun l => mapCells (csvReadCell env cf dv t) c.fields
        (((c.fields.map String.toList).zip (l.map Cell.str)).map Prod.snd)) = some (tabRows tab') := by
      have h2 := pairwise2_mapM (k := id) (g := fun l : List String => mapCells (csvReadCell env cf dv t) c.fields
        (((c.fields.map String.toList).zip (l.map Cell.str)).map Prod.snd)) (fun a b hab => by
          rw [hzip b hab.1]; exact hab.2) hpair
      simpa using h2
    exact congrArg (Option.map (readerTable c)) this

/-- **C46, one table.**  A table whose cells are written and read as the cells of `tab'` is read as `tab'`: same number and
order of rows, same keys and fields, with and without headers. -/
theorem csv_table (env : TextEnv) (cenv : CaseEnv) (cf : IOConf) (dv : Defaults) (t : String) (c : TabClass)
    (headers : Bool) (hne : c.fields ≠ []) (hn : ((c.fields.map String.toList).map cenv.lower).Nodup)
    (tab tab' : TabVal) (h : WellShaped c tab) (h' : WellShaped c tab') (hr : TabRel c (CsvCell env cf dv t) tab tab') :
    ∃ lines x, csvTable env cf t c headers tab = some lines ∧
      csvReadTable env cenv cf dv t c headers lines = some x ∧ initTable c x = some tab' ∧ x.size = tab'.size :=
  csv_table2 env cenv cf cf dv t c headers hne hn tab tab' h h' hr

/-! ### Directories -/

/-- **C46, directories.**  If the cells of `dat` travel through csv files as the cells of `dat'`, then writing `dat` into a
directory and reading the directory gives `dat'` (with the parameters adjusted), whatever other files the directory had
as long as none of them is taken for a table, and whatever the order in which the files are listed.  Other files stay as
they are. -/
theorem csv_read_back (env : TextEnv) (cenv : CaseEnv) (laws : CaseLaws cenv) (cf : IOConf) (dv : Defaults)
    (policy : DupPolicy) (allowOverwrite headers caseSpace : Bool) (schema : List (String × TabClass))
    (hg : goodTableNames cenv (schema.map (fun tc => tc.1.toList)) = true)
    (hrt : ∀ tc ∈ schema, CaseRoundTrip cenv tc.1.toList)
    (hf : ∀ tc ∈ schema, tc.2.fields ≠ [] ∧ ((tc.2.fields.map String.toList).map cenv.lower).Nodup)
    (dat dat' : PyDict String TabVal) (hk' : PyDict.keys dat' = schema.map Prod.fst)
    (ht : ∀ tc ∈ schema, ∃ tab tab', PyDict.get? dat tc.1 = some tab ∧ PyDict.get? dat' tc.1 = some tab' ∧
      WellShaped tc.2 tab ∧ WellShaped tc.2 tab' ∧ TabRel tc.2 (CsvCell env cf dv tc.1) tab tab')
    (dir : PyDict (List Char) CsvFile) (hd : (PyDict.keys dir).Nodup)
    (hover : allowOverwrite = true ∨ ∀ tc ∈ schema, tc.1.toList ++ ".csv".toList ∉ PyDict.keys dir)
    (hother : ∀ k ∈ PyDict.keys dir, ∀ tc ∈ schema, csvMatches cenv tc.1.toList k = true →
      k = csvFileName cenv schema caseSpace tc.1) :
    ∃ dir', csvWrite env cenv cf allowOverwrite headers caseSpace schema dat dir = some dir' ∧
      (∀ k, (∀ tc ∈ schema, k ≠ csvFileName cenv schema caseSpace tc.1) → PyDict.get? dir' k = PyDict.get? dir k) ∧
      ∀ dir'', List.Perm dir'' dir' →
        csvCreate env cenv cf dv policy headers schema dir'' = some (postRead env cf.params dat') := by
  have hg' : goodTableNames cenv ((schema.map Prod.fst).map String.toList) = true := by
    rw [List.map_map]; exact hg
  have hlow := ((goodTableNames_iff cenv _).mp hg').2.2
  have hnames : (schema.map Prod.fst).Nodup := nodup_of_map _ (nodup_of_map _ hlow)
  have hmatch : ∀ tc ∈ schema, ∀ tc' ∈ schema,
      (csvMatches cenv tc'.1.toList (csvFileName cenv schema caseSpace tc.1) = true ↔ tc'.1.toList = tc.1.toList) := by
    intro tc htc tc' htc'
    exact csvMatches_out laws hg caseSpace (List.mem_map.mpr ⟨tc, htc, rfl⟩) (hrt tc htc)
      (List.mem_map.mpr ⟨tc', htc', rfl⟩)
  have hfnames : (schema.map (fun tc => csvFileName cenv schema caseSpace tc.1)).Nodup := by
    have hinj : ∀ a ∈ schema.map Prod.fst, ∀ b ∈ schema.map Prod.fst,
        csvFileName cenv schema caseSpace a = csvFileName cenv schema caseSpace b → a = b := by
      intro a ha b hb e
      obtain ⟨ta, hta, rfl⟩ := List.mem_map.mp ha
      obtain ⟨tb, htb, rfl⟩ := List.mem_map.mp hb
      have h1 := (hmatch ta hta ta hta).mpr rfl
      rw [e] at h1
      have h2 := (hmatch tb htb ta hta).mp h1
      exact String.toList_injective h2
    have : (schema.map Prod.fst).map (csvFileName cenv schema caseSpace) =
        schema.map (fun tc => csvFileName cenv schema caseSpace tc.1) := by
      rw [List.map_map]; rfl
    rw [← this]
    unfold List.Nodup
    rw [List.pairwise_map]
    refine List.Pairwise.imp_of_mem ?_ hnames
    intro a b ha hb hne e
    exact hne (hinj a ha b hb e)
  have hstep : ∀ tc ∈ schema, ∃ lines, (PyDict.get? dat tc.1).bind (csvTable env cf tc.1 tc.2 headers) = some lines ∧
      ∃ x tab', csvReadTable env cenv cf dv tc.1 tc.2 headers lines = some x ∧
        PyDict.get? dat' tc.1 = some tab' ∧ WellShaped tc.2 tab' ∧ initTable tc.2 x = some tab' ∧ x.size = tab'.size := by
    intro tc htc
    obtain ⟨tab, tab', h1, h2, h3, h4, h5⟩ := ht tc htc
    obtain ⟨lines, x, h6, h7, h8, h9⟩ := csv_table env cenv cf dv tc.1 tc.2 headers (hf tc htc).1 (hf tc htc).2 tab tab'
      h3 h4 h5
    exact ⟨lines, by rw [h1, Option.bind_some, h6], x, tab', h7, h2, h4, h8, h9⟩
  obtain ⟨dir', h1, h2, h3, h4⟩ := write_all (fun tc => csvFileName cenv schema caseSpace tc.1)
    (fun tc => (PyDict.get? dat tc.1).bind (csvTable env cf tc.1 tc.2 headers)) _ schema hfnames hstep dir hd
  refine ⟨dir', ?_, h4, ?_⟩
  · unfold csvWrite csvWriteFiles
    rw [if_neg, Option.bind_some, h1]
    rcases hover with h | h
    · simp [h]
    · simp only [Bool.and_eq_true, not_and, List.any_eq_true]
      rintro _ ⟨t, htm, hc⟩
      obtain ⟨tc, htc, rfl⟩ := List.mem_map.mp htm
      exact h tc htc (by simpa using hc)
  · intro dir'' hp
    have hkp : List.Perm (PyDict.keys dir'') (PyDict.keys dir') := hp.map Prod.fst
    have hk2 : (PyDict.keys dir'').Nodup := hkp.nodup_iff.mpr h2
    have hget : ∀ k, PyDict.get? dir'' k = PyDict.get? dir' k := by
      intro k
      apply option_ext_some
      intro v
      rw [PyDict.get?_iff_mem hk2, PyDict.get?_iff_mem h2]
      exact hp.mem_iff
    obtain ⟨input, h5, h6, h7, h8⟩ := gather_tables (csvFind env cenv cf dv headers dir'') dat' schema hnames (by
      intro tc htc
      obtain ⟨lines, h9, _, x, tab', h10, h11, h12, h13, h14⟩ := h3 tc htc
      suffices hpath : csvFilePath cenv (PyDict.keys dir'') tc.1.toList =
          some (some (csvFileName cenv schema caseSpace tc.1)) by
        refine ⟨if x.size = 0 then none else some x, tab', ?_, h11, ?_⟩
        · unfold csvFind
          rw [hpath]
          simp only [Option.bind_some, hget, h9, h10, Option.map_some]
        · by_cases hz : x.size = 0
          · exact .inl ⟨if_pos hz, emptyTable_of_size tc.2 tab' h12 (h14 ▸ hz)⟩
          · exact .inr ⟨x, if_neg hz, h13, h14⟩
      unfold csvFilePath
      have : (PyDict.keys dir'').filter (csvMatches cenv tc.1.toList) = [csvFileName cenv schema caseSpace tc.1] := by
        rw [filter_eq_singleton _ hk2]
        refine ⟨hkp.mem_iff.mpr ?_, (hmatch tc htc tc htc).mpr rfl, ?_⟩
        · refine Classical.byContradiction (fun hno => ?_)
          rw [(PyDict.get?_eq_none _ _).mpr hno] at h9
          cases h9
        · intro k hk hm
          by_cases hkn : ∀ tc' ∈ schema, k ≠ csvFileName cenv schema caseSpace tc'.1
          · have hkd : k ∈ PyDict.keys dir := by
              refine Classical.byContradiction (fun hno => ?_)
              have h11 := h4 k hkn
              rw [(PyDict.get?_eq_none _ _).mpr hno] at h11
              exact (PyDict.get?_eq_none _ _).mp h11 (hkp.mem_iff.mp hk)
            exact hother k hkd tc htc hm
          · obtain ⟨tc', htc', e⟩ : ∃ tc' ∈ schema, k = csvFileName cenv schema caseSpace tc'.1 := by
              refine Classical.byContradiction (fun hno => hkn (fun tc' h e => hno ⟨tc', h, e⟩))
            rw [e] at hm ⊢
            have := String.toList_injective ((hmatch tc' htc' tc htc).mp hm)
            rw [this]
      rw [this])
    unfold csvCreate
    rw [h5, Option.bind_some, initDat_of policy schema hnames input dat' h7 h6 hk' h8]
    rfl

/-! ### Cells -/

theorem writeCell_cases {env : TextEnv} {cf : IOConf} {t f : String} (ht : ¬ IsParams cf.params t) (x w : Cell)
    (h : writeCell env cf t f x = some w) : w = x ∨ (∃ y z, w = .num y ∧ x = .num z) ∨
      (w = .none ∧ ∃ pos, x = .num (infOf pos) ∧ cf.flag = .none ∧ infBias env cf t f = some (some pos)) := by
  unfold writeCell at h
  rw [if_neg (fun hh => ht ⟨hh.2, hh.1⟩)] at h
  cases hf : cf.flag with
  | na => rw [hf] at h; simp at h; exact .inl h.symm
  | num q =>
    rw [hf] at h
    cases x with
    | num y => simp at h; exact .inr (.inl ⟨_, y, h.symm, rfl⟩)
    | _ => simp at h; exact .inl h.symm
  | none =>
    rw [hf] at h
    cases hb : infBias env cf t f with
    | none => rw [hb] at h; simp at h
    | some b =>
      rw [hb] at h
      simp only [Option.map_some, Option.some.injEq] at h
      cases b with
      | none => exact .inl h.symm
      | some pos =>
        simp only at h
        split at h
        · rename_i hx
          exact .inr (.inr ⟨h.symm, pos, hx, rfl, rfl⟩)
        · exact .inl h.symm

/-- What a csv reader makes of a text before flags and types apply. -/
theorem csvReadCell_eq (env : TextEnv) (cf : IOConf) (dv : Defaults) (t f s : String) (ht : ¬ IsParams cf.params t)
    (w : Cell)
    (h : (s = "" ∧ w = .none ∧ (CsvNullField cf dv t f ∨ ∃ y, readCell env cf t f .none = some y ∧ y.numericish = true)) ∨
      (s ≠ "" ∧ CsvNumField cf dv t f ∧ (env.float s).map floatCell = some w) ∨
      (w = .str s ∧ (CsvNumField cf dv t f → env.float s = none) ∧
        (s = "" → ¬ CsvNullField cf dv t f ∧ ∃ y, readCell env cf t f .none = some y ∧ y.numericish = false))) :
    csvReadCell env cf dv t f (.str s) = readCell env cf t f w := by
  unfold csvReadCell
  have hp : ¬ (t = "parameters" ∧ cf.params ≠ []) := fun hh => ht ⟨hh.2, hh.1⟩
  simp only [if_neg hp, at_eq_typeOf]
  have hnull : (((typeOf cf.types t f).map (·.nullable)).getD (decide (dv t f = some .none)) = true) ↔
      CsvNullField cf dv t f := by
    unfold CsvNullField
    cases typeOf cf.types t f <;> simp
  have hnum : (((typeOf cf.types t f).map (·.numberAllowed)).getD (((dv t f).map Cell.numericish).getD false) = true) ↔
      CsvNumField cf dv t f := by
    unfold CsvNumField
    cases typeOf cf.types t f with
    | none => cases dv t f <;> simp
    | some td => simp
  rcases h with ⟨rfl, rfl, h⟩ | ⟨hs, hn, h⟩ | ⟨rfl, hn, hs⟩
  · simp only [if_true]
    by_cases hc : CsvNullField cf dv t f
    · rw [if_pos (hnull.mpr hc)]
      rfl
    · rw [if_neg (fun hh => hc (hnull.mp hh))]
      rcases h with h | ⟨y, h1, h2⟩
      · exact absurd h hc
      · rw [h1]
        simp [h2, h1]
  · have hs' : ¬ Cell.str s = Cell.str "" := by simpa using hs
    rw [if_neg hs']
    simp only [Option.map_some, Bool.false_eq_true, if_false, if_pos (hnum.mpr hn), h, Option.getD_some, Option.bind_some]
  · have hfin : ∀ b : Bool, b = false → ((some b).map (fun isNone =>
        if isNone = true then Cell.none
        else if ((typeOf cf.types t f).map (·.numberAllowed)).getD (((dv t f).map Cell.numericish).getD false) = true then
          ((env.float s).map floatCell).getD (.str s) else .str s)).bind (readCell env cf t f) =
            readCell env cf t f (.str s) := by
      rintro b rfl
      simp only [Option.map_some, Bool.false_eq_true, if_false, Option.bind_some]
      by_cases hc : CsvNumField cf dv t f
      · rw [if_pos (hnum.mpr hc), hn hc]
        rfl
      · rw [if_neg (fun hh => hc (hnum.mp hh))]
    by_cases he : s = ""
    · obtain ⟨h1, y, h2, h3⟩ := hs he
      have he' : Cell.str s = Cell.str "" := by rw [he]
      rw [if_pos he', if_neg (fun hh => h1 (hnull.mp hh)), h2, Option.map_some]
      exact hfin _ h3
    · have he' : ¬ Cell.str s = Cell.str "" := by simpa using he
      rw [if_neg he']
      exact hfin false rfl

theorem readCell_none_plain (env : TextEnv) (cf : IOConf) (t f : String) (h : t = "parameters" ∨ cf.flag ≠ .none) :
    readCell env cf t f .none = some .none := by
  unfold readCell
  rcases h with h | h
  · simp [h]
  · split
    · rfl
    · cases hf : cf.flag with
      | none => exact absurd hf h
      | _ => simp [Cell.isNull, toFloat]

/-- **C46, cells.** -/
theorem csv_cell_survives {env : TextEnv} (hT : CsvTextOK env) (cf : IOConf) (dv : Defaults) (t f : String) (x : Cell)
    (hnp : ¬ IsParams cf.params t) (h : CsvSafe env cf dv t f x) : CsvCell env cf dv t f x x := by
  obtain ⟨hj, h⟩ := h
  obtain ⟨w, h1, _, h3⟩ := json_cell_survives hT.dt cf t f x hnp hj
  have hne : ∀ y, env.text (.num y) ≠ "" := by
    intro y e
    have := hT.num y
    rw [e, hT.empty] at this
    cases this
  cases x with
  | bool b => exact absurd h id
  | other o => exact absurd h id
  | dt d =>
    have hw : w = .str (env.text (.dt d)) := (Option.some.inj h1).symm
    have hwr : ∃ v, writeCell env cf t f (.dt d) = some v := by
      unfold writeCell
      split
      · exact ⟨_, rfl⟩
      · cases hf : cf.flag with
        | na => exact ⟨_, rfl⟩
        | num q => exact ⟨_, rfl⟩
        | none =>
          obtain ⟨_, hj⟩ := hj
          split at hj
          · rw [hf] at hj; cases hj.2
          · have hfs := hj.2
            unfold FlagSafe at hfs
            rw [hf] at hfs
            have hamb := hfs.1
            rw [← infBias_none_iff hf] at hamb
            cases hb : infBias env cf t f with
            | none => exact absurd hb hamb
            | some b => exact ⟨_, rfl⟩
    obtain ⟨v, hv⟩ := hwr
    have hve : v = .dt d := by
      rcases writeCell_cases hnp _ _ hv with h | ⟨_, _, _, h⟩ | ⟨_, _, h, _⟩
      · exact h
      · cases h
      · cases h
    refine ⟨v, hv, ?_⟩
    rw [hve, csvReadCell_eq env cf dv t f _ hnp (.str (env.text (.dt d))) (.inr (.inr ⟨rfl, h, fun e =>
      absurd e (hT.dtText d)⟩)), ← hw, h3]
  | num y =>
    refine ⟨w, h1, ?_⟩
    rw [csvReadCell_eq env cf dv t f _ hnp w, h3]
    have hnum : ∀ z, w = .num z → env.text w ≠ "" ∧ CsvNumField cf dv t f ∧
        (env.float (env.text w)).map floatCell = some w := by
      rintro z rfl
      exact ⟨hne z, h, by rw [hT.num]; rfl⟩
    rcases writeCell_cases hnp _ _ h1 with hw | ⟨z, _, hw, _⟩ | ⟨hw, pos, hx, _⟩
    · exact .inr (.inl (hnum y hw))
    · exact .inr (.inl (hnum z hw))
    · subst hw
      exact .inl ⟨hT.null, rfl, .inr ⟨_, h3, rfl⟩⟩
  | nan =>
    have hw : w = .nan := by
      rcases writeCell_cases hnp _ _ h1 with h | ⟨_, _, _, h⟩ | ⟨_, _, h, _⟩
      · exact h
      · cases h
      · cases h
    refine ⟨w, h1, ?_⟩
    subst hw
    rw [csvReadCell_eq env cf dv t f _ hnp .nan, h3]
    refine .inr (.inl ⟨?_, h, by rw [hT.nan]; rfl⟩)
    intro e
    have := hT.nan
    rw [e, hT.empty] at this
    cases this
  | none =>
    have hw : w = .none := by
      rcases writeCell_cases hnp _ _ h1 with h | ⟨_, _, _, h⟩ | ⟨_, _, h, _⟩
      · exact h
      · cases h
      · cases h
    refine ⟨w, h1, ?_⟩
    subst hw
    rw [csvReadCell_eq env cf dv t f _ hnp .none, h3]
    exact .inl ⟨hT.null, rfl, .inl h⟩
  | str s =>
    have hw : w = .str s := by
      rcases writeCell_cases hnp _ _ h1 with h | ⟨_, _, _, h⟩ | ⟨_, _, h, _⟩
      · exact h
      · cases h
      · cases h
    refine ⟨w, h1, ?_⟩
    subst hw
    rw [hT.str, csvReadCell_eq env cf dv t f _ hnp (.str s), h3]
    refine .inr (.inr ⟨rfl, h.1, fun e => ⟨(h.2 e).1, .none, ?_, rfl⟩⟩)
    exact readCell_none_plain env cf t f (.inr (h.2 e).2)

/-- The value of a parameter as it is in a text file. -/
def textParam (env : TextEnv) (v : Cell) : Cell := .str (env.text (if v.isNull then .none else v))

theorem text_param_survives {env : TextEnv} (hT : TextOK env) (params : Params) (k v : Cell)
    (h : TextParam env params k v) : fixParam env params k (textParam env v) = v := by
  obtain ⟨_, h⟩ := h
  cases v with
  | num x => exact param_number_survives hT params k x h
  | nan => exact absurd h id
  | bool b => exact absurd h id
  | other o => exact absurd h id
  | dt d =>
    obtain ⟨td, h1, h2⟩ := h
    exact param_date_survives hT params k d td h1 h2
  | none =>
    obtain ⟨td, h1, h2, h3⟩ := h
    exact param_null_survives hT params k .none td h1 (.inl rfl) h2 h3
  | str s =>
    simp only at h
    cases htd : paramType params k with
    | none =>
      rw [htd] at h
      simp only at h
      simp [textParam, Cell.isNull, fixParam, paramType_eq, htd, hT.str, toFloat, h]
    | some td =>
      rw [htd] at h
      exact param_text_survives hT params k s td htd h.1 h.2.1 h.2.2

/-- **C46.**  Writing a data object into a directory of csv files and reading it back gives the same object: the same
tables with the same keys and rows in the same order, with or without headers, with or without pretty file names,
provided that the cells are of the kinds csv files can hold, as spelled out in `CsvSafe` and `TextParam`. -/
theorem csv_round_trip (env : TextEnv) (hT : CsvTextOK env) (cenv : CaseEnv) (laws : CaseLaws cenv) (cf : IOConf)
    (dv : Defaults) (policy : DupPolicy) (allowOverwrite headers caseSpace : Bool) (schema : List (String × TabClass))
    (hg : goodTableNames cenv (schema.map (fun tc => tc.1.toList)) = true)
    (hrt : ∀ tc ∈ schema, CaseRoundTrip cenv tc.1.toList)
    (hf : ∀ tc ∈ schema, tc.2.fields ≠ [] ∧ ((tc.2.fields.map String.toList).map cenv.lower).Nodup)
    (dat : PyDict String TabVal) (hk : PyDict.keys dat = schema.map Prod.fst)
    (hw : ∀ tc ∈ schema, ∀ tab, PyDict.get? dat tc.1 = some tab → WellShaped tc.2 tab)
    (hc : ∀ tc ∈ schema, ∀ tab, PyDict.get? dat tc.1 = some tab → ¬ IsParams cf.params tc.1 → ∀ f x,
      HasCell tc.2 tab f x → CsvSafe env cf dv tc.1 f x)
    (hp : ∀ tab, PyDict.get? dat "parameters" = some tab → cf.params ≠ [] →
      ParamEntries (TextParam env cf.params) tab)
    (dir : PyDict (List Char) CsvFile) (hd : (PyDict.keys dir).Nodup)
    (hover : allowOverwrite = true ∨ ∀ tc ∈ schema, tc.1.toList ++ ".csv".toList ∉ PyDict.keys dir)
    (hother : ∀ k ∈ PyDict.keys dir, ∀ tc ∈ schema, csvMatches cenv tc.1.toList k = true →
      k = csvFileName cenv schema caseSpace tc.1) :
    ∃ dir', csvWrite env cenv cf allowOverwrite headers caseSpace schema dat dir = some dir' ∧
      (∀ k, (∀ tc ∈ schema, k ≠ csvFileName cenv schema caseSpace tc.1) → PyDict.get? dir' k = PyDict.get? dir k) ∧
      ∀ dir'', List.Perm dir'' dir' → csvCreate env cenv cf dv policy headers schema dir'' = some dat := by
  have hnames : (schema.map Prod.fst).Nodup := by
    have hg' : goodTableNames cenv ((schema.map Prod.fst).map String.toList) = true := by
      rw [List.map_map]; exact hg
    exact nodup_of_map _ (nodup_of_map _ ((goodTableNames_iff cenv _).mp hg').2.2)
  obtain ⟨dat', hk', hpost, hrel⟩ := params_view env cf.params (textParam env) schema hnames
    (fun tc htc => nodup_of_map _ (nodup_of_map _ (hf tc htc).2)) dat hk hw
    (fun t f x y => CsvCell env cf dv t f x y)
    (fun tc htc tab hget hnp f x hx => csv_cell_survives hT cf dv tc.1 f x hnp (hc tc htc tab hget hnp f x hx))
    (TextParam env cf.params) hp
    (by
      intro hpar f f' k v hkv
      refine ⟨?_, ?_, text_param_survives hT.toTextOK cf.params k v hkv⟩
      · obtain ⟨⟨s, rfl⟩, _⟩ := hkv
        refine ⟨.str s, by simp [writeCell, hpar, Cell.isNull], ?_⟩
        simp [csvReadCell, hpar, readCell, hT.str]
      · refine ⟨if v.isNull then .none else v, by simp [writeCell, hpar], ?_⟩
        simp [csvReadCell, hpar, readCell, textParam])
  obtain ⟨dir', h1, h2, h3⟩ := csv_read_back env cenv laws cf dv policy allowOverwrite headers caseSpace schema hg hrt hf
    dat dat' hk' hrel dir hd hover hother
  exact ⟨dir', h1, h2, fun dir'' hp => by rw [h3 dir'' hp, hpost]⟩

/-! ### Findings -/

/-- A number in a primary key field without a type comes back as text. -/
theorem csv_number_key_becomes_text (env : TextEnv) (hT : CsvTextOK env) (dv : Defaults) (t f : String) (x : XNum)
    (hd : dv t f = none) : CsvCell env ⟨[], .na, false, []⟩ dv t f (.num x) (.str (env.text (.num x))) := by
  refine ⟨.num x, by simp [writeCell], ?_⟩
  have hr : ∀ y, readCell env ⟨[], .na, false, []⟩ t f y = some y := by
    intro y
    simp [readCell, DataTypes.at, PyDict.get?]
  rw [csvReadCell_eq env _ dv t f _ (fun h => h.1 rfl) (.str (env.text (.num x))), hr]
  refine .inr (.inr ⟨rfl, ?_, ?_⟩)
  · intro h
    unfold CsvNumField typeOf at h
    simp [PyDict.get?, hd] at h
  · intro e
    have := hT.num x
    rw [e, hT.empty] at this
    cases this

/-- Under the flag `None`, in a field for text and non-negative numbers that is not nullable, the empty text comes back as
infinity. -/
theorem csv_empty_text_becomes_infinity :
    let td : TypeDict := ⟨true, true, true, .fin 0, .pinf, false, .any, false, false⟩
    let cf : IOConf := ⟨[("t", [("f", td)])], .none, false, []⟩
    Valid demoText.parses td (.str "") ∧
      writeCell demoText cf "t" "f" (.str "") = some (.str "") ∧
      csvReadCell demoText cf (fun _ _ => some (.num (.fin 0))) "t" "f" (.str "") = some (.num .pinf) := by
  refine ⟨(valid_data_iff _ _ _).mp (by decide +kernel), by decide +kernel, by decide +kernel⟩

/-- A csv file with two lines for one key: the last one is kept, without complaint even if duplicates are to be asserted
against (the reader builds a dictionary itself). -/
theorem csv_duplicates_unnoticed :
    csvCreate demoText asciiEnv ⟨[], .na, false, []⟩ (fun _ f => if f = "b" then some (.num (.fin 0)) else none) .assert
      true [("t", ⟨["a"], ["b"], []⟩)] [("t.csv".toList, [["a", "b"], ["x", "5"], ["x", "12"]])] =
      some [("t", .keyed [(.one (.str "x"), [("b", .num (.fin 12))])])] := by decide +kernel

/-- A table with two fields that differ only in case is written, and cannot be read back. -/
theorem csv_case_fields_unreadable :
    (csvTable demoText ⟨[], .na, false, []⟩ "t" ⟨[], ["a", "A"], []⟩ true (.plain [[("a", .str "x"), ("A", .str "y")]])).map
      (csvReadTable demoText asciiEnv ⟨[], .na, false, []⟩ (fun _ _ => some .none) "t" ⟨[], ["a", "A"], []⟩ true) =
      some none := by rfl

/-! ### Non-vacuity -/

theorem unaryText_csv_ok : CsvTextOK unaryText where
  toTextOK := unaryText_ok
  nan := by decide +kernel
  dtText := by
    intro d h
    have := congrArg String.length h
    simp [unaryText] at this

/-- The object used in the example below. -/
def csvExampleDat : PyDict String TabVal :=
  [("food_list", .keyed [(.one (.str "milk"), [("cost", .num (.fin 2)), ("kind", .none)]),
      (.one (.str "egg"), [("cost", .num .pinf), ("kind", .str "a")])])]

def csvExampleDefaults : Defaults := fun _ f =>
  if f = "cost" then some (.num (.fin 0)) else if f = "kind" then some .none else none

example : ∃ dir', csvWrite unaryText asciiEnv ⟨[], .num 1000, false, []⟩ false true true
      [("food_list", ⟨["name"], ["cost", "kind"], []⟩)] csvExampleDat [("note.txt".toList, [])] = some dir' ∧
      ∀ dir'', List.Perm dir'' dir' → csvCreate unaryText asciiEnv ⟨[], .num 1000, false, []⟩ csvExampleDefaults .assert true
        [("food_list", ⟨["name"], ["cost", "kind"], []⟩)] dir'' = some csvExampleDat := by
  have hcell : ∀ f x, HasCell ⟨["name"], ["cost", "kind"], []⟩ (.keyed [(.one (.str "milk"),
      [("cost", .num (.fin 2)), ("kind", .none)]), (.one (.str "egg"), [("cost", .num .pinf), ("kind", .str "a")])]) f x →
      (f = "name" ∧ (x = .str "milk" ∨ x = .str "egg")) ∨ (f = "cost" ∧ (x = .num (.fin 2) ∨ x = .num .pinf)) ∨
        (f = "kind" ∧ (x = .none ∨ x = .str "a")) := by
    intro f x h
    simp only [HasCell, List.mem_cons, List.not_mem_nil, or_false] at h
    obtain ⟨p, hp, h⟩ := h
    rcases hp with hp | hp <;> subst hp <;> rcases h with ⟨i, hf, hi⟩ | h
    all_goals first
      | (rcases i with _ | i <;> simp [keyCells] at hi hf; subst hi hf; simp; done)
      | (simp only [PyDict.get?] at h; repeat' split at h
         all_goals first
           | (cases h; done)
           | (rename_i e; subst e; cases h; simp; done)
           | (rename_i e _; subst e; cases h; simp; done))
  obtain ⟨dir', h1, _, h2⟩ := csv_round_trip unaryText unaryText_csv_ok asciiEnv asciiLaws
    ⟨[], .num 1000, false, []⟩ csvExampleDefaults .assert false true true
    [("food_list", ⟨["name"], ["cost", "kind"], []⟩)] (by decide +kernel)
    (by intro tc h; simp at h; subst h; exact asciiRoundTrip _)
    (by intro tc h; simp at h; subst h; exact ⟨by simp [TabClass.fields], by decide +kernel⟩) csvExampleDat rfl
    (by
      intro tc htc tab htab
      simp at htc
      subst htc
      simp [csvExampleDat, PyDict.get?] at htab
      subst htab
      refine ⟨by simp, by decide, ?_⟩
      intro p hp
      simp at hp
      rcases hp with rfl | rfl <;> exact ⟨rfl, rfl⟩)
    (by
      intro tc htc tab htab _ f x hx
      simp at htc
      subst htc
      simp [csvExampleDat, PyDict.get?] at htab
      subst htab
      have hty : ∀ f, typeOf ([] : DataTypes) "food_list" f = none := fun f => rfl
      rcases hcell f x hx with ⟨rfl, rfl | rfl⟩ | ⟨rfl, rfl | rfl⟩ | ⟨rfl, rfl | rfl⟩ <;>
        refine ⟨⟨by simp, ?_⟩, ?_⟩ <;>
        simp [ReadAsIs, FlagSafe, hty, CsvNumField, CsvNullField, csvExampleDefaults, Cell.numericish, ← xlt_iff] <;>
        decide +kernel)
    (by intro tab h; simp [csvExampleDat, PyDict.get?] at h) [("note.txt".toList, [])] (by simp [PyDict.keys])
    (.inr (by intro tc h; simp at h; subst h; decide +kernel))
    (by
      intro k hk tc htc hm
      simp [PyDict.keys] at hk htc
      subst hk htc
      revert hm
      decide +kernel)
  exact ⟨dir', h1, h2⟩

end Ticdat

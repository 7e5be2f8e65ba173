import Verif.Props.XlCells
import Verif.Props.SqlBack
import Verif.Lemmas.Dups
import Verif.Props.JsonParams
/-!
# C48: which objects an Excel file keeps
-/
set_option linter.unusedSectionVars false
set_option linter.unusedSimpArgs false
namespace Ticdat
open Spec

theorem init_readerX (c : TabClass) (rs : List (List Cell)) :
    initTable c (readerTableX c rs) = initTable c (readerTable c rs) := by
  unfold readerTableX readerTable
  by_cases hpk : c.pks = []
  · simp only [hpk, ne_eq, not_true_eq_false, if_false]
    unfold initTable goodTableForInit
    simp only [hpk, ne_eq, not_true_eq_false, if_false, List.all_map, Function.comp_def, goodRow_xlData, List.mapM_map,
      initRow_xlData]
  · simp only [hpk, ne_eq, not_false_eq_true, if_true]
    have h : ∀ (g : List Cell → RowIn), PyDict.ofList (rs.map (fun r => (splitKey c.pks.length (.seq r), g (r.drop c.pks.length)))) =
        (PyDict.ofList (rs.map (fun r => (splitKey c.pks.length (.seq r), r.drop c.pks.length)))).map (fun p => (p.1, g p.2)) := by
      intro g
      rw [← ofList_map_val, List.map_map]
      rfl
    rw [h (xlData c), h RowIn.seq]
    unfold initTable goodTableForInit
    simp only [hpk, ne_eq, not_false_eq_true, if_true, PyDict.keys, List.all_map, Function.comp_def, goodRow_xlData,
      List.mapM_map, initRow_xlData, List.isEmpty_map, List.map_map]

theorem init_reader_size (c : TabClass) (rs : List (List Cell)) (tab : TabVal) (h : initTable c (readerTable c rs) = some tab) :
    tab.size ≤ rs.length := by
  unfold readerTable at h
  by_cases hpk : c.pks ≠ []
  · rw [if_pos hpk] at h
    unfold initTable at h
    split at h
    case isFalse => cases h
    simp only at h
    split at h
    case isFalse => cases h
    simp only [Option.map_eq_some_iff] at h
    obtain ⟨l, h1, rfl⟩ := h
    generalize hL : (rs.map (fun r => (splitKey c.pks.length (.seq r), RowIn.seq (r.drop c.pks.length)))) = L at h1
    have hLl : L.length = rs.length := by rw [← hL, List.length_map]
    have h2 : (PyDict.ofList l).length ≤ l.length := by
      simpa [PyDict.ofList] using (foldl_set_length l []).1
    have h3 : (PyDict.ofList L).length ≤ L.length := by
      simpa [PyDict.ofList] using (foldl_set_length L []).1
    have h4 : l.length = (PyDict.ofList L).length := by
      rw [mapM_eq_some_iff] at h1
      have := congrArg List.length h1
      simpa using this.symm
    show (PyDict.ofList l).length ≤ rs.length
    omega
  · rw [if_neg hpk] at h
    unfold initTable at h
    split at h
    case isFalse => cases h
    simp only [hpk, if_false, Option.map_eq_some_iff] at h
    obtain ⟨l, h1, rfl⟩ := h
    rw [mapM_eq_some_iff] at h1
    have := congrArg List.length h1
    simp only [List.length_map] at this
    show l.length ≤ rs.length
    omega

theorem lastRow_le (g : Grid) : g.lastRow ≤ g.length := by
  unfold Grid.lastRow
  have := (List.dropWhile_sublist blankRow (l := g.reverse)).length_le
  simpa using this

theorem lastRow_full (g : Grid) (h : g.lastRow = g.length) (r : List Cell) (hr : g.getLast? = some r) : blankRow r = false := by
  obtain ⟨pre, rfl⟩ := List.getLast?_eq_some_iff.mp hr
  cases hb : blankRow r with
  | false => rfl
  | true =>
    exfalso
    unfold Grid.lastRow at h
    rw [List.reverse_append, List.reverse_singleton, List.singleton_append, List.dropWhile_cons, if_pos hb] at h
    have := (List.dropWhile_sublist blankRow (l := pre.reverse)).length_le
    simp only [List.length_reverse, List.length_append, List.length_singleton] at h this
    omega

theorem lastRow_pos (header : List Cell) (rows : Grid) (h : blankRow header = false) : 0 < Grid.lastRow (header :: rows) := by
  unfold Grid.lastRow
  have : ∀ l : List (List Cell), header ∈ l → 0 < (l.dropWhile blankRow).length := by
    intro l
    induction l with
    | nil => intro h; cases h
    | cons a l ih =>
      intro hm
      rw [List.dropWhile_cons]
      split
      · rename_i hb
        rcases List.mem_cons.mp hm with e | hm
        · rw [← e, h] at hb; cases hb
        · exact ih hm
      · simp
  exact this _ (by simp)

theorem prune_le (g : Grid) (n : Nat) : g.prune n ≤ n := by
  induction n with
  | zero => exact Nat.le_refl _
  | succ n ih =>
    unfold Grid.prune
    split <;> omega

/-- No row below the last stored cell is read. -/
theorem dims_le (kind : XlKind) (prune : Bool) (header : List Cell) (rows : Grid) (h : blankRow header = false) :
    (xlDims kind prune (header :: rows)).2.1 ≤ Grid.lastRow (header :: rows) := by
  have h1 := lastRow_pos header rows h
  have h2 : Grid.topBlank (header :: rows) = 0 := by
    unfold Grid.topBlank
    simp [List.takeWhile_cons, h]
  unfold xlDims
  cases kind with
  | xls => exact Nat.le_refl _
  | xlsx =>
    have h3 : ¬ Grid.lastRow (header :: rows) = 0 := by omega
    have h4 := prune_le (header :: rows) (max (Grid.lastRow (header :: rows)) 1 - (0 + 1) + 1)
    cases prune
    · simp only [h2, if_neg h3]
      simp only [Bool.false_eq_true, if_false]
      omega
    · simp only [h2, if_neg h3, if_true]
      split <;> omega

theorem xl_row_inv (env : XlEnv) (cf : IOConf) (dv : Defaults) (o : XlOpts) (t : String)
    (fields : List String) (r : List Cell) (hl : r.length = fields.length) (w r' : List Cell)
    (h1 : mapCells (xlWriteCell env cf o.kind t) fields r = some w)
    (h2 : mapCells (xlReadCell env cf dv o t) fields (w.map (xlFill o.kind)) = some r') :
    RowRel fields (XlCell env cf dv o t) r r' := by
  have hlw := mapCells_length _ _ _ _ hl h1
  refine ⟨hl, mapCells_length _ _ _ _ (by simpa using hlw) h2, fun i f x y hf hx hy => ?_⟩
  obtain ⟨v, h6, h7⟩ := mapCells_at h1 i hf hx
  obtain ⟨y1, h8, h9⟩ := mapCells_at h2 i hf (x := xlFill o.kind v) (by rw [List.getElem?_map, h6]; rfl)
  rw [hy] at h8
  cases h8
  exact ⟨v, h7, h9⟩

/-- The rows of a table that is written and read, without rows lost: the cells travel through the sheet one by one, and the last row
has a stored cell. -/
theorem xl_table_rel (env : XlEnv) (cf : IOConf) (dv : Defaults) (o : XlOpts) (ho : o.headers = true) (t : String)
    (hoff : o.offset t = 0) (c : TabClass) (hne : c.fields ≠ [])
    (hn : ((c.fields.map String.toList).map env.case.lower).Nodup) (hh : ∀ f ∈ c.fields, HeaderText env o.kind f)
    (tab tab' : TabVal) (h : WellShaped c tab) (g : Grid) (h1 : xlTable env cf o.kind t c tab = some g) (x : TableIn)
    (h2 : xlReadTable env cf dv o t c g = some x) (h3 : initTable c x = some tab') (hs : tab'.size = tab.size) :
    Pairwise2 (RowRel c.fields (XlCell env cf dv o t)) (tabRows tab) (tabRows tab') ∧
    ∀ r, (tabRows tab).getLast? = some r → RowStored env cf o.kind t c.fields r := by
  have hnl := nodup_of_map _ hn
  have hfn : c.fields.Nodup := nodup_of_map _ hnl
  have hdn : c.dfs.Nodup := (List.nodup_append.mp hfn).2.1
  have hrl : ∀ r ∈ tabRows tab, r.length = c.fields.length := tabRows_length c tab h
  unfold xlTable at h1
  rw [mapM_some_map _ Cell.str _ (fun f hf => xlPut_header env o.kind f (hh f hf)), Option.bind_some,
    flatRows_eq c hdn tab h, Option.bind_some, Option.map_eq_some_iff] at h1
  obtain ⟨lines, h4, rfl⟩ := h1
  have hhb : blankRow (c.fields.map Cell.str) = false := by
    unfold blankRow
    rw [List.all_eq_false]
    cases hc : c.fields with
    | nil => exact absurd hc hne
    | cons f l => exact ⟨.str f, by simp, by simp⟩
  have hlines : lines.length = (tabRows tab).length := by
    rw [mapM_eq_some_iff] at h4
    have := congrArg List.length h4
    simpa using this.symm
  -- as many rows are read as were written, so the last one is not blank
  have hsize : (tabRows tab).length ≤ (xlDims o.kind o.prune (c.fields.map Cell.str :: lines)).2.1 - 1 := by
    have h5 := h2
    unfold xlReadTable at h5
    rw [if_neg hne, Option.bind_eq_some_iff] at h5
    obtain ⟨cols, h6, h7⟩ := h5
    rw [Option.map_eq_some_iff] at h7
    obtain ⟨rs', h8, rfl⟩ := h7
    rw [mapM_eq_some_iff] at h8
    have h9 := congrArg List.length h8
    simp only [List.length_map, List.length_drop, List.length_range, hoff, ho, if_true] at h9
    rw [init_readerX] at h3
    have h10 : tab'.size ≤ rs'.length := init_reader_size c rs' tab' h3
    rw [hs, ← tabRows_size] at h10
    omega
  have hlast' : ∀ r, lines.getLast? = some r → blankRow r = false := by
    intro r hr
    have h5 := dims_le o.kind o.prune (c.fields.map Cell.str) lines hhb
    have h6 := lastRow_le (c.fields.map Cell.str :: lines)
    rw [List.length_cons] at h6
    have h7 : 0 < lines.length := List.length_pos_of_mem (List.mem_of_getLast? hr)
    refine lastRow_full (c.fields.map Cell.str :: lines) (by rw [List.length_cons]; omega) r ?_
    rw [List.getLast?_cons, hr]
    rfl
  have hread := xl_sheet_read_partial env cf dv o ho t c hne (fun f hf => (hh f hf).2.1) [] (c.fields.map Cell.str) lines
    (by rw [hoff]; rfl) _ (headerColumns_own env.case c.fields hn) hlast' (.inr (by simp))
  rw [List.nil_append] at hread
  rw [hread, Option.map_eq_some_iff] at h2
  obtain ⟨rs', h5, rfl⟩ := h2
  have hlw : ∀ l ∈ lines, l.length = c.fields.length := by
    intro l hl
    have h4' := h4
    rw [mapM_eq_some_iff] at h4'
    have : some l ∈ lines.map some := List.mem_map.mpr ⟨l, hl, rfl⟩
    rw [← h4'] at this
    obtain ⟨r, hr, e⟩ := List.mem_map.mp this
    exact mapCells_length _ _ _ _ (hrl r hr) e
  rw [mapM_eq_some_iff] at h4 h5
  have key : ∀ (rs ws rs' : List (List Cell)), (∀ r ∈ rs, r.length = c.fields.length) → (∀ l ∈ ws, l.length = c.fields.length) →
      rs.map (mapCells (xlWriteCell env cf o.kind t) c.fields) = ws.map some →
      ws.map (fun row => mapCells (xlReadCell env cf dv o t) c.fields
        ((List.range c.fields.length).map (SeenCell o.kind row))) = rs'.map some →
      Pairwise2 (RowRel c.fields (XlCell env cf dv o t)) rs rs' := by
    intro rs
    induction rs with
    | nil =>
      intro ls rs' _ _ h1 h2
      have : ls = [] := by simpa using h1.symm
      subst this
      have : rs' = [] := by simpa using h2.symm
      subst this
      exact .nil
    | cons r rs ih =>
      intro ls rs' ha hb h1 h2
      cases ls with
      | nil => simp at h1
      | cons w ls =>
        cases rs' with
        | nil => simp at h2
        | cons y rs' =>
          simp only [List.map_cons, List.cons.injEq] at h1 h2
          rw [seen_row _ _ _ (hb w List.mem_cons_self)] at h2
          exact .cons (xl_row_inv env cf dv o t c.fields r (ha r List.mem_cons_self) w y h1.1 h2.1)
            (ih ls rs' (fun r h => ha r (List.mem_cons_of_mem _ h)) (fun r h => hb r (List.mem_cons_of_mem _ h)) h1.2 h2.2)
  have h6 := key _ _ _ hrl hlw h4 h5
  rw [init_readerX] at h3
  have h7 : tabRows tab' = rs' := by
    refine reader_rows_inv c hfn rs' ?_ tab' h3 ?_
    · intro r hr
      obtain ⟨_, _, h8⟩ := pairwise2_mem h6 r hr
      exact h8.2.1
    · rw [pairwise2_length h6, tabRows_size, hs]
  constructor
  · rw [h7]; exact h6
  · intro r hr
    have hg := congrArg List.getLast? h4
    rw [List.getLast?_map, List.getLast?_map, hr] at hg
    cases hll : lines.getLast? with
    | none => rw [hll] at hg; cases hg
    | some ws =>
      rw [hll] at hg
      simp only [Option.map_some, Option.some.injEq] at hg
      have hb := hlast' ws hll
      unfold blankRow at hb
      rw [List.all_eq_false] at hb
      obtain ⟨w, hw, hwn⟩ := hb
      obtain ⟨i, hi⟩ := List.mem_iff_getElem?.mp hw
      have hil := (List.getElem?_eq_some_iff.mp hi).1
      have hrr := hrl r (List.mem_of_getLast? hr)
      have hlen := mapCells_length _ _ _ _ hrr hg
      have hif := List.getElem?_eq_getElem (l := c.fields) (i := i) (by omega)
      have hir := List.getElem?_eq_getElem (l := r) (i := i) (by omega)
      obtain ⟨v, h8, h9⟩ := mapCells_at hg i hif hir
      rw [hi] at h8
      cases h8
      exact ⟨i, _, _, w, hif, hir, h9, by simpa using hwn⟩

/-- **C48, one table, the other direction.**  If a table comes back then so does each of its cells, and its last row has a stored cell. -/
theorem xl_table_inv (env : XlEnv) (cf : IOConf) (dv : Defaults) (o : XlOpts) (ho : o.headers = true) (t : String)
    (hoff : o.offset t = 0) (c : TabClass) (hne : c.fields ≠ [])
    (hn : ((c.fields.map String.toList).map env.case.lower).Nodup) (hh : ∀ f ∈ c.fields, HeaderText env o.kind f)
    (tab : TabVal) (h : WellShaped c tab) (g : Grid) (h1 : xlTable env cf o.kind t c tab = some g) (x : TableIn)
    (h2 : xlReadTable env cf dv o t c g = some x) (h3 : initTable c x = some tab) :
    (∀ f v, HasCell c tab f v → XlCell env cf dv o t f v v) ∧
    ∀ r, (tabRows tab).getLast? = some r → RowStored env cf o.kind t c.fields r := by
  have hfn : c.fields.Nodup := nodup_of_map _ (nodup_of_map _ hn)
  obtain ⟨h6, hlast⟩ := xl_table_rel env cf dv o ho t hoff c hne hn hh tab tab h g h1 x h2 h3 rfl
  refine ⟨?_, hlast⟩
  · intro f v hv
    obtain ⟨r, hr, hm⟩ := hasCell_row c hfn tab h hv
    have h8 : RowRel c.fields (XlCell env cf dv o t) r r := by
      have : ∀ l : List (List Cell), Pairwise2 (RowRel c.fields (XlCell env cf dv o t)) l l → ∀ r ∈ l,
          RowRel c.fields (XlCell env cf dv o t) r r := by
        intro l hl
        induction l with
        | nil => intro r hr; cases hr
        | cons a l ih =>
          cases hl with
          | cons ha hl =>
            intro r hr
            rcases List.mem_cons.mp hr with e | hr
            · rw [e]; exact ha
            · exact ih hl r hr
      exact this _ h6 r hr
    obtain ⟨i, hi⟩ := List.mem_iff_getElem?.mp hm
    have ⟨h9, h10⟩ := List.getElem?_zip_eq_some.mp hi
    exact h8.2.2 i f v v h9 h10 h10

/-- How a table has been read and adjusted. -/
theorem xl_back_read (env : XlEnv) (laws : CaseLaws env.case) (hs : SimpleCase env.case) (cf : IOConf)
    (dv : Defaults) (policy : DupPolicy) (o : XlOpts) (allowOverwrite caseSpace : Bool)
    (schema : List (String × TabClass))
    (hg : goodTableNames env.case (schema.map (fun tc => tc.1.toList)) = true)
    (hlow : (schema.map (fun tc => (env.case.lower tc.1.toList).take longestSheet)).Nodup)
    (hrt : ∀ tc ∈ schema, CaseRoundTrip env.case tc.1.toList)
    (dat : PyDict String TabVal) (hd : DatOK schema dat) (existing : Option Book) (book : Book)
    (h1 : xlWrite env cf o.kind allowOverwrite caseSpace schema dat existing = some book)
    (h2 : xlCreate env cf dv policy o schema book = some dat) :
    ∀ tc ∈ schema, ∀ tab, PyDict.get? dat tc.1 = some tab → ∃ g y tab2, xlTable env cf o.kind tc.1 tc.2 tab = some g ∧
      xlReadTable env cf dv o tc.1 tc.2 g = some y ∧ initTable tc.2 y = some tab2 ∧
      tab = (if IsParamsB cf.params tc.1 then (match tab2 with
          | .keyed d => .keyed (d.map (postReadEntry env.text cf.params))
          | x => x) else tab2) := by
  intro tc htc tab htab
  have hlow' : ((schema.map (fun tc => tc.1.toList)).map (fun t => (env.case.lower t).take longestSheet)).Nodup := by
    rw [List.map_map]; exact hlow
  have hg' : goodTableNames env.case ((schema.map Prod.fst).map String.toList) = true := by
    rw [List.map_map]; exact hg
  have hnames : (schema.map Prod.fst).Nodup :=
    nodup_of_map _ (nodup_of_map _ ((goodTableNames_iff env.case _).mp hg').2.2)
  have hdn : (PyDict.keys dat).Nodup := by rw [hd.1]; exact hnames
  have hmatch : ∀ tc ∈ schema, ∀ tc' ∈ schema,
      (sheetMatches env.case tc'.1.toList (xlSheetName env.case schema caseSpace tc.1) = true ↔
        tc'.1.toList = tc.1.toList) := by
    intro tc htc tc' htc'
    exact sheetMatches_out laws hs hg hlow' caseSpace (List.mem_map.mpr ⟨tc, htc, rfl⟩) (hrt tc htc)
      (List.mem_map.mpr ⟨tc', htc', rfl⟩)
  unfold xlWrite at h1
  split at h1
  case isFalse => cases h1
  rename_i hcond
  simp only [Bool.and_eq_true, decide_eq_true_eq] at hcond
  have hfnames : (schema.map (fun tc => xlSheetName env.case schema caseSpace tc.1)).Nodup := by
    have : schema.map (fun tc => env.case.lower (xlSheetName env.case schema caseSpace tc.1)) =
        (schema.map (fun tc => xlSheetName env.case schema caseSpace tc.1)).map env.case.lower := by
      rw [List.map_map]; rfl
    have hl := hcond.2
    rw [this] at hl
    exact nodup_of_map _ hl
  obtain ⟨book2, h3, h4, h5, h6⟩ := write_all (fun tc : String × TabClass => xlSheetName env.case schema caseSpace tc.1)
    (fun tc => (PyDict.get? dat tc.1).bind (xlTable env cf o.kind tc.1 tc.2)) (fun _ _ => True) schema hfnames
    (fun tc htc => by
      obtain ⟨v, hv⟩ := writeAll_some _ _ _ _ _ h1 tc htc
      exact ⟨v, hv, trivial⟩) [] (by simp [PyDict.keys])
  rw [h1] at h3
  cases h3
  obtain ⟨g, h7, h8, _⟩ := h5 tc htc
  rw [htab, Option.bind_some] at h8
  have hpath : sheetOf env.case (PyDict.keys book) tc.1.toList =
      some (some (xlSheetName env.case schema caseSpace tc.1)) := by
    unfold sheetOf
    have : (PyDict.keys book).filter (sheetMatches env.case tc.1.toList) =
        [xlSheetName env.case schema caseSpace tc.1] := by
      rw [filter_eq_singleton _ h4]
      refine ⟨?_, (hmatch tc htc tc htc).mpr rfl, ?_⟩
      · refine Classical.byContradiction (fun hno => ?_)
        rw [(PyDict.get?_eq_none _ _).mpr hno] at h7
        cases h7
      · intro k hk hm
        obtain ⟨tc', htc', e⟩ : ∃ tc' ∈ schema, k = xlSheetName env.case schema caseSpace tc'.1 := by
          refine Classical.byContradiction (fun hno => ?_)
          have h11 := h6 k (fun tc' h e => hno ⟨tc', h, e⟩)
          exact (PyDict.get?_eq_none _ _).mp h11 hk
        rw [e] at hm ⊢
        have := String.toList_injective ((hmatch tc' htc' tc htc).mp hm)
        rw [this]
    rw [this]
  unfold xlCreate at h2
  split at h2
  case isFalse => cases h2
  simp only [Option.map_eq_some_iff, Option.bind_eq_some_iff] at h2
  obtain ⟨dat2, ⟨input, h9, h10⟩, hpr⟩ := h2
  have hk2 : (PyDict.keys dat2).Nodup := by
    rw [← postRead_keys env.text cf.params dat2, hpr]
    exact hdn
  obtain ⟨_, h12⟩ := gatherTables_inv _ schema hnames input h9
  obtain ⟨o1, h13, h14⟩ := h12 tc htc
  unfold xlFind at h13
  rw [hpath] at h13
  simp only [Option.bind_some, h7, Option.map_eq_some_iff] at h13
  obtain ⟨x1, h15, h16⟩ := h13
  unfold initDat at h10
  split at h10
  case isFalse => cases h10
  cases hm : schema.mapM (initEntry input) with
  | none => rw [hm] at h10; cases h10
  | some tabs =>
    rw [hm] at h10
    simp only at h10
    split at h10
    case isTrue => cases h10
    cases h10
    rw [mapM_eq_some_iff] at hm
    have : initEntry input tc ∈ dat2.map some := by rw [← hm]; exact List.mem_map.mpr ⟨tc, htc, rfl⟩
    obtain ⟨q, h17, h18⟩ := List.mem_map.mp this
    have h18 := h18.symm
    unfold initEntry at h18
    rw [h14, ← h16] at h18
    rw [Option.map_eq_some_iff] at h18
    obtain ⟨tab2, h19, rfl⟩ := h18
    have h20 := postRead_entry env.text cf.params dat2 tc.1
    rw [hpr, htab, PyDict.get?_of_mem hk2 h17, Option.map_some] at h20
    exact ⟨g, x1, tab2, h8, h15, h19, Option.some.inj h20⟩

/-- **C48, the other direction.**  For schemas without parameters: if the object that is read from an Excel file is the one that was
written, then every cell is one that `XlKeeps` describes, and the last row of every table has a stored cell.  No condition on the cells of
`xl_round_trip_keeps` can be dropped. -/
theorem xl_needs_keeps (env : XlEnv) (hT : XlTextOK env) (laws : CaseLaws env.case) (hs : SimpleCase env.case) (cf : IOConf)
    (hq : ∀ q, cf.flag = .num q → 0 < q) (hnp : cf.params = [])
    (dv : Defaults) (policy : DupPolicy) (o : XlOpts) (ho : o.headers = true) (allowOverwrite caseSpace : Bool)
    (schema : List (String × TabClass)) (hoff : ∀ tc ∈ schema, o.offset tc.1 = 0)
    (hg : goodTableNames env.case (schema.map (fun tc => tc.1.toList)) = true)
    (hlow : (schema.map (fun tc => (env.case.lower tc.1.toList).take longestSheet)).Nodup)
    (hrt : ∀ tc ∈ schema, CaseRoundTrip env.case tc.1.toList)
    (hf : ∀ tc ∈ schema, tc.2.fields ≠ [] ∧ ((tc.2.fields.map String.toList).map env.case.lower).Nodup ∧
      ∀ f ∈ tc.2.fields, HeaderText env o.kind f)
    (dat : PyDict String TabVal) (hd : DatOK schema dat) (existing : Option Book) (book : Book)
    (h1 : xlWrite env cf o.kind allowOverwrite caseSpace schema dat existing = some book)
    (h2 : xlCreate env cf dv policy o schema book = some dat) :
    ∀ tc ∈ schema, ∀ tab, PyDict.get? dat tc.1 = some tab →
      (∀ f x, HasCell tc.2 tab f x → XlKeeps env cf dv o tc.1 f x) ∧
      ∀ r, (tabRows tab).getLast? = some r → RowStored env cf o.kind tc.1 tc.2.fields r := by
  intro tc htc tab htab
  obtain ⟨g, y, tab2, h3, h4, h5, h6⟩ := xl_back_read env laws hs cf dv policy o allowOverwrite caseSpace schema hg hlow hrt dat hd
    existing book h1 h2 tc htc tab htab
  rw [if_neg (by rw [isParamsB_iff]; exact fun h => h.1 hnp)] at h6
  subst h6
  obtain ⟨hf1, hf2, hf3⟩ := hf tc htc
  have h21 := xl_table_inv env cf dv o ho tc.1 (hoff tc htc) tc.2 hf1 hf2 hf3 tab (hd.2 tc htc tab htab) g h3 y h4 h5
  exact ⟨fun f x hx => (xl_cell_iff hT cf hq dv o tc.1 f x (fun h => h.1 hnp)).mp (h21.1 f x hx), h21.2⟩

/-- **C48, exactly which objects an Excel file keeps.**  For schemas without parameters: an object comes back from an Excel file as it was
if and only if its cells are those of `XlKeeps` and the last row of every table has a stored cell. -/
theorem xl_round_trip_iff (env : XlEnv) (hT : XlTextOK env) (laws : CaseLaws env.case) (hs : SimpleCase env.case) (cf : IOConf)
    (hq : ∀ q, cf.flag = .num q → 0 < q) (hnp : cf.params = [])
    (dv : Defaults) (policy : DupPolicy) (o : XlOpts) (ho : o.headers = true) (allowOverwrite caseSpace : Bool)
    (schema : List (String × TabClass)) (hoff : ∀ tc ∈ schema, o.offset tc.1 = 0)
    (hg : goodTableNames env.case (schema.map (fun tc => tc.1.toList)) = true)
    (hlow : (schema.map (fun tc => (env.case.lower tc.1.toList).take longestSheet)).Nodup)
    (hrt : ∀ tc ∈ schema, CaseRoundTrip env.case tc.1.toList)
    (hok : ∀ tc ∈ schema, okSheetName o.kind (xlSheetName env.case schema caseSpace tc.1) = true)
    (hf : ∀ tc ∈ schema, tc.2.fields ≠ [] ∧ ((tc.2.fields.map String.toList).map env.case.lower).Nodup ∧
      ∀ f ∈ tc.2.fields, HeaderText env o.kind f)
    (dat : PyDict String TabVal) (hd : DatOK schema dat) (existing : Option Book) (hover : allowOverwrite = true ∨ existing = none) :
    (∃ book, xlWrite env cf o.kind allowOverwrite caseSpace schema dat existing = some book ∧
      xlCreate env cf dv policy o schema book = some dat) ↔
    ∀ tc ∈ schema, ∀ tab, PyDict.get? dat tc.1 = some tab →
      (∀ f x, HasCell tc.2 tab f x → XlKeeps env cf dv o tc.1 f x) ∧
      ∀ r, (tabRows tab).getLast? = some r → RowStored env cf o.kind tc.1 tc.2.fields r := by
  constructor
  · rintro ⟨book, h1, h2⟩
    exact xl_needs_keeps env hT laws hs cf hq hnp dv policy o ho allowOverwrite caseSpace schema hoff hg hlow hrt hf dat hd existing book
      h1 h2
  · intro h
    have hnames : (schema.map Prod.fst).Nodup := by
      have hg' : goodTableNames env.case ((schema.map Prod.fst).map String.toList) = true := by
        rw [List.map_map]; exact hg
      exact nodup_of_map _ (nodup_of_map _ ((goodTableNames_iff env.case _).mp hg').2.2)
    have hfn : ∀ tc ∈ schema, tc.2.fields.Nodup := fun tc htc => nodup_of_map _ (nodup_of_map _ (hf tc htc).2.1)
    obtain ⟨dat', hk', hpost, hrel⟩ := params_view env.text cf.params (xlParamSeen env o.kind) schema hnames hfn dat hd.1 hd.2
      (fun t f x y => XlCell env cf dv o t f x y)
      (fun tc htc tab hget hpar f x hx => (xl_cell_iff hT cf hq dv o tc.1 f x hpar).mpr ((h tc htc tab hget).1 f x hx))
      (XlParam env cf.params o.kind) (fun _ _ hpar => absurd hnp hpar) (fun hpar => absurd hnp hpar)
    obtain ⟨book, h1, h2⟩ := xl_read_back env laws hs cf dv policy o ho allowOverwrite caseSpace schema hoff hg hlow hrt hok hf
      dat dat' hk' hrel (fun tc htc tab hget r hr => (h tc htc tab hget).2 r hr) existing hover
    exact ⟨book, h1, by rw [h2 book (List.Perm.refl _), hpost]⟩

/-- The hypotheses can be met, and both sides can hold and can fail: an object whose last row has a Boolean comes back from an `.xlsx`
file and not from an `.xls` file. -/
example (kind : XlKind) (prune : Bool) : (∃ book, xlWrite demoXl plainIO kind true true
      [("t", ⟨[], ["a"], []⟩)] [("t", .plain [[("a", .str "x")], [("a", .bool true)]])] none = some book ∧
      xlCreate demoXl plainIO (fun _ _ => none) .assert (demoOpts kind prune 0)
        [("t", ⟨[], ["a"], []⟩)] book = some [("t", .plain [[("a", .str "x")], [("a", .bool true)]])]) ↔ kind = .xlsx := by
  refine Iff.trans (xl_round_trip_iff demoXl demoXl_ok asciiLaws asciiSimple plainIO
    (fun q h => by cases h) rfl (fun _ _ => none) .assert (demoOpts kind prune 0) rfl true true [("t", ⟨[], ["a"], []⟩)]
    (by simp [demoOpts]) (by decide +kernel) (by decide +kernel)
    (by intro tc h; simp at h; subst h; exact asciiRoundTrip _)
    (by intro tc h; simp at h; subst h; cases kind <;> cases prune <;> decide +kernel)
    (by
      intro tc h
      simp at h
      subst h
      refine ⟨by simp [TabClass.fields], by decide +kernel, ?_⟩
      intro f hf
      simp [TabClass.fields] at hf
      subst hf
      exact ⟨by decide, by decide +kernel, fun _ => by decide +kernel⟩)
    [("t", .plain [[("a", .str "x")], [("a", .bool true)]])]
    (by
      refine ⟨rfl, ?_⟩
      intro tc htc tab htab
      simp at htc
      subst htc
      simp [PyDict.get?] at htab
      subst htab
      refine ⟨rfl, ?_⟩
      intro p hp
      simp at hp
      rcases hp with rfl | rfl <;> rfl)
    none (.inl rfl)) ?_
  constructor
  · intro h
    exact ((h _ List.mem_cons_self _ rfl).1 "a" (.bool true) ⟨[("a", .bool true)], by simp, by simp [PyDict.get?]⟩).2
  · intro hk tc htc tab htab
    simp at htc
    subst htc
    simp [PyDict.get?] at htab
    subst htab
    constructor
    · intro f x hx
      obtain ⟨row, hr, hx⟩ := hx
      have h1 : ¬ ReadAsDate demoXl.text plainIO "t" f x := by
        rintro ⟨⟨td, e, _⟩, _⟩; cases e
      have h2 : ¬ ReadAsNumber demoXl.text plainIO "t" f x := by
        rintro ⟨e, _⟩; cases e
      simp at hr
      rcases hr with rfl | rfl
      · simp [PyDict.get?] at hx
        obtain ⟨rfl, rfl⟩ := hx
        exact ⟨⟨fun _ => ⟨h1, h2⟩, trivial⟩, fun _ _ => (by decide +kernel), .inl ⟨by decide, fun _ => by decide +kernel⟩⟩
      · simp [PyDict.get?] at hx
        obtain ⟨rfl, rfl⟩ := hx
        exact ⟨⟨fun _ => ⟨h1, h2⟩, trivial⟩, hk⟩
    · intro r hr
      simp [tabRows] at hr
      subst hr
      refine ⟨0, "a", .bool true, .bool true, rfl, rfl, ?_, by simp⟩
      rw [show (demoOpts kind prune 0).kind = kind from rfl, hk]
      decide +kernel

end Ticdat

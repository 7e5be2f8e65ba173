import Verif.Props.ExcelSheet
import Verif.Props.Names
/-!
# C48: Excel files carry whole data objects
-/
namespace Ticdat
open Spec
set_option linter.unusedSimpArgs false

namespace Spec

/-- How a cell travels through an Excel file: `x` is written as a cell that is read as `y`. -/
def XlCell (env : XlEnv) (cf : IOConf) (dv : Defaults) (o : XlOpts) (t f : String) (x y : Cell) : Prop :=
  ∃ w, xlWriteCell env cf o.kind t f x = some w ∧ xlReadCell env cf dv o t f (xlFill o.kind w) = some y

/-- The row leaves a trace in the sheet: one of its cells is stored. -/
def RowStored (env : XlEnv) (cf : IOConf) (kind : XlKind) (t : String) (fields : List String) (r : List Cell) : Prop :=
  ∃ (i : Nat) (f : String) (x w : Cell), fields[i]? = some f ∧ r[i]? = some x ∧ xlWriteCell env cf kind t f x = some w ∧
    w ≠ .none

/-- Names of fields that can be headers: not empty, and in `.xlsx` files text that is stored as it is. -/
def HeaderText (env : XlEnv) (kind : XlKind) (f : String) : Prop :=
  f ≠ "" ∧ env.case.lower f.toList ≠ [] ∧ (kind = .xlsx → env.xlsxText f = some (.str f))

end Spec

theorem xlPut_header (env : XlEnv) (kind : XlKind) (f : String) (h : HeaderText env kind f) :
    xlPut env kind (.str f) = some (.str f) := by
  unfold xlPut
  simp only [if_neg h.1]
  cases kind with
  | xls => simp
  | xlsx => simp [h.2.2 rfl]

theorem mapM_some_map {A B : Type} (g : A → Option B) (k : A → B) (l : List A) (h : ∀ a ∈ l, g a = some (k a)) :
    l.mapM g = some (l.map k) := mapM_eq_map h

theorem headerColumns_own (cenv : CaseEnv) (fields : List String) (hn : ((fields.map String.toList).map cenv.lower).Nodup) :
    HeaderColumns cenv (fields.map Cell.str) fields (List.range fields.length) := by
  refine ⟨by simp, ?_⟩
  intro i f j hi hj j'
  obtain ⟨hlt, hj⟩ := List.getElem?_eq_some_iff.mp hj
  rw [List.getElem_range] at hj
  subst hj
  constructor
  · rintro ⟨s, hs, he⟩
    rw [List.getElem?_map, Option.map_eq_some_iff] at hs
    obtain ⟨s', hs', hc⟩ := hs
    cases hc
    refine getElem?_nodup_inj (a := cenv.lower f.toList) hn ?_ ?_
    · rw [List.getElem?_map, List.getElem?_map, hs', Option.map_some, Option.map_some, he]
    · rw [List.getElem?_map, List.getElem?_map, hi]; rfl
  · rintro rfl
    exact ⟨f, by rw [List.getElem?_map, hi]; rfl, rfl⟩

theorem seen_row (kind : XlKind) (row : List Cell) (n : Nat) (h : row.length = n) :
    (List.range n).map (SeenCell kind row) = row.map (xlFill kind) := by
  subst h
  apply List.ext_getElem
  · simp
  · intro i h1 h2
    simp only [List.length_map] at h2
    simp only [List.getElem_map, List.getElem_range]
    unfold SeenCell
    rw [List.getElem?_eq_getElem h2]
    cases row[i] <;> cases kind <;> rfl

/-- One row. -/
theorem xl_row (env : XlEnv) (cf : IOConf) (dv : Defaults) (o : XlOpts) (t : String) (fields : List String)
    (r r' : List Cell) (h : RowRel fields (XlCell env cf dv o t) r r') :
    ∃ ws, mapCells (xlWriteCell env cf o.kind t) fields r = some ws ∧ ws.length = fields.length ∧
      mapCells (xlReadCell env cf dv o t) fields (ws.map (xlFill o.kind)) = some r' := by
  obtain ⟨ws, h1, _, h3⟩ := mapCells_round (fun f x => (xlWriteCell env cf o.kind t f x).map (xlFill o.kind))
    (xlReadCell env cf dv o t) (fun _ => True) fields r r' (by
      refine ⟨h.1, h.2.1, fun i f x y a b c => ?_⟩
      obtain ⟨w, h4, h5⟩ := h.2.2 i f x y a b c
      exact ⟨_, by rw [h4]; rfl, trivial, h5⟩)
  rw [mapCells_map] at h1
  cases hm : mapCells (xlWriteCell env cf o.kind t) fields r with
  | none => rw [hm] at h1; cases h1
  | some vs =>
    rw [hm] at h1
    simp only [Option.map_some, Option.some.injEq] at h1
    exact ⟨vs, rfl, mapCells_length _ _ _ _ h.1 hm, by rw [h1]; exact h3⟩

theorem mapCells_getElem (g : String → Cell → Option Cell) (fields : List String) (r ws : List Cell)
    (h : mapCells g fields r = some ws) (i : Nat) (f : String) (x w : Cell) (hf : fields[i]? = some f) (hx : r[i]? = some x)
    (hw : g f x = some w) : ws[i]? = some w := by
  unfold mapCells at h
  rw [mapM_eq_some_iff] at h
  have := congrArg (fun l => l[i]?) h
  simp only [List.getElem?_map] at this
  have hz : (fields.zip r)[i]? = some (f, x) := by
    rw [List.getElem?_zip_eq_some]
    exact ⟨hf, hx⟩
  rw [hz] at this
  simp only [Option.map_some, hw] at this
  cases hws : ws[i]? with
  | none => rw [hws] at this; cases this
  | some v =>
    rw [hws] at this
    simp only [Option.map_some, Option.some.injEq] at this
    rw [this]

/-- **C48, one table.**  A table whose cells are written and read as the cells of `tab'` is read as `tab'`: same number and
order of rows, same keys and fields. -/
theorem xl_table (env : XlEnv) (cf : IOConf) (dv : Defaults) (o : XlOpts) (ho : o.headers = true) (t : String)
    (hoff : o.offset t = 0) (c : TabClass) (hne : c.fields ≠ [])
    (hn : ((c.fields.map String.toList).map env.case.lower).Nodup) (hh : ∀ f ∈ c.fields, HeaderText env o.kind f)
    (tab tab' : TabVal) (h : WellShaped c tab) (h' : WellShaped c tab') (hr : TabRel c (XlCell env cf dv o t) tab tab')
    (hlast : ∀ r, (tabRows tab).getLast? = some r → RowStored env cf o.kind t c.fields r) :
    ∃ g x, xlTable env cf o.kind t c tab = some g ∧
      xlReadTable env cf dv o t c g = some x ∧ initTable c x = some tab' ∧ x.size = tab'.size := by
  have hnl := nodup_of_map _ hn
  have hfn : c.fields.Nodup := nodup_of_map _ hnl
  have hdn : c.dfs.Nodup := (List.nodup_append.mp hfn).2.1
  obtain ⟨lines, hlines⟩ := pairwise2_exists
    (g := mapCells (xlWriteCell env cf o.kind t) c.fields) hr (fun r r' hrr => by
      obtain ⟨l, h1, _⟩ := xl_row env cf dv o t c.fields r r' hrr
      exact ⟨l, h1⟩)
  have hpair : Pairwise2 (fun r' line => line.length = c.fields.length ∧
      mapCells (xlReadCell env cf dv o t) c.fields (line.map (xlFill o.kind)) = some r') (tabRows tab') lines := by
    have hl2 := hlines
    rw [mapM_eq_some_iff] at hl2
    unfold TabRel at hr
    clear hlines
    revert hl2
    clear hlast
    generalize tabRows tab = l at hr
    generalize tabRows tab' = l' at hr
    intro hlines
    induction hr generalizing lines with
    | nil => cases lines with
      | nil => exact .nil
      | cons a b => simp at hlines
    | cons hrr _ ih => cases lines with
      | nil => simp at hlines
      | cons a b =>
        simp only [List.map_cons, List.cons.injEq] at hlines
        obtain ⟨l, h1, h2, h3⟩ := xl_row env cf dv o t c.fields _ _ hrr
        rw [h1] at hlines
        have hla : l = a := Option.some.inj hlines.1
        exact .cons (hla ▸ ⟨h2, h3⟩) (ih b hlines.2)
  have hlen : ∀ l ∈ lines, l.length = c.fields.length := by
    intro l hl
    obtain ⟨_, _, hh⟩ := pairwise2_mem hpair l hl
    exact hh.1
  have hlast' : ∀ r, lines.getLast? = some r → blankRow r = false := by
    intro ws hws
    have hm := hlines
    rw [mapM_eq_some_iff] at hm
    have hg := congrArg List.getLast? hm
    rw [List.getLast?_map, List.getLast?_map, hws] at hg
    cases hrl : (tabRows tab).getLast? with
    | none => rw [hrl] at hg; cases hg
    | some r =>
      rw [hrl] at hg
      simp only [Option.map_some, Option.some.injEq] at hg
      obtain ⟨i, f, x, w, h1, h2, h3, h4⟩ := hlast r hrl
      have := mapCells_getElem _ _ _ _ hg i f x w h1 h2 h3
      unfold blankRow
      rw [List.all_eq_false]
      exact ⟨w, List.mem_of_getElem? this, by simpa using h4⟩
  refine ⟨c.fields.map Cell.str :: lines, readerTableX c (tabRows tab'), ?_, ?_, init_of_readerX c hfn tab' h',
    readerTableX_size c tab' h'⟩
  · unfold xlTable
    rw [mapM_some_map _ Cell.str _ (fun f hf => xlPut_header env o.kind f (hh f hf)), Option.bind_some,
      flatRows_eq c hdn tab h, Option.bind_some, hlines]
    rfl
  · have hread := xl_sheet_read_partial env cf dv o ho t c hne (fun f hf => (hh f hf).2.1) [] (c.fields.map Cell.str) lines
      (by rw [hoff]; rfl) _ (headerColumns_own env.case c.fields hn) hlast' (.inr (by simp))
    rw [List.nil_append] at hread
    rw [hread]
    have : lines.mapM (fun row => mapCells (xlReadCell env cf dv o t) c.fields
        ((List.range c.fields.length).map (SeenCell o.kind row))) = some (tabRows tab') := by
      have h2 := pairwise2_mapM (k := id) (g := fun row : List Cell => mapCells (xlReadCell env cf dv o t) c.fields
        ((List.range c.fields.length).map (SeenCell o.kind row))) (fun a b hab => by
          rw [seen_row _ _ _ hab.1]; exact hab.2) hpair
      simpa using h2
    rw [this]
    rfl

/-! ### Books -/

/-- **C48, books.**  If the cells of `dat` travel through Excel files as the cells of `dat'`, then writing `dat` into a file
and reading the file gives `dat'` (with the parameters adjusted), whatever the order of the sheets, and whatever file
was there before if overwriting is allowed. -/
theorem xl_read_back (env : XlEnv) (laws : CaseLaws env.case) (hs : SimpleCase env.case) (cf : IOConf) (dv : Defaults)
    (policy : DupPolicy) (o : XlOpts) (ho : o.headers = true) (allowOverwrite caseSpace : Bool)
    (schema : List (String × TabClass)) (hoff : ∀ tc ∈ schema, o.offset tc.1 = 0)
    (hg : goodTableNames env.case (schema.map (fun tc => tc.1.toList)) = true)
    (hlow : (schema.map (fun tc => (env.case.lower tc.1.toList).take longestSheet)).Nodup)
    (hrt : ∀ tc ∈ schema, CaseRoundTrip env.case tc.1.toList)
    (hok : ∀ tc ∈ schema, okSheetName o.kind (xlSheetName env.case schema caseSpace tc.1) = true)
    (hf : ∀ tc ∈ schema, tc.2.fields ≠ [] ∧ ((tc.2.fields.map String.toList).map env.case.lower).Nodup ∧
      ∀ f ∈ tc.2.fields, HeaderText env o.kind f)
    (dat dat' : PyDict String TabVal) (hk' : PyDict.keys dat' = schema.map Prod.fst)
    (ht : ∀ tc ∈ schema, ∃ tab tab', PyDict.get? dat tc.1 = some tab ∧ PyDict.get? dat' tc.1 = some tab' ∧
      WellShaped tc.2 tab ∧ WellShaped tc.2 tab' ∧ TabRel tc.2 (XlCell env cf dv o tc.1) tab tab')
    (hlast : ∀ tc ∈ schema, ∀ tab, PyDict.get? dat tc.1 = some tab → ∀ r, (tabRows tab).getLast? = some r →
      RowStored env cf o.kind tc.1 tc.2.fields r)
    (existing : Option Book) (hover : allowOverwrite = true ∨ existing = none) :
    ∃ book, xlWrite env cf o.kind allowOverwrite caseSpace schema dat existing = some book ∧
      ∀ book', List.Perm book' book →
        xlCreate env cf dv policy o schema book' = some (postRead env.text cf.params dat') := by
  have hlow' : ((schema.map (fun tc => tc.1.toList)).map (fun t => (env.case.lower t).take longestSheet)).Nodup := by
    rw [List.map_map]; exact hlow
  have hg' : goodTableNames env.case ((schema.map Prod.fst).map String.toList) = true := by
    rw [List.map_map]; exact hg
  have hnames : (schema.map Prod.fst).Nodup :=
    nodup_of_map _ (nodup_of_map _ ((goodTableNames_iff env.case _).mp hg').2.2)
  have hmatch : ∀ tc ∈ schema, ∀ tc' ∈ schema,
      (sheetMatches env.case tc'.1.toList (xlSheetName env.case schema caseSpace tc.1) = true ↔
        tc'.1.toList = tc.1.toList) := by
    intro tc htc tc' htc'
    exact sheetMatches_out laws hs hg hlow' caseSpace (List.mem_map.mpr ⟨tc, htc, rfl⟩) (hrt tc htc)
      (List.mem_map.mpr ⟨tc', htc', rfl⟩)
  have hlown : (schema.map (fun tc => env.case.lower (xlSheetName env.case schema caseSpace tc.1))).Nodup := by
    unfold List.Nodup at hnames ⊢
    rw [List.pairwise_map] at hnames ⊢
    refine List.Pairwise.imp_of_mem ?_ hnames
    intro a b ha hb hne e
    have h1 := (hmatch a ha a ha).mpr rfl
    unfold sheetMatches at h1
    rw [e] at h1
    exact hne (String.toList_injective ((hmatch b hb a ha).mp h1))
  have hfnames : (schema.map (fun tc => xlSheetName env.case schema caseSpace tc.1)).Nodup := by
    have : schema.map (fun tc => env.case.lower (xlSheetName env.case schema caseSpace tc.1)) =
        (schema.map (fun tc => xlSheetName env.case schema caseSpace tc.1)).map env.case.lower := by
      rw [List.map_map]; rfl
    rw [this] at hlown
    exact nodup_of_map _ hlown
  have hdiffer : sheetNamesDiffer (schema.map (fun tc => tc.1.toList)) = true := by
    unfold sheetNamesDiffer
    rw [decide_eq_true_eq]
    obtain ⟨g, hgm⟩ := lower_eq_map hs
    refine nodup_of_map (List.map g) ?_
    have : ((schema.map (fun tc => tc.1.toList)).map (List.take longestSheet)).map (List.map g) =
        schema.map (fun tc => (env.case.lower tc.1.toList).take longestSheet) := by
      rw [List.map_map, List.map_map]
      apply List.map_congr_left
      intro tc _
      simp [hgm, List.map_take]
    rw [this]
    exact hlow
  have hstep : ∀ tc ∈ schema, ∃ g, (PyDict.get? dat tc.1).bind (xlTable env cf o.kind tc.1 tc.2) = some g ∧
      ∃ x tab', xlReadTable env cf dv o tc.1 tc.2 g = some x ∧
        PyDict.get? dat' tc.1 = some tab' ∧ WellShaped tc.2 tab' ∧ initTable tc.2 x = some tab' ∧ x.size = tab'.size := by
    intro tc htc
    obtain ⟨tab, tab', h1, h2, h3, h4, h5⟩ := ht tc htc
    obtain ⟨hf1, hf2, hf3⟩ := hf tc htc
    obtain ⟨g, x, h6, h7, h8, h9⟩ := xl_table env cf dv o ho tc.1 (hoff tc htc) tc.2 hf1 hf2 hf3 tab tab' h3 h4 h5
      (hlast tc htc tab h1)
    exact ⟨g, by rw [h1, Option.bind_some, h6], x, tab', h7, h2, h4, h8, h9⟩
  obtain ⟨book, h1, h2, h3, h4⟩ := write_all (fun tc => xlSheetName env.case schema caseSpace tc.1)
    (fun tc => (PyDict.get? dat tc.1).bind (xlTable env cf o.kind tc.1 tc.2)) _ schema hfnames hstep []
    (by simp [PyDict.keys])
  refine ⟨book, ?_, ?_⟩
  · unfold xlWrite
    rw [if_pos, h1]
    simp only [Bool.and_eq_true, hdiffer, true_and, Bool.or_eq_true, List.all_map, List.all_eq_true, decide_eq_true_eq]
    refine ⟨⟨?_, fun tc htc => hok tc htc⟩, hlown⟩
    rcases hover with h | h
    · exact .inl h
    · exact .inr (by simp [h])
  · intro book' hp
    have hkp : List.Perm (PyDict.keys book') (PyDict.keys book) := hp.map Prod.fst
    have hk2 : (PyDict.keys book').Nodup := hkp.nodup_iff.mpr h2
    have hget : ∀ k, PyDict.get? book' k = PyDict.get? book k := by
      intro k
      apply option_ext_some
      intro v
      rw [PyDict.get?_iff_mem hk2, PyDict.get?_iff_mem h2]
      exact hp.mem_iff
    obtain ⟨input, h5, h6, h7, h8⟩ := gather_tables (xlFind env cf dv o book') dat' schema hnames (by
      intro tc htc
      obtain ⟨g, h9, _, x, tab', h10, h11, h12, h13, h14⟩ := h3 tc htc
      suffices hpath : sheetOf env.case (PyDict.keys book') tc.1.toList =
          some (some (xlSheetName env.case schema caseSpace tc.1)) by
        refine ⟨some x, tab', ?_, h11, .inr ⟨x, rfl, h13, h14⟩⟩
        unfold xlFind
        rw [hpath]
        simp only [Option.bind_some, hget, h9, h10, Option.map_some]
      unfold sheetOf
      have : (PyDict.keys book').filter (sheetMatches env.case tc.1.toList) =
          [xlSheetName env.case schema caseSpace tc.1] := by
        rw [filter_eq_singleton _ hk2]
        refine ⟨hkp.mem_iff.mpr ?_, (hmatch tc htc tc htc).mpr rfl, ?_⟩
        · refine Classical.byContradiction (fun hno => ?_)
          rw [(PyDict.get?_eq_none _ _).mpr hno] at h9
          cases h9
        · intro k hk hm
          obtain ⟨tc', htc', e⟩ : ∃ tc' ∈ schema, k = xlSheetName env.case schema caseSpace tc'.1 := by
            refine Classical.byContradiction (fun hno => ?_)
            have h11 := h4 k (fun tc' h e => hno ⟨tc', h, e⟩)
            exact (PyDict.get?_eq_none _ _).mp h11 (hkp.mem_iff.mp hk)
          rw [e] at hm ⊢
          have := String.toList_injective ((hmatch tc' htc' tc htc).mp hm)
          rw [this]
      rw [this])
    unfold xlCreate
    rw [if_pos hdiffer, h5, Option.bind_some, initDat_of policy schema hnames input dat' h7 h6 hk' h8]
    rfl

end Ticdat

import Verif.Props.ExcelCells
/-!
# C48: the round trip through Excel files, and where it fails
-/
namespace Ticdat
open Spec
set_option linter.unusedSimpArgs false

/-- The value of a parameter as it is read from an Excel file. -/
def xlParamSeen (env : XlEnv) (kind : XlKind) (v : Cell) : Cell :=
  match kind with
  | .xls => match v with
    | .none => .str ""
    | .dt d => .str (env.text.text (.dt d))
    | v => v
  | .xlsx => xlsxShow env v

theorem xl_param_survives {env : XlEnv} (hT : XlTextOK env) (cf : IOConf) (hp : cf.params ≠ []) (dv : Defaults) (o : XlOpts)
    (hty : ∀ f, typeOf cf.types "parameters" f = none ∧ dv "parameters" f ≠ some .none) (f f' : String) (k v : Cell)
    (h : XlParam env cf.params o.kind k v) :
    XlCell env cf dv o "parameters" f k k ∧ XlCell env cf dv o "parameters" f' v (xlParamSeen env o.kind v) ∧
      fixParam env.text cf.params k (xlParamSeen env o.kind v) = v := by
  have hread : ∀ g x, x ≠ .str "" → xlReadCell env cf dv o "parameters" g x = some x := by
    intro g x hx
    rw [xlReadCell_plain]
    · simp [readCell]
    · exact hx
    · intro _ _ hnp; exact absurd ⟨hp, rfl⟩ hnp
    · intro _ _ td htd
      rw [(hty g).1] at htd
      cases htd
  have hread0 : ∀ g, xlReadCell env cf dv o "parameters" g (.str "") = some (.str "") := by
    intro g
    rw [xlReadCell_empty env cf dv o "parameters" g _ .none (by simp [readCell])]
    · simp [Cell.numericish, readCell]
    · unfold CsvNullField
      rw [(hty g).1]
      exact (hty g).2
  have hwrite : ∀ g x, x.isNull = false → writeCell env.text cf "parameters" g x = some x := by
    intro g x hx
    simp [writeCell, hp, hx]
  have hstr : ∀ g s, StoredText env o.kind s → XlCell env cf dv o "parameters" g (.str s) (.str s) := by
    rintro g s ⟨h1, h2⟩
    refine ⟨.str s, ?_, hread g _ (by simp [xlFill, h1])⟩
    unfold xlWriteCell
    cases hk : o.kind with
    | xls => rw [xlClean_xls]; simp [jsonWriteCell, hwrite g (.str s) rfl, xlPut, h1]
    | xlsx => rw [xlClean_xlsx]; simp [hwrite g (.str s) rfl, xlsxShow, xlPut, h1, h2 hk]
  obtain ⟨⟨s, rfl, hs⟩, h⟩ := h
  refine ⟨hstr f s hs, ?_⟩
  cases v with
  | other n => exact absurd h id
  | nan => exact absurd h id
  | bool b =>
    obtain ⟨hk, h⟩ := h
    refine ⟨⟨.bool b, ?_, ?_⟩, ?_⟩
    · unfold xlWriteCell
      rw [hk, xlClean_xlsx]
      simp [hwrite f' (.bool b) rfl, xlsxShow, xlPut]
    · rw [hk]; exact hread f' _ (by simp [xlFill])
    · rw [hk]; exact fixParam_asIs _ _ _ _ h
  | str s' =>
    obtain ⟨h1, h2⟩ := h
    have : xlParamSeen env o.kind (.str s') = .str s' := by cases o.kind <;> rfl
    rw [this]
    exact ⟨hstr f' s' h1, fixParam_asIs _ _ _ _ h2⟩
  | none =>
    cases hk : o.kind with
    | xls =>
      simp only [hk] at h
      obtain ⟨td, h1, h2, h3⟩ := h
      refine ⟨⟨.none, ?_, ?_⟩, ?_⟩
      · unfold xlWriteCell
        rw [hk, xlClean_xls]
        simp [jsonWriteCell, writeCell, hp, Cell.isNull, xlPut]
      · rw [hk]; exact hread0 f'
      · have := param_null_survives hT.toTextOK cf.params (.str s) .none td h1 (.inl rfl) h2 h3
        unfold paramTextTrip at this
        simp only [Cell.isNull, if_true, hT.null] at this
        exact this
    | xlsx =>
      simp only [hk] at h
      refine ⟨⟨.none, ?_, ?_⟩, fixParam_asIs _ _ _ _ h⟩
      · unfold xlWriteCell
        rw [hk, xlClean_xlsx]
        simp [writeCell, hp, Cell.isNull, xlsxShow, xlPut]
      · rw [hk]; exact hread f' _ (by simp [xlFill])
  | dt d =>
    obtain ⟨td, h1, h2⟩ := h
    obtain ⟨ht1, ht2, _⟩ := hT.dtText d
    have : xlParamSeen env o.kind (.dt d) = .str (env.text.text (.dt d)) := by cases o.kind <;> rfl
    rw [this]
    refine ⟨⟨.str (env.text.text (.dt d)), ?_, hread f' _ (by simp [xlFill, ht1])⟩, ?_⟩
    · unfold xlWriteCell
      cases hk : o.kind with
      | xls => rw [xlClean_xls]; simp [jsonWriteCell, xlPut, ht1]
      | xlsx => rw [xlClean_xlsx]; simp [hwrite f' (.dt d) rfl, xlsxShow, xlPut, ht1, ht2]
    · have := param_date_survives hT.toTextOK cf.params (.str s) d td h1 h2
      unfold paramTextTrip at this
      simpa [Cell.isNull] using this
  | num y =>
    have hfix : fixParam env.text cf.params (.str s) (.num y) = .num y := by
      unfold fixParam
      cases (PyDict.get? cf.params (.str s)).bind (·.1) <;> simp [dateAdjust, toFloat]
    have htext := param_number_survives hT.toTextOK cf.params (.str s) y h
    unfold paramTextTrip at htext
    simp only [Cell.isNull, Bool.false_eq_true, if_false] at htext
    have htexts : ∀ z, z = .pinf ∨ z = .ninf → env.text.text (.num z) ≠ "" ∧
        env.xlsxText (env.text.text (.num z)) = some (.str (env.text.text (.num z))) := by
      rintro z (rfl | rfl)
      · rw [hT.pinf]; exact ⟨by decide, hT.infText.1⟩
      · rw [hT.ninf]; exact ⟨by decide, hT.infText.2⟩
    cases hk : o.kind with
    | xls =>
      refine ⟨⟨.num y, ?_, ?_⟩, hfix⟩
      · unfold xlWriteCell
        rw [hk, xlClean_xls]
        cases y <;> simp [jsonWriteCell, hwrite f' _ (rfl : (Cell.num _).isNull = false), xlPut]
      · rw [hk]; exact hread f' _ (by simp [xlFill])
    | xlsx =>
      cases y with
      | fin q =>
        refine ⟨⟨.num (.fin q), ?_, ?_⟩, hfix⟩
        · unfold xlWriteCell
          rw [hk, xlClean_xlsx]
          simp [hwrite f' (.num (.fin q)) rfl, xlsxShow, xlPut]
        · rw [hk]; exact hread f' _ (by simp [xlFill])
      | pinf =>
        have ht := htexts .pinf (.inl rfl)
        refine ⟨⟨.str (env.text.text (.num .pinf)), ?_, ?_⟩, htext⟩
        · unfold xlWriteCell
          rw [hk, xlClean_xlsx]
          simp [hwrite f' (.num .pinf) rfl, xlsxShow, xlPut, ht.1, ht.2]
        · rw [hk]; exact hread f' _ (by simp [xlFill, ht.1])
      | ninf =>
        have ht := htexts .ninf (.inr rfl)
        refine ⟨⟨.str (env.text.text (.num .ninf)), ?_, ?_⟩, htext⟩
        · unfold xlWriteCell
          rw [hk, xlClean_xlsx]
          simp [hwrite f' (.num .ninf) rfl, xlsxShow, xlPut, ht.1, ht.2]
        · rw [hk]; exact hread f' _ (by simp [xlFill, ht.1])

theorem tabRows_hasCell (c : TabClass) (hn : c.fields.Nodup) (tab : TabVal) (h : WellShaped c tab) (r : List Cell)
    (hr : r ∈ tabRows tab) (i : Nat) (x : Cell) (hx : r[i]? = some x) :
    ∃ f, c.fields[i]? = some f ∧ HasCell c tab f x := by
  have hdn : c.dfs.Nodup := (List.nodup_append.mp hn).2.1
  cases tab with
  | plain rows =>
    have hpk : c.pks = [] := h.1
    obtain ⟨row, hrow, rfl⟩ := List.mem_map.mp hr
    have hk : PyDict.keys row = c.dfs := h.2 row hrow
    rw [List.getElem?_map, Option.map_eq_some_iff] at hx
    obtain ⟨p, hp, rfl⟩ := hx
    refine ⟨p.1, ?_, row, hrow, ?_⟩
    · unfold TabClass.fields
      rw [hpk, List.nil_append, ← hk]
      unfold PyDict.keys
      rw [List.getElem?_map, hp]; rfl
    · exact PyDict.get?_of_mem (by rw [hk]; exact hdn) (List.mem_of_getElem? hp)
  | keyed d =>
    obtain ⟨p, hp, rfl⟩ := List.mem_map.mp hr
    have h1 := (h.2.2 p hp).1
    have hk : PyDict.keys p.2 = c.dfs := (h.2.2 p hp).2
    have hlen := keyCells_length _ _ h1
    unfold TabClass.fields
    by_cases hi : i < (keyCells p.1).length
    · rw [List.getElem?_append_left hi] at hx
      have hi' : i < c.pks.length := by omega
      refine ⟨c.pks[i], ?_, p, hp, .inl ⟨i, List.getElem?_eq_getElem hi', hx⟩⟩
      rw [List.getElem?_append_left hi']
      exact List.getElem?_eq_getElem hi'
    · rw [List.getElem?_append_right (by omega), List.getElem?_map, Option.map_eq_some_iff] at hx
      obtain ⟨q, hq, rfl⟩ := hx
      refine ⟨q.1, ?_, p, hp, .inr ?_⟩
      · rw [List.getElem?_append_right (by omega), ← hk]
        unfold PyDict.keys
        rw [List.getElem?_map, ← hlen, hq]; rfl
      · exact PyDict.get?_of_mem (by rw [hk]; exact hdn) (List.mem_of_getElem? hq)

/-- As `xl_round_trip`, for whatever cells survive. -/
theorem xl_trip_cells (env : XlEnv) (hT : XlTextOK env) (laws : CaseLaws env.case) (hs : SimpleCase env.case) (cf : IOConf)
    (dv : Defaults) (policy : DupPolicy) (o : XlOpts) (ho : o.headers = true) (allowOverwrite caseSpace : Bool)
    (schema : List (String × TabClass)) (hoff : ∀ tc ∈ schema, o.offset tc.1 = 0)
    (hg : goodTableNames env.case (schema.map (fun tc => tc.1.toList)) = true)
    (hlow : (schema.map (fun tc => (env.case.lower tc.1.toList).take longestSheet)).Nodup)
    (hrt : ∀ tc ∈ schema, CaseRoundTrip env.case tc.1.toList)
    (hok : ∀ tc ∈ schema, okSheetName o.kind (xlSheetName env.case schema caseSpace tc.1) = true)
    (hf : ∀ tc ∈ schema, tc.2.fields ≠ [] ∧ ((tc.2.fields.map String.toList).map env.case.lower).Nodup ∧
      ∀ f ∈ tc.2.fields, HeaderText env o.kind f)
    (dat : PyDict String TabVal) (hk : PyDict.keys dat = schema.map Prod.fst)
    (hw : ∀ tc ∈ schema, ∀ tab, PyDict.get? dat tc.1 = some tab → WellShaped tc.2 tab)
    (hc : ∀ tc ∈ schema, ∀ tab, PyDict.get? dat tc.1 = some tab → ¬ IsParams cf.params tc.1 → ∀ f x,
      HasCell tc.2 tab f x → ∃ w, xlWriteCell env cf o.kind tc.1 f x = some w ∧
        xlReadCell env cf dv o tc.1 f (xlFill o.kind w) = some x ∧ (Visible cf x → w ≠ .none))
    (hlast : ∀ tc ∈ schema, ∀ tab, PyDict.get? dat tc.1 = some tab → ¬ IsParams cf.params tc.1 → ∀ r,
      (tabRows tab).getLast? = some r → ∃ x ∈ r, Visible cf x)
    (hp : ∀ tab, PyDict.get? dat "parameters" = some tab → cf.params ≠ [] →
      ParamEntries (XlParam env cf.params o.kind) tab)
    (hty : cf.params ≠ [] → ∀ f, typeOf cf.types "parameters" f = none ∧ dv "parameters" f ≠ some .none)
    (existing : Option Book) (hover : allowOverwrite = true ∨ existing = none) :
    ∃ book, xlWrite env cf o.kind allowOverwrite caseSpace schema dat existing = some book ∧
      ∀ book', List.Perm book' book → xlCreate env cf dv policy o schema book' = some dat := by
  have hnames : (schema.map Prod.fst).Nodup := by
    have hg' : goodTableNames env.case ((schema.map Prod.fst).map String.toList) = true := by
      rw [List.map_map]; exact hg
    exact nodup_of_map _ (nodup_of_map _ ((goodTableNames_iff env.case _).mp hg').2.2)
  have hfn : ∀ tc ∈ schema, tc.2.fields.Nodup := fun tc htc => nodup_of_map _ (nodup_of_map _ (hf tc htc).2.1)
  obtain ⟨dat', hk', hpost, hrel⟩ := params_view env.text cf.params (xlParamSeen env o.kind) schema hnames hfn dat hk hw
    (fun t f x y => XlCell env cf dv o t f x y)
    (fun tc htc tab hget hnp f x hx => by
      obtain ⟨w, h1, h2, _⟩ := hc tc htc tab hget hnp f x hx
      exact ⟨w, h1, h2⟩)
    (XlParam env cf.params o.kind) hp
    (fun hpar f f' k v hkv => xl_param_survives hT cf hpar dv o (hty hpar) f f' k v hkv)
  obtain ⟨book, h1, h2⟩ := xl_read_back env laws hs cf dv policy o ho allowOverwrite caseSpace schema hoff hg hlow hrt hok hf
    dat dat' hk' hrel (by
      intro tc htc tab hget r hr
      have hmem : r ∈ tabRows tab := List.mem_of_getLast? hr
      by_cases hpar : IsParams cf.params tc.1
      · obtain ⟨hpar, ht⟩ := hpar
        have hent := hp tab (ht ▸ hget) hpar
        cases tab with
        | plain rows => exact absurd hent id
        | keyed d =>
          obtain ⟨p, hpd, rfl⟩ := List.mem_map.mp hmem
          obtain ⟨k, f, v, he, hP⟩ := hent p hpd
          obtain ⟨⟨s, rfl, hs1, hs2⟩, _⟩ := hP
          obtain ⟨f0, hf0, _⟩ := tabRows_hasCell tc.2 (hfn tc htc) (.keyed d) (hw tc htc _ hget) _ hmem 0 (.str s)
            (by rw [he]; rfl)
          refine ⟨0, f0, .str s, .str s, hf0, by rw [he]; rfl, ?_, by simp⟩
          unfold xlWriteCell
          rw [ht]
          cases hkd : o.kind with
          | xls => rw [xlClean_xls]; simp [jsonWriteCell, writeCell, hpar, Cell.isNull, xlPut, hs1]
          | xlsx => rw [xlClean_xlsx]; simp [writeCell, hpar, Cell.isNull, xlsxShow, xlPut, hs1, hs2 hkd]
      · obtain ⟨x, hx, hv⟩ := hlast tc htc tab hget hpar r hr
        obtain ⟨i, hi⟩ := List.mem_iff_getElem?.mp hx
        obtain ⟨f, hf0, hcell⟩ := tabRows_hasCell tc.2 (hfn tc htc) tab (hw tc htc _ hget) r hmem i x hi
        obtain ⟨w, h3, _, h4⟩ := hc tc htc tab hget hpar f x hcell
        exact ⟨i, f, x, w, hf0, hi, h3, h4 hv⟩) existing hover
  exact ⟨book, h1, fun book' hp => by rw [h2 book' hp, hpost]⟩

/-- **C48.**  Writing a data object into an Excel file and reading it back gives the same object: the same tables with the
same keys and rows in the same order, with or without pretty sheet names, pruning trailing rows or not, provided that the
cells are of the kinds the file format can hold, as spelled out in `XlSafe` and `XlParam`, and that the last row of no
table is blank. -/
theorem xl_round_trip (env : XlEnv) (hT : XlTextOK env) (laws : CaseLaws env.case) (hs : SimpleCase env.case) (cf : IOConf)
    (dv : Defaults) (policy : DupPolicy) (o : XlOpts) (ho : o.headers = true) (allowOverwrite caseSpace : Bool)
    (schema : List (String × TabClass)) (hoff : ∀ tc ∈ schema, o.offset tc.1 = 0)
    (hg : goodTableNames env.case (schema.map (fun tc => tc.1.toList)) = true)
    (hlow : (schema.map (fun tc => (env.case.lower tc.1.toList).take longestSheet)).Nodup)
    (hrt : ∀ tc ∈ schema, CaseRoundTrip env.case tc.1.toList)
    (hok : ∀ tc ∈ schema, okSheetName o.kind (xlSheetName env.case schema caseSpace tc.1) = true)
    (hf : ∀ tc ∈ schema, tc.2.fields ≠ [] ∧ ((tc.2.fields.map String.toList).map env.case.lower).Nodup ∧
      ∀ f ∈ tc.2.fields, HeaderText env o.kind f)
    (dat : PyDict String TabVal) (hk : PyDict.keys dat = schema.map Prod.fst)
    (hw : ∀ tc ∈ schema, ∀ tab, PyDict.get? dat tc.1 = some tab → WellShaped tc.2 tab)
    (hc : ∀ tc ∈ schema, ∀ tab, PyDict.get? dat tc.1 = some tab → ¬ IsParams cf.params tc.1 → ∀ f x,
      HasCell tc.2 tab f x → XlSafe env cf dv o tc.1 f x)
    (hlast : ∀ tc ∈ schema, ∀ tab, PyDict.get? dat tc.1 = some tab → ¬ IsParams cf.params tc.1 → ∀ r,
      (tabRows tab).getLast? = some r → ∃ x ∈ r, Visible cf x)
    (hp : ∀ tab, PyDict.get? dat "parameters" = some tab → cf.params ≠ [] →
      ParamEntries (XlParam env cf.params o.kind) tab)
    (hty : cf.params ≠ [] → ∀ f, typeOf cf.types "parameters" f = none ∧ dv "parameters" f ≠ some .none)
    (existing : Option Book) (hover : allowOverwrite = true ∨ existing = none) :
    ∃ book, xlWrite env cf o.kind allowOverwrite caseSpace schema dat existing = some book ∧
      ∀ book', List.Perm book' book → xlCreate env cf dv policy o schema book' = some dat :=
  xl_trip_cells env hT laws hs cf dv policy o ho allowOverwrite caseSpace schema hoff hg hlow hrt hok hf dat hk hw
    (fun tc htc tab hget hnp f x hx => xl_cell_stored hT cf dv o tc.1 f x hnp (hc tc htc tab hget hnp f x hx)) hlast hp hty existing hover

/-! ### Findings -/

/-- The plain configuration: no types, no flag, no parameters. -/
def plainIO : IOConf := ⟨[], .na, false, []⟩

theorem readCell_plainIO (env : TextEnv) (t f : String) (x : Cell) : readCell env plainIO t f x = some x := by
  simp [readCell, plainIO, DataTypes.at, PyDict.get?]

/-- Text that xlsxwriter takes for a formula comes back as what the file has for its result. -/
theorem xlsx_formula_text_changes (env : XlEnv) (dv : Defaults) (o : XlOpts) (hk : o.kind = .xlsx) (t f : String)
    (h : env.xlsxText "=A1" = some (.num (.fin 0))) : XlCell env plainIO dv o t f (.str "=A1") (.num (.fin 0)) := by
  refine ⟨.num (.fin 0), ?_, ?_⟩
  · simp [xlWriteCell, xlClean, hk, plainIO, xlsxShow, xlPut, h]
  · rw [xlReadCell_plain] <;> simp [xlFill, readCell_plainIO, NoDates, hk]

/-- Empty text comes back from an `.xlsx` file as `None`, also in fields whose type allows text and no null. -/
theorem xlsx_empty_text_becomes_none (env : XlEnv) (dv : Defaults) (o : XlOpts) (hk : o.kind = .xlsx) (t f : String) :
    let td : TypeDict := ⟨false, false, false, .fin 0, .pinf, false, .any, false, false⟩
    let cf : IOConf := ⟨[(t, [(f, td)])], .na, false, []⟩
    Valid env.text.parses td (.str "") ∧ ¬ Valid env.text.parses td .none ∧ XlCell env cf dv o t f (.str "") .none := by
  refine ⟨.inr (.inr (.inr ⟨rfl, "", rfl, .inl rfl⟩)), ?_, .none, ?_, ?_⟩
  · rintro (⟨_, h⟩ | ⟨h, _⟩ | ⟨_, _, h, _⟩ | ⟨_, _, h, _⟩)
    · cases h
    · exact h (.inl rfl)
    · cases h
    · cases h
  · simp [xlWriteCell, xlClean, hk, xlsxShow, xlPut]
  · rw [xlReadCell_plain]
    · simp only [xlFill, hk]
      simp [readCell, DataTypes.at, PyDict.get?, Cell.isNull]
    · simp [xlFill, hk]
    · simp [xlFill, hk]
    · simp [xlFill, hk, Cell.numericish]

/-- A Boolean comes back from an `.xls` file as a number. -/
theorem xls_boolean_becomes_number (env : XlEnv) (dv : Defaults) (o : XlOpts) (hk : o.kind = .xls) (t f : String) :
    XlCell env plainIO dv o t f (.bool true) (.num (.fin 1)) := by
  refine ⟨.num (.fin 1), ?_, ?_⟩
  · simp [xlWriteCell, xlClean, hk, plainIO, writeCell, xlPut]
  · rw [xlReadCell_plain]
    · exact readCell_plainIO ..
    · simp [xlFill]
    · simp [xlFill]
    · intro _ _ td htd
      simp [typeOf, plainIO] at htd

/-- A number in a datetime field of an `.xls` file comes back as the date that Excel has for it, and NaN as `None`. -/
theorem xls_number_becomes_date (env : XlEnv) (dv : Defaults) (o : XlOpts) (hk : o.kind = .xls) (t f : String) (td : TypeDict)
    (htd : td.datetime = true) (q : Rat) (d : Nat) (hd : env.xldate (.fin q) = some d) :
    XlCell env ⟨[(t, [(f, td)])], .na, false, []⟩ dv o t f (.num (.fin q)) (.dt d) ∧
      XlCell env ⟨[(t, [(f, td)])], .na, false, []⟩ dv o t f .nan .none := by
  refine ⟨⟨.num (.fin q), ?_, ?_⟩, ⟨.nan, ?_, ?_⟩⟩
  · simp [xlWriteCell, xlClean, hk, writeCell, xlPut]
  · unfold xlReadCell
    simp [xlFill, xlTreatInf, xlInfText, DataTypes.at, PyDict.get?, htd, hk, xlDate, hd, Cell.numericish, readCell, dateAdjust,
      Cell.isNull]
  · simp [xlWriteCell, xlClean, hk, writeCell, xlPut]
  · unfold xlReadCell
    simp [xlFill, xlTreatInf, xlInfText, DataTypes.at, PyDict.get?, htd, hk, xlDate, Cell.numericish, readCell, dateAdjust,
      Cell.isNull]

/-- `None` comes back from an `.xls` file as empty text in a field without type, unless `None` is its default value. -/
theorem xls_none_becomes_text (env : XlEnv) (dv : Defaults) (o : XlOpts) (hk : o.kind = .xls) (t f : String)
    (hd : dv t f ≠ some .none) : XlCell env plainIO dv o t f .none (.str "") := by
  refine ⟨.none, ?_, ?_⟩
  · simp [xlWriteCell, xlClean, hk, plainIO, writeCell, xlPut]
  · rw [hk]
    show xlReadCell env plainIO dv o t f (.str "") = _
    rw [xlReadCell_empty env plainIO dv o t f _ .none (readCell_plainIO ..)]
    · simp [Cell.numericish, readCell_plainIO]
    · simpa [CsvNullField, typeOf, plainIO] using hd

/-- Text that spells an infinity comes back as one, in both kinds of files. -/
theorem xl_infinity_text_becomes_number (env : XlEnv) (dv : Defaults) (o : XlOpts) (hti : o.treatInf = true) (t f : String)
    (h : env.case.lower "Inf".toList = "inf".toList) (h2 : env.xlsxText "Inf" = some (.str "Inf")) :
    XlCell env plainIO dv o t f (.str "Inf") (.num .pinf) := by
  refine ⟨.str "Inf", ?_, ?_⟩
  · cases hk : o.kind <;> simp [xlWriteCell, xlClean, plainIO, writeCell, xlsxShow, xlPut, h2]
  · refine xlReadCell_inf env plainIO dv o t f "Inf" .pinf (by simp [xlTreatInf, hti, plainIO]) (by decide) ?_
    unfold xlInfText
    simp only [h, if_true]

/-- Under the flag `None` an infinity in a field without type comes back from an `.xlsx` file as the text `inf`. -/
theorem xlsx_infinity_becomes_text {env : XlEnv} (hT : XlTextOK env) (dv : Defaults) (o : XlOpts) (hk : o.kind = .xlsx)
    (t f : String) : XlCell env ⟨[], .none, false, []⟩ dv o t f (.num .pinf) (.str "inf") := by
  refine ⟨.str "inf", ?_, ?_⟩
  · simp [xlWriteCell, xlClean, hk, writeCell, infBias, DataTypes.at, PyDict.get?, xlsxShow, xlPut, hT.pinf, hT.infText.1]
  · rw [xlReadCell_plain] <;> simp [xlFill, readCell, DataTypes.at, PyDict.get?, Cell.numericish]

/-- NaN cannot be written to an `.xlsx` file. -/
theorem xlsx_nan_raises (env : XlEnv) (t f : String) : xlWriteCell env plainIO .xlsx t f .nan = none := by
  simp [xlWriteCell, xlClean, plainIO, xlsxShow, xlPut]

/-! ### Non-vacuity -/

/-- An environment for examples. -/
def demoXl : XlEnv where
  text := unaryText
  case := asciiEnv
  xlsxText := fun s => if s.toList.head? = some '=' then some (.num (.fin 0)) else some (.str s)
  xldate := fun _ => none

theorem asciiLow_d (n : Nat) : asciiEnv.lower (List.replicate (n + 1) 'd') = List.replicate (n + 1) 'd' := by
  induction n with
  | zero => decide
  | succ n ih =>
    rw [List.replicate_succ, show asciiEnv.lower ('d' :: List.replicate (n + 1) 'd') =
      asciiEnv.lo 'd' ++ asciiEnv.lower (List.replicate (n + 1) 'd') from rfl, ih]
    rfl

theorem demoXl_ok : XlTextOK demoXl where
  toTextOK := unaryText_ok
  pinf := rfl
  ninf := rfl
  infText := by decide +kernel
  infLower := by decide +kernel
  dtText := by
    intro d
    refine ⟨?_, ?_, ?_, ?_⟩
    · intro h
      have := congrArg String.length h
      simp [demoXl, unaryText] at this
    · simp [demoXl, unaryText, List.replicate_succ]
    · intro h
      have h : asciiEnv.lower (String.ofList (List.replicate (d + 1) 'd')).toList = "inf".toList := h
      rw [String.toList_ofList, asciiLow_d, List.replicate_succ] at h
      have := congrArg List.head? h
      revert this
      simp
    · intro h
      have h : asciiEnv.lower (String.ofList (List.replicate (d + 1) 'd')).toList = "-inf".toList := h
      rw [String.toList_ofList, asciiLow_d, List.replicate_succ] at h
      have := congrArg List.head? h
      revert this
      simp

def demoOpts (kind : XlKind) (prune : Bool) (off : Nat) : XlOpts := ⟨kind, prune, true, true, fun _ => off⟩

/-- The last row of a table vanishes from an Excel file if all its cells are `None`, even in a field whose type allows
`None`: what is read has one row less. -/
theorem xl_trailing_row_lost (kind : XlKind) (prune : Bool) :
    let dat : PyDict String TabVal := [("t", .plain [[("a", .str "x")], [("a", .none)]])]
    let dv : Defaults := fun _ _ => some .none
    (xlWrite demoXl plainIO kind false false [("t", ⟨[], ["a"], []⟩)] dat none).bind
      (xlCreate demoXl plainIO dv .assert (demoOpts kind prune 0) [("t", ⟨[], ["a"], []⟩)]) =
      some [("t", .plain [[("a", .str "x")]])] := by
  cases kind <;> cases prune <;> decide +kernel

/-- Two rows for one key in a sheet: the last one is kept, without complaint even if duplicates are to be asserted
against (the reader builds a dictionary itself). -/
theorem xl_duplicates_unnoticed :
    xlCreate demoXl plainIO (fun _ f => if f = "b" then some (.num (.fin 0)) else none) .assert (demoOpts .xlsx true 0)
      [("t", ⟨["a"], ["b"], []⟩)] [("t".toList, [[.str "a", .str "b"], [.str "x", .num (.fin 5)], [.str "x", .num (.fin 12)]])] =
      some [("t", .keyed [(.one (.str "x"), [("b", .num (.fin 12))])])] := by decide +kernel

/-- C49 on a sheet: other columns, another order, headers in another case, a title row. -/
example : xlCreate demoXl plainIO (fun _ f => if f = "b" then some (.num (.fin 0)) else none) .assert (demoOpts .xlsx true 1)
      [("t", ⟨["a"], ["b"], []⟩)] [("T".toList, [[.str "title"], [.str "B", .str "note", .str "a"],
        [.num (.fin 5), .none, .str "x"], [.num (.fin 6), .str "n", .str "y"]])] =
      some [("t", .keyed [(.one (.str "x"), [("b", .num (.fin 5))]), (.one (.str "y"), [("b", .num (.fin 6))])])] := by
  decide +kernel

/-- The blank row on top costs a row of data. -/
example : xlCreate demoXl plainIO (fun _ f => if f = "b" then some (.num (.fin 0)) else none) .assert (demoOpts .xlsx true 1)
      [("t", ⟨["a"], ["b"], []⟩)] [("t".toList, [[], [.str "a", .str "b"], [.str "x", .num (.fin 5)], [.str "y", .num (.fin 6)]])] =
      some [("t", .keyed [(.one (.str "x"), [("b", .num (.fin 5))])])] := by
  decide +kernel

/-- The columns of a header row. -/
example : HeaderColumns asciiEnv [.str "B", .str "note", .str "a"] ["a", "b"] [2, 0] := by
  refine ⟨rfl, ?_⟩
  intro i f j hf hj j'
  match i with
  | 0 =>
    simp at hf hj
    subst hf hj
    constructor
    · rintro ⟨s, h, h'⟩
      match j' with
      | 0 => simp at h; subst h; revert h'; decide +kernel
      | 1 => simp at h; subst h; revert h'; decide +kernel
      | 2 => rfl
      | n + 3 => simp at h
    · rintro rfl
      exact ⟨"a", rfl, by decide +kernel⟩
  | 1 =>
    simp at hf hj
    subst hf hj
    constructor
    · rintro ⟨s, h, h'⟩
      match j' with
      | 0 => rfl
      | 1 => simp at h; subst h; revert h'; decide +kernel
      | 2 => simp at h; subst h; revert h'; decide +kernel
      | n + 3 => simp at h
    · rintro rfl
      exact ⟨"B", rfl, by decide +kernel⟩
  | n + 2 => simp at hf

/-- The round trip for both kinds of files. -/
example (kind : XlKind) (prune : Bool) : ∃ book, xlWrite demoXl plainIO kind true true
      [("food_list", ⟨["name"], ["cost", "kind"], []⟩)] csvExampleDat (some []) = some book ∧
      ∀ book', List.Perm book' book → xlCreate demoXl plainIO csvExampleDefaults .assert (demoOpts kind prune 0)
        [("food_list", ⟨["name"], ["cost", "kind"], []⟩)] book' = some csvExampleDat := by
  have hcell : ∀ f x, HasCell ⟨["name"], ["cost", "kind"], []⟩ (.keyed [(.one (.str "milk"),
      [("cost", .num (.fin 2)), ("kind", .none)]), (.one (.str "egg"), [("cost", .num .pinf), ("kind", .str "a")])]) f x →
      (f = "name" ∧ (x = .str "milk" ∨ x = .str "egg")) ∨ (f = "cost" ∧ (x = .num (.fin 2) ∨ x = .num .pinf)) ∨
        (f = "kind" ∧ (x = .none ∨ x = .str "a")) := by
    intro f x h
    simp only [HasCell, List.mem_cons, List.not_mem_nil, or_false] at h
    obtain ⟨p, hp, h⟩ := h
    rcases hp with hp | hp <;> subst hp <;> rcases h with ⟨i, hf, hi⟩ | h
    all_goals first
      | (rcases i with _ | i <;> simp [keyCells] at hi hf; subst hi hf; simp; done)
      | (simp only [PyDict.get?] at h; repeat' split at h
         all_goals first
           | (cases h; done)
           | (rename_i e; subst e; cases h; simp; done)
           | (rename_i e _; subst e; cases h; simp; done))
  refine xl_round_trip demoXl demoXl_ok asciiLaws asciiSimple plainIO csvExampleDefaults .assert (demoOpts kind prune 0) rfl
    true true [("food_list", ⟨["name"], ["cost", "kind"], []⟩)] (by simp [demoOpts]) (by decide +kernel) (by decide +kernel)
    (by intro tc h; simp at h; subst h; exact asciiRoundTrip _)
    (by intro tc h; simp at h; subst h; cases kind <;> cases prune <;> decide +kernel)
    (by
      intro tc h
      simp at h
      subst h
      refine ⟨by simp [TabClass.fields], by decide +kernel, ?_⟩
      intro f hf
      simp [TabClass.fields] at hf
      rcases hf with rfl | rfl | rfl <;> refine ⟨by decide, by decide +kernel, fun _ => by decide +kernel⟩)
    csvExampleDat rfl ?_ ?_ ?_ ?_ (by simp [plainIO]) (some []) (.inl rfl)
  · intro tc htc tab htab
    simp at htc
    subst htc
    simp [csvExampleDat, PyDict.get?] at htab
    subst htab
    refine ⟨by simp, by decide, ?_⟩
    intro p hp
    simp at hp
    rcases hp with rfl | rfl <;> exact ⟨rfl, rfl⟩
  · intro tc htc tab htab _ f x hx
    simp at htc
    subst htc
    simp [csvExampleDat, PyDict.get?] at htab
    subst htab
    have hty : ∀ f, typeOf plainIO.types "food_list" f = none := fun f => rfl
    have hfl : plainIO.flag = .na := rfl
    have h1 : asciiEnv.lower "milk".toList ≠ "inf".toList ∧ asciiEnv.lower "milk".toList ≠ "-inf".toList := by decide +kernel
    have h2 : asciiEnv.lower "egg".toList ≠ "inf".toList ∧ asciiEnv.lower "egg".toList ≠ "-inf".toList := by decide +kernel
    have h3 : asciiEnv.lower "a".toList ≠ "inf".toList ∧ asciiEnv.lower "a".toList ≠ "-inf".toList := by decide +kernel
    rcases hcell f x hx with ⟨rfl, rfl | rfl⟩ | ⟨rfl, rfl | rfl⟩ | ⟨rfl, rfl | rfl⟩ <;>
      refine ⟨?_, ?_⟩
    all_goals first
      | exact ⟨fun _ _ => h1, .inl ⟨by decide, fun _ => by decide +kernel⟩⟩
      | exact ⟨fun _ _ => h2, .inl ⟨by decide, fun _ => by decide +kernel⟩⟩
      | exact ⟨fun _ _ => h3, .inl ⟨by decide, fun _ => by decide +kernel⟩⟩
      | (simp [JsonSafe, ReadAsIs, FlagSafe, hty, hfl, NoDates, CsvNullField, csvExampleDefaults, demoOpts]; done)
  · intro tc htc tab htab _ r hr
    simp at htc
    subst htc
    simp [csvExampleDat, PyDict.get?] at htab
    subst htab
    simp [tabRows, keyCells] at hr
    subst hr
    exact ⟨.str "egg", by simp, by simp, by simp, by simp [plainIO]⟩
  · intro tab h
    simp [csvExampleDat, PyDict.get?] at h

/-- Parameters that survive: a number, a text, and in an `.xlsx` file `None`, where no types are given. -/
example : XlParam demoXl [(.str "p", (none, .num (.fin 1)))] .xls (.str "p") (.num .pinf) ∧
    XlParam demoXl [(.str "p", (none, .num (.fin 1)))] .xlsx (.str "p") .none ∧
    XlParam demoXl [(.str "p", (none, .num (.fin 1)))] .xlsx (.str "q") (.str "low") := by
  have h : ∀ s, s ≠ "" → s.toList.head? ≠ some '=' → ∀ k, StoredText demoXl k s := by
    intro s h1 h2 k
    exact ⟨h1, fun _ => by simp [demoXl, h2]⟩
  refine ⟨⟨⟨"p", rfl, h _ (by decide) (by decide) _⟩, ?_⟩, ⟨⟨"p", rfl, h _ (by decide) (by decide) _⟩, ?_⟩,
    ⟨⟨"q", rfl, h _ (by decide) (by decide) _⟩, h _ (by decide) (by decide) _, ?_⟩⟩
  · intro td htd
    simp [paramType, PyDict.get?] at htd
  · simp [ParamAsIs, paramType, PyDict.get?]
  · simp only [ParamAsIs, paramType, PyDict.get?]
    refine ⟨by simp, ?_⟩
    intro s hs
    cases hs
    decide +kernel

/-- A sheet without headers. -/
example : xlCreate demoXl plainIO (fun _ f => if f = "b" then some (.num (.fin 0)) else none) .assert
      ⟨.xls, true, false, true, fun _ => 1⟩
      [("t", ⟨["a"], ["b"], []⟩)] [("t".toList, [[], [.str "x", .num (.fin 5)], [.str "y", .num (.fin 6), .str "n"]])] =
      some [("t", .keyed [(.one (.str "x"), [("b", .num (.fin 5))]), (.one (.str "y"), [("b", .num (.fin 6))])])] := by
  decide +kernel

/-- **C48, the sheet names that are accepted.**  From 1 to 31 characters, none of them a bracket, colon, asterisk, question mark, slash,
backslash or null, no apostrophe at the begin and, for xlsx, none at the end.  A schema with another name cannot be written. -/
theorem xl_sheet_names (env : XlEnv) (cf : IOConf) (kind : XlKind) (allowOverwrite caseSpace : Bool) (schema : List (String × TabClass))
    (dat : PyDict String TabVal) (existing : Option Book) :
    (∀ s, okSheetName kind s = true ↔ 1 ≤ s.length ∧ s.length ≤ 31 ∧
      (∀ c ∈ s, c ≠ '[' ∧ c ≠ ']' ∧ c ≠ ':' ∧ c ≠ '*' ∧ c ≠ '?' ∧ c ≠ '/' ∧ c ≠ '\\' ∧ c ≠ '\x00') ∧
      (∀ r, s ≠ '\'' :: r) ∧ (kind ≠ .xls → ∀ r, s ≠ r ++ ['\''])) ∧
    ((∃ tc ∈ schema, okSheetName kind (xlSheetName env.case schema caseSpace tc.1) = false) →
      xlWrite env cf kind allowOverwrite caseSpace schema dat existing = none) := by
  constructor
  · intro s
    have hlast : (s.getLast? = some '\'') ↔ ∃ r, s = r ++ ['\''] := List.getLast?_eq_some_iff
    have hhead : (s.head? = some '\'') ↔ ∃ r, s = '\'' :: r := by cases s <;> simp
    have hlen : (s.isEmpty = false) ↔ 1 ≤ s.length := by cases s <;> simp
    unfold okSheetName
    simp only [Bool.and_eq_true, Bool.or_eq_true, Bool.not_eq_true', decide_eq_true_eq, decide_eq_false_iff_not, List.all_eq_true, hlen,
      hhead, hlast, not_exists, and_assoc]
    refine and_congr_right fun _ => and_congr_right fun _ => and_congr ?_ (and_congr_right fun _ => ?_)
    · refine forall_congr' fun c => forall_congr' fun _ => ?_
      simp [and_assoc]
    · by_cases hk : kind = .xls <;> simp [hk]
  · rintro ⟨tc, htc, h⟩
    unfold xlWrite
    rw [if_neg]
    simp only [Bool.and_eq_true, List.all_eq_true, List.mem_map]
    rintro ⟨⟨_, hall⟩, _⟩
    rw [hall _ ⟨tc, htc, rfl⟩] at h
    cases h

end Ticdat

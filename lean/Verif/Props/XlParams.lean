import Verif.Spec.XlParams
import Verif.Props.XlBack
import Verif.Props.SqlParams
/-!
# C48: which objects an Excel file keeps, with parameters
-/
set_option linter.unusedSectionVars false
set_option linter.unusedSimpArgs false
namespace Ticdat
open Spec

/-- How a cell of the parameters table travels through an Excel file. -/
theorem xl_param_put {env : XlEnv} (cf : IOConf) (hp : cf.params ≠ []) (dv : Defaults) (o : XlOpts)
    (hty : ∀ f, typeOf cf.types "parameters" f = none ∧ dv "parameters" f ≠ some .none) (g : String) (x y : Cell) :
    XlCell env cf dv o "parameters" g x y ↔ ∃ w, xlWriteCell env cf o.kind "parameters" g x = some w ∧ y = xlFill o.kind w := by
  have hread : ∀ x, xlReadCell env cf dv o "parameters" g x = some x := by
    intro x
    by_cases hx : x = .str ""
    · subst hx
      rw [xlReadCell_empty env cf dv o "parameters" g _ .none (by simp [readCell])]
      · simp [Cell.numericish, readCell]
      · unfold CsvNullField
        rw [(hty g).1]
        exact (hty g).2
    · rw [xlReadCell_plain]
      · simp [readCell]
      · exact hx
      · intro _ _ hnp; exact absurd ⟨hp, rfl⟩ hnp
      · intro _ _ td htd
        rw [(hty g).1] at htd
        cases htd
  unfold XlCell
  simp only [hread, Option.some.injEq]
  constructor
  · rintro ⟨w, h1, h2⟩; exact ⟨w, h1, h2.symm⟩
  · rintro ⟨w, h1, h2⟩; exact ⟨w, h1, h2.symm⟩

theorem xl_param_write_xls {env : XlEnv} (cf : IOConf) (hp : cf.params ≠ []) (g : String) (x : Cell) :
    xlWriteCell env cf .xls "parameters" g x =
      match x with
      | .none => some .none
      | .nan => some .none
      | .num y => some (.num y)
      | .bool b => some (.num (.fin (if b then 1 else 0)))
      | .str s => some (if s = "" then .none else .str s)
      | .dt d => some (if env.text.text (.dt d) = "" then .none else .str (env.text.text (.dt d)))
      | .other _ => none := by
  unfold xlWriteCell
  rw [xlClean_xls]
  cases x with
  | num y => cases y <;> simp [jsonWriteCell, writeCell, hp, Cell.isNull, xlPut]
  | str s =>
    simp only [jsonWriteCell, writeCell, hp, Cell.isNull, xlPut, ne_eq, not_false_eq_true, and_self, if_true, Bool.false_eq_true, if_false,
      Option.bind_some]
    split <;> rfl
  | dt d =>
    simp only [jsonWriteCell, xlPut, if_true, Option.bind_some]
    split <;> rfl
  | _ => simp [jsonWriteCell, writeCell, hp, Cell.isNull, xlPut]

theorem xl_param_write_xlsx {env : XlEnv} (hT : XlTextOK env) (cf : IOConf) (hp : cf.params ≠ []) (g : String) (x : Cell) :
    xlWriteCell env cf .xlsx "parameters" g x =
      match x with
      | .none => some .none
      | .nan => some .none
      | .num .pinf => some (.str "inf")
      | .num .ninf => some (.str "-inf")
      | .num y => some (.num y)
      | .bool b => some (.bool b)
      | .str s => if s = "" then some .none else env.xlsxText s
      | .dt d => some (.str (env.text.text (.dt d)))
      | .other _ => none := by
  unfold xlWriteCell
  rw [xlClean_xlsx]
  cases x with
  | num y =>
    cases y with
    | fin q => simp [writeCell, hp, Cell.isNull, xlPut, xlsxShow]
    | pinf => simp [writeCell, hp, Cell.isNull, xlPut, xlsxShow, hT.pinf, hT.infText]
    | ninf => simp [writeCell, hp, Cell.isNull, xlPut, xlsxShow, hT.ninf, hT.infText]
  | str s => simp [writeCell, hp, Cell.isNull, xlPut, xlsxShow]
  | dt d => simp [writeCell, hp, Cell.isNull, xlPut, xlsxShow, (hT.dtText d).1, (hT.dtText d).2.1]
  | _ => simp [writeCell, hp, Cell.isNull, xlPut, xlsxShow]

/-- The adjustment makes no text of anything else. -/
theorem fix_to_text (env : TextEnv) (params : Params) (k w : Cell) (s : String) (h : fixParam env params k w = .str s) : w = .str s := by
  cases w with
  | str s' =>
    rcases fix_text_cases env params k s' with ⟨h4, _⟩ | ⟨_, h4, _⟩ | ⟨y, h4, _⟩ | h4
    · rw [h] at h4; cases h4
    · rw [h] at h4; cases h4
    · rw [h] at h4
      rcases floatCell_cases y with h5 | ⟨x, h5⟩ <;> rw [h5] at h4 <;> cases h4
    · rw [← h4]; exact h
  | _ =>
    exfalso
    revert h
    unfold fixParam
    rw [paramType_eq]
    cases paramType params k with
    | none => simp [toFloat]
    | some td =>
      simp only [Option.map_some, Option.getD_some]
      split
      · simp
      · split
        · split <;> simp
        · split <;> simp [toFloat]

/-- `None` comes back from the empty text. -/
theorem fix_empty_none {env : TextEnv} (hT : TextOK env) (params : Params) (k : Cell) :
    fixParam env params k (.str "") = .none ↔ ∃ td, paramType params k = some td ∧ td.nullable = true ∧ ¬ Valid env.parses td (.str "") := by
  constructor
  · intro h
    rcases fix_text_cases env params k "" with ⟨_, _, h1⟩ | ⟨d, h1, _⟩ | ⟨y, h1, h2, _⟩ | h1
    · exact h1
    · rw [h] at h1; cases h1
    · rw [hT.empty] at h2; cases h2
    · rw [h] at h1; cases h1
  · rintro ⟨td, h1, h2, h3⟩
    unfold fixParam
    have h4 : td.validData env.parses (.str "") = false := by
      rw [← valid_data_iff] at h3
      simpa using h3
    simp [paramType_eq, h1, h2, h4]

theorem fix_empty_nan {env : TextEnv} (hT : TextOK env) (params : Params) (k : Cell) : fixParam env params k (.str "") ≠ .nan := by
  intro h
  rcases fix_text_cases env params k "" with ⟨h1, _⟩ | ⟨d, h1, _⟩ | ⟨y, h1, h2, _⟩ | h1
  · rw [h] at h1; cases h1
  · rw [h] at h1; cases h1
  · rw [hT.empty] at h2; cases h2
  · rw [h] at h1; cases h1

theorem xlFill_xlsx (w : Cell) : xlFill .xlsx w = w := by cases w <;> simp [xlFill]

/-- **C48, one entry of the parameters table.**  Its name and its value come back exactly if `XlParamKeeps` says so. -/
theorem xl_param_iff {env : XlEnv} (hT : XlTextOK env) (cf : IOConf) (hp : cf.params ≠ []) (dv : Defaults) (o : XlOpts)
    (hty : ∀ f, typeOf cf.types "parameters" f = none ∧ dv "parameters" f ≠ some .none) (f f' : String) (k v : Cell) :
    (XlCell env cf dv o "parameters" f k k ∧ ∃ w, XlCell env cf dv o "parameters" f' v w ∧ fixParam env.text cf.params k w = v) ↔
      XlParamKeeps env cf.params o.kind k v := by
  unfold XlParamKeeps
  simp only [xl_param_put cf hp dv o hty]
  cases hk : o.kind with
  | xls =>
    simp only [xl_param_write_xls cf hp]
    refine and_congr ?_ ?_
    · cases k with
      | str s =>
        by_cases hs : s = ""
        · simp [XlNameKeeps, hs, xlFill]
        · simp [XlNameKeeps, hs, xlFill]
      | dt d =>
        by_cases hs : env.text.text (.dt d) = ""
        · simp [XlNameKeeps, hs, xlFill]
        · simp [XlNameKeeps, hs, xlFill]
      | _ => simp [XlNameKeeps, xlFill]
    · cases v with
      | none => simpa [xlFill] using fix_empty_none hT.toTextOK cf.params k
      | nan => simpa [xlFill] using fix_empty_nan hT.toTextOK cf.params k
      | num y => simp [xlFill, fix_number]
      | bool b => simp [xlFill, fix_number]
      | str s =>
        by_cases hs : s = ""
        · simp [hs, xlFill, fix_param_iff]
        · simp [hs, xlFill, fix_param_iff]
      | dt d => simp [(hT.dtText d).1, xlFill, fix_dt_text hT.dt]
      | other i => simp
  | xlsx =>
    simp only [xl_param_write_xlsx hT cf hp, xlFill_xlsx]
    refine and_congr ?_ ?_
    · cases k with
      | num y => cases y <;> simp [XlNameKeeps]
      | str s =>
        by_cases hs : s = ""
        · simp [XlNameKeeps, StoredText, hs]
        · simp only [hs, if_false, XlNameKeeps, StoredText, ne_eq, not_false_eq_true, true_and, forall_const]
          constructor
          · rintro ⟨w, h1, rfl⟩; exact h1
          · intro h; exact ⟨_, h, rfl⟩
      | _ => simp [XlNameKeeps]
    · cases v with
      | none => simp [fix_param_iff]
      | nan => simpa using fix_none env.text cf.params k
      | bool b => simp [fix_param_iff]
      | dt d => simp [fix_dt_text hT.dt]
      | other i => simp
      | num y =>
        cases y with
        | fin q => simp [fix_number]
        | pinf =>
          have := hT.num .pinf
          rw [hT.pinf] at this
          simp [fix_inf_text cf.params k "inf" (by decide) _ this]
        | ninf =>
          have := hT.num .ninf
          rw [hT.ninf] at this
          simp [fix_inf_text cf.params k "-inf" (by decide) _ this]
      | str s =>
        simp only [forall_const, StoredText]
        constructor
        · rintro ⟨y, ⟨w, h1, rfl⟩, h2⟩
          have := fix_to_text _ _ _ _ _ h2
          subst this
          by_cases hs : s = ""
          · rw [if_pos hs] at h1; cases h1
          · rw [if_neg hs] at h1
            exact ⟨⟨hs, h1⟩, (fix_param_iff _ _ _ _).mp h2⟩
        · rintro ⟨⟨hs, h1⟩, h2⟩
          exact ⟨_, ⟨.str s, by rw [if_neg hs]; exact h1, rfl⟩, (fix_param_iff _ _ _ _).mpr h2⟩

/-- **C48, exactly which objects an Excel file keeps.**  An object comes back from an Excel file as it was if and only if its cells are
those of `XlKeeps`, the entries of the parameters table, if parameters are declared, those of `XlParamKeeps`, and the last row of every
table has a stored cell.  The parameters table has one key field and one data field, as `add_parameter` demands, without data types and
without `None` as default value. -/
theorem xl_round_trip_params_iff (env : XlEnv) (hT : XlTextOK env) (laws : CaseLaws env.case) (hs : SimpleCase env.case) (cf : IOConf)
    (hq : ∀ q, cf.flag = .num q → 0 < q)
    (dv : Defaults) (hty : cf.params ≠ [] → ∀ f, typeOf cf.types "parameters" f = none ∧ dv "parameters" f ≠ some .none)
    (policy : DupPolicy) (o : XlOpts) (ho : o.headers = true) (allowOverwrite caseSpace : Bool)
    (schema : List (String × TabClass)) (hoff : ∀ tc ∈ schema, o.offset tc.1 = 0)
    (hg : goodTableNames env.case (schema.map (fun tc => tc.1.toList)) = true)
    (hlow : (schema.map (fun tc => (env.case.lower tc.1.toList).take longestSheet)).Nodup)
    (hrt : ∀ tc ∈ schema, CaseRoundTrip env.case tc.1.toList)
    (hok : ∀ tc ∈ schema, okSheetName o.kind (xlSheetName env.case schema caseSpace tc.1) = true)
    (hf : ∀ tc ∈ schema, tc.2.fields ≠ [] ∧ ((tc.2.fields.map String.toList).map env.case.lower).Nodup ∧
      ∀ f ∈ tc.2.fields, HeaderText env o.kind f)
    (hps : ∀ tc ∈ schema, IsParams cf.params tc.1 → tc.2.pks.length = 1 ∧ tc.2.dfs.length = 1)
    (dat : PyDict String TabVal) (hd : DatOK schema dat) (existing : Option Book) (hover : allowOverwrite = true ∨ existing = none) :
    (∃ book, xlWrite env cf o.kind allowOverwrite caseSpace schema dat existing = some book ∧
      xlCreate env cf dv policy o schema book = some dat) ↔
    (∀ tc ∈ schema, ∀ tab, PyDict.get? dat tc.1 = some tab →
      (¬ IsParams cf.params tc.1 → ∀ f x, HasCell tc.2 tab f x → XlKeeps env cf dv o tc.1 f x) ∧
      ∀ r, (tabRows tab).getLast? = some r → RowStored env cf o.kind tc.1 tc.2.fields r) ∧
    (∀ tab, PyDict.get? dat "parameters" = some tab → cf.params ≠ [] → ParamEntries (XlParamKeeps env cf.params o.kind) tab) := by
  constructor
  · rintro ⟨book, h1, h2⟩
    have hread := xl_back_read env laws hs cf dv policy o allowOverwrite caseSpace schema hg hlow hrt dat hd existing book h1 h2
    -- the parameters table
    have hpart : ∀ tc ∈ schema, ∀ tab, PyDict.get? dat tc.1 = some tab → IsParams cf.params tc.1 →
        ParamEntries (XlParamKeeps env cf.params o.kind) tab ∧
        ∀ r, (tabRows tab).getLast? = some r → RowStored env cf o.kind tc.1 tc.2.fields r := by
      intro tc htc tab htb hip
      obtain ⟨hpk, hdf⟩ := hps tc htc hip
      have hws := hd.2 tc htc tab htb
      obtain ⟨g, y, tab2, h3, h4, h5, h6⟩ := hread tc htc tab htb
      obtain ⟨hf1, hf2, hf3⟩ := hf tc htc
      rw [if_pos (by rw [isParamsB_iff]; exact hip)] at h6
      cases tab2 with
      | plain rs =>
        subst h6
        rw [hws.1] at hpk
        cases hpk
      | keyed d2 =>
        subst h6
        obtain ⟨h10, h11⟩ := xl_table_rel env cf dv o ho tc.1 (hoff tc htc) tc.2 hf1 hf2 hf3 _ (.keyed d2) hws g h3 y h4 h5
          (by simp [TabVal.size])
        refine ⟨?_, h11⟩
        intro p hp
        obtain ⟨k, f, v, v0, pf, rfl, h11, h12, h13⟩ := params_back env.text cf.params tc.2 hpk hdf d2 hws _ h10 p hp
        obtain ⟨hpar, htn⟩ := hip
        rw [htn] at h11 h12
        exact ⟨k, f, v, rfl, (xl_param_iff hT cf hpar dv o (hty hpar) pf f k v).mp ⟨h11, v0, h12, h13⟩⟩
    constructor
    · intro tc htc tab htb
      by_cases hip : IsParams cf.params tc.1
      · exact ⟨fun h => absurd hip h, (hpart tc htc tab htb hip).2⟩
      · obtain ⟨g, y, tab2, h3, h4, h5, h6⟩ := hread tc htc tab htb
        rw [if_neg (by rw [isParamsB_iff]; exact hip)] at h6
        subst h6
        obtain ⟨hf1, hf2, hf3⟩ := hf tc htc
        have h21 := xl_table_inv env cf dv o ho tc.1 (hoff tc htc) tc.2 hf1 hf2 hf3 tab (hd.2 tc htc tab htb) g h3 y h4 h5
        exact ⟨fun _ f x hx => (xl_cell_iff hT cf hq dv o tc.1 f x hip).mp (h21.1 f x hx), h21.2⟩
    · intro tab htb hpar
      obtain ⟨tc, htc, htn⟩ : ∃ tc ∈ schema, tc.1 = "parameters" := by
        have : "parameters" ∈ PyDict.keys dat := by
          refine Classical.byContradiction (fun hno => ?_)
          rw [(PyDict.get?_eq_none _ _).mpr hno] at htb
          cases htb
        rw [hd.1] at this
        obtain ⟨tc, h, e⟩ := List.mem_map.mp this
        exact ⟨tc, h, e⟩
      rw [← htn] at htb
      exact (hpart tc htc tab htb ⟨hpar, htn⟩).1
  · rintro ⟨h, hp⟩
    have hnames : (schema.map Prod.fst).Nodup := by
      have hg' : goodTableNames env.case ((schema.map Prod.fst).map String.toList) = true := by
        rw [List.map_map]; exact hg
      exact nodup_of_map _ (nodup_of_map _ ((goodTableNames_iff env.case _).mp hg').2.2)
    have hfn : ∀ tc ∈ schema, tc.2.fields.Nodup := fun tc htc => nodup_of_map _ (nodup_of_map _ (hf tc htc).2.1)
    obtain ⟨dat', hk', hpost, hrel⟩ := params_view env.text cf.params (xlParamSeen env o.kind) schema hnames hfn dat hd.1 hd.2
      (fun t f x y => XlCell env cf dv o t f x y)
      (fun tc htc tab hget hpar f x hx => (xl_cell_iff hT cf hq dv o tc.1 f x hpar).mpr ((h tc htc tab hget).1 hpar f x hx))
      (XlParamKeeps env cf.params o.kind) hp
      (by
        intro hpar f f' k v hkv
        obtain ⟨h1, w, h2, h3⟩ := (xl_param_iff hT cf hpar dv o (hty hpar) f f' k v).mpr hkv
        have : w = xlParamSeen env o.kind v := by
          have ⟨u, h4, h5⟩ := (xl_param_put cf hpar dv o (hty hpar) f' v w).mp h2
          have hkv2 := hkv.2
          cases hk : o.kind with
          | xls =>
            rw [hk, xl_param_write_xls cf hpar] at h4
            rw [hk] at h5 hkv2
            cases v with
            | other i => cases h4
            | nan => exact absurd hkv2 id
            | bool b => cases hkv2.1
            | str s =>
              cases h4
              rw [h5]
              by_cases hs : s = "" <;> simp [hs, xlFill, xlParamSeen]
            | dt d =>
              cases h4
              rw [h5]
              simp [(hT.dtText d).1, xlFill, xlParamSeen]
            | none => cases h4; rw [h5]; simp [xlFill, xlParamSeen]
            | num y => cases h4; rw [h5]; simp [xlFill, xlParamSeen]
          | xlsx =>
            rw [hk, xl_param_write_xlsx hT cf hpar] at h4
            rw [hk] at hkv2
            rw [hk, xlFill_xlsx] at h5
            subst h5
            cases v with
            | other i => cases h4
            | nan => exact absurd hkv2 id
            | str s =>
              have := fix_to_text _ _ _ _ _ h3
              subst this
              rfl
            | num y =>
              cases y with
              | fin q => cases h4; rfl
              | pinf => cases h4; simp [xlParamSeen, xlsxShow, hT.pinf]
              | ninf => cases h4; simp [xlParamSeen, xlsxShow, hT.ninf]
            | _ => cases h4; rfl
        rw [this] at h2 h3
        exact ⟨h1, h2, h3⟩)
    obtain ⟨book, h1, h2⟩ := xl_read_back env laws hs cf dv policy o ho allowOverwrite caseSpace schema hoff hg hlow hrt hok hf
      dat dat' hk' hrel (fun tc htc tab hget r hr => (h tc htc tab hget).2 r hr) existing hover
    exact ⟨book, h1, by rw [h2 book (List.Perm.refl _), hpost]⟩

/-- The hypotheses can be met: the value of a declared parameter without type comes back from an `.xls` file exactly if it is text that
does not read as a number, or a number. -/
example (prune : Bool) (v : Cell) :
    (∃ book, xlWrite demoXl ⟨[], .na, false, [(.str "Gap", (none, .num (.fin 0)))]⟩ .xls true true
        [("parameters", ⟨["Key"], ["Value"], []⟩)] [("parameters", .keyed [(.one (.str "Gap"), [("Value", v)])])] none = some book ∧
      xlCreate demoXl ⟨[], .na, false, [(.str "Gap", (none, .num (.fin 0)))]⟩ (fun _ _ => none) .assert (demoOpts .xls prune 0)
        [("parameters", ⟨["Key"], ["Value"], []⟩)] book = some [("parameters", .keyed [(.one (.str "Gap"), [("Value", v)])])]) ↔
    (∃ s, v = .str s ∧ unaryText.float s = none) ∨ (∃ y, v = .num y) := by
  refine Iff.trans (xl_round_trip_params_iff demoXl demoXl_ok asciiLaws asciiSimple
    ⟨[], .na, false, [(.str "Gap", (none, .num (.fin 0)))]⟩ (fun q h => by cases h) (fun _ _ => none) (fun _ f => ⟨rfl, by simp⟩)
    .assert (demoOpts .xls prune 0) rfl true true [("parameters", ⟨["Key"], ["Value"], []⟩)]
    (by simp [demoOpts]) (by decide +kernel) (by decide +kernel)
    (by intro tc h; simp at h; subst h; exact asciiRoundTrip _)
    (by intro tc h; simp at h; subst h; cases prune <;> decide +kernel)
    (by
      intro tc h
      simp at h
      subst h
      refine ⟨by simp [TabClass.fields], by decide +kernel, ?_⟩
      intro f hf
      simp [TabClass.fields] at hf
      rcases hf with rfl | rfl <;> exact ⟨by decide, by decide +kernel, fun _ => by decide +kernel⟩)
    (by intro tc h _; simp at h; subst h; decide) _ (sql_param_example_ok v) none (.inl rfl)) ?_
  have hk : XlParamKeeps demoXl [(.str "Gap", (none, .num (.fin 0)))] .xls (.str "Gap") v ↔
      (∃ s, v = .str s ∧ unaryText.float s = none) ∨ (∃ y, v = .num y) := by
    unfold XlParamKeeps XlNameKeeps ParamFixed NoNumberText paramType
    cases v <;> simp [PyDict.get?, demoXl]
  rw [← hk]
  constructor
  · rintro ⟨_, h⟩
    obtain ⟨k, f, w, h1, h2⟩ := h _ rfl (by simp) _ (List.mem_singleton.mpr rfl)
    cases h1
    exact h2
  · intro h
    refine ⟨?_, ?_⟩
    · intro tc htc tab htab
      simp at htc
      subst htc
      simp [PyDict.get?] at htab
      subst htab
      refine ⟨fun hnp => absurd ⟨by simp, rfl⟩ hnp, ?_⟩
      intro r hr
      simp [tabRows] at hr
      subst hr
      exact ⟨0, "Key", .str "Gap", .str "Gap", rfl, rfl, by simp [demoOpts, xl_param_write_xls], by simp⟩
    · intro tab htab _
      cases htab
      intro p hp
      rw [List.mem_singleton] at hp
      subst hp
      exact ⟨_, _, _, rfl, h⟩

end Ticdat

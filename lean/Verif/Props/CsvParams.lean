import Verif.Spec.CsvParams
import Verif.Props.CsvBack
import Verif.Props.JsonParams
/-!
# C46: which objects csv files keep, with parameters
-/
set_option linter.unusedSectionVars false
set_option linter.unusedSimpArgs false
namespace Ticdat
open Spec

/-- The adjustment of a text gives text, a number, a datetime or nothing. -/
theorem fix_text_cases (env : TextEnv) (params : Params) (k : Cell) (s : String) :
    (fixParam env params k (.str s) = .none ∧ s = "" ∧ ∃ td, paramType params k = some td ∧ td.nullable = true ∧
      ¬ Valid env.parses td (.str "")) ∨
    (∃ d, fixParam env params k (.str s) = .dt d ∧ env.date (.str s) = some d ∧ ∃ td, paramType params k = some td ∧
      td.datetime = true) ∨
    (∃ y, fixParam env params k (.str s) = floatCell y ∧ env.float s = some y ∧
      ∀ td, paramType params k = some td → td.datetime = false ∧ td.numberAllowed = true) ∨
    fixParam env params k (.str s) = .str s := by
  unfold fixParam
  rw [paramType_eq]
  cases htd : paramType params k with
  | none =>
    simp only [Option.map_none, Option.getD_none, Bool.false_eq_true, if_false, if_true, toFloat]
    cases hf : env.float s with
    | none => simp
    | some y => exact .inr (.inr (.inl ⟨y, by simp, rfl, by simp⟩))
  | some td =>
    simp only [Option.map_some, Option.getD_some]
    by_cases h1 : (td.nullable && decide (Cell.str s = .str "") && !td.validData env.parses (.str s)) = true
    · rw [if_pos h1]
      simp only [Bool.and_eq_true, decide_eq_true_eq, Bool.not_eq_true', Cell.str.injEq] at h1
      obtain ⟨⟨h2, rfl⟩, h3⟩ := h1
      refine .inl ⟨rfl, rfl, td, rfl, h2, fun h4 => ?_⟩
      rw [(valid_data_iff _ _ _).2 h4] at h3
      cases h3
    · rw [if_neg h1]
      cases hdt : td.datetime with
      | true =>
        simp only [if_true, dateAdjust]
        cases hd : env.date (.str s) with
        | none => simp
        | some d => exact .inr (.inl ⟨d, rfl, rfl, td, rfl, hdt⟩)
      | false =>
        simp only [Bool.false_eq_true, if_false]
        by_cases hn : td.numberAllowed = true
        · rw [if_pos hn]
          simp only [toFloat]
          cases hf : env.float s with
          | none => simp
          | some y =>
            refine .inr (.inr (.inl ⟨y, by simp, rfl, ?_⟩))
            intro td' h
            cases h
            exact ⟨hdt, hn⟩
        · rw [if_neg hn]
          simp

theorem floatCell_cases (y : Option XNum) : floatCell y = .nan ∨ ∃ x, floatCell y = .num x := by
  cases y <;> simp [floatCell]

/-- **C46, one entry of the parameters table.**  Its value comes back from a text file exactly if `TextParamKeeps` says so. -/
theorem text_param_iff {env : TextEnv} (hT : TextOK env) (params : Params) (s0 : String) (v : Cell) :
    fixParam env params (.str s0) (textParam env v) = v ↔ TextParamKeeps env params (.str s0) v := by
  generalize hk : Cell.str s0 = k
  have hk' : ∃ s, k = .str s := ⟨s0, hk.symm⟩
  unfold TextParamKeeps
  simp only [hk', true_and]
  have hcase := fun s => fix_text_cases env params k s
  cases v with
  | bool b =>
    refine iff_of_false (fun h => ?_) id
    simp only [textParam, Cell.isNull, Bool.false_eq_true, if_false] at h
    rcases hcase (env.text (.bool b)) with ⟨h1, _⟩ | ⟨d, h1, _⟩ | ⟨y, h1, _⟩ | h1 <;> rw [h] at h1
    · cases h1
    · cases h1
    · rcases floatCell_cases y with h2 | ⟨x, h2⟩ <;> rw [h2] at h1 <;> cases h1
    · cases h1
  | other b =>
    refine iff_of_false (fun h => ?_) id
    simp only [textParam, Cell.isNull, Bool.false_eq_true, if_false] at h
    rcases hcase (env.text (.other b)) with ⟨h1, _⟩ | ⟨d, h1, _⟩ | ⟨y, h1, _⟩ | h1 <;> rw [h] at h1
    · cases h1
    · cases h1
    · rcases floatCell_cases y with h2 | ⟨x, h2⟩ <;> rw [h2] at h1 <;> cases h1
    · cases h1
  | nan =>
    refine iff_of_false (fun h => ?_) id
    simp only [textParam, Cell.isNull, if_true, hT.null] at h
    rcases hcase "" with ⟨h1, _⟩ | ⟨d, h1, _⟩ | ⟨y, h1, h2, _⟩ | h1
    · rw [h] at h1; cases h1
    · rw [h] at h1; cases h1
    · rw [hT.empty] at h2; cases h2
    · rw [h] at h1; cases h1
  | none =>
    simp only [textParam, Cell.isNull, if_true, hT.null]
    constructor
    · intro h
      rcases hcase "" with ⟨_, _, h1⟩ | ⟨d, h1, _⟩ | ⟨y, h1, h2, _⟩ | h1
      · exact h1
      · rw [h] at h1; cases h1
      · rw [hT.empty] at h2; cases h2
      · rw [h] at h1; cases h1
    · rintro ⟨td, h1, h2, h3⟩
      unfold fixParam
      have h4 : td.validData env.parses (.str "") = false := by
        rw [← valid_data_iff] at h3
        simpa using h3
      simp [paramType_eq, h1, h2, h4]
  | str s => simp [textParam, Cell.isNull, hT.str, fix_param_iff]
  | num x =>
    simp only [textParam, Cell.isNull, Bool.false_eq_true, if_false]
    constructor
    · intro h
      rcases hcase (env.text (.num x)) with ⟨h1, _⟩ | ⟨d, h1, _⟩ | ⟨y, _, _, h1⟩ | h1
      · rw [h] at h1; cases h1
      · rw [h] at h1; cases h1
      · exact h1
      · rw [h] at h1; cases h1
    · intro h
      have hne : env.text (.num x) ≠ "" := by
        intro e
        have := hT.num x
        rw [e, hT.empty] at this
        cases this
      unfold fixParam
      rw [paramType_eq]
      cases htd : paramType params k with
      | none => simp [toFloat, hT.num, floatCell]
      | some td =>
        obtain ⟨h1, h2⟩ := h td htd
        simp [hne, h1, h2, toFloat, hT.num, floatCell]
  | dt d =>
    simp only [textParam, Cell.isNull, Bool.false_eq_true, if_false]
    constructor
    · intro h
      rcases hcase (env.text (.dt d)) with ⟨h1, _⟩ | ⟨d, _, _, h1⟩ | ⟨y, h1, _⟩ | h1
      · rw [h] at h1; cases h1
      · exact h1
      · rw [h] at h1
        rcases floatCell_cases y with h2 | ⟨x, h2⟩ <;> rw [h2] at h1 <;> cases h1
      · rw [h] at h1; cases h1
    · rintro ⟨td, h1, h2⟩
      exact param_date_survives hT params k d td h1 h2

theorem csv_param_cell {env : TextEnv} (cf : IOConf) (hp : cf.params ≠ []) (dv : Defaults) (g : String) (x y : Cell) :
    CsvCell env cf dv "parameters" g x y ↔ y = textParam env x := by
  have hr : ∀ w, (csvReadCell env cf dv "parameters" g w = some y ↔ y = w) := by
    intro w
    simp only [csvReadCell, readCell, hp, ne_eq, not_false_eq_true, and_self, if_true, Option.bind_some, Option.some.injEq]
    exact eq_comm
  have hw : ∀ z, writeCell env cf "parameters" g z = some (if z.isNull then .none else z) := by
    intro z
    simp [writeCell, hp]
  unfold CsvCell
  simp only [hr, hw, Option.some.injEq]
  constructor
  · rintro ⟨w, rfl, h⟩; exact h
  · intro h; exact ⟨_, rfl, h⟩

/-- **C46.**  A data object written to csv files, with or without headers, comes back as it was if and only if every cell of every table
is one that csv files carry, as spelled out in `CsvKeeps`, and every entry of the parameters table, if parameters are declared, is one
of `TextParamKeeps`.  The parameters table has one key field and one data field, as `add_parameter` demands. -/
theorem csv_round_trip_params_iff (env : TextEnv) (hT : CsvTextOK env) (cenv : CaseEnv) (laws : CaseLaws cenv) (cf : IOConf)
    (hq : ∀ q, cf.flag = .num q → 0 < q)
    (dv : Defaults) (policy : DupPolicy) (allowOverwrite headers caseSpace : Bool) (schema : List (String × TabClass))
    (hg : goodTableNames cenv (schema.map (fun tc => tc.1.toList)) = true)
    (hrt : ∀ tc ∈ schema, CaseRoundTrip cenv tc.1.toList)
    (hf : ∀ tc ∈ schema, tc.2.fields ≠ [] ∧ ((tc.2.fields.map String.toList).map cenv.lower).Nodup)
    (hps : ∀ tc ∈ schema, IsParams cf.params tc.1 → tc.2.pks.length = 1 ∧ tc.2.dfs.length = 1)
    (dat : PyDict String TabVal) (hd : DatOK schema dat)
    (dir : PyDict (List Char) CsvFile) (hdir : (PyDict.keys dir).Nodup)
    (hover : allowOverwrite = true ∨ ∀ tc ∈ schema, tc.1.toList ++ ".csv".toList ∉ PyDict.keys dir)
    (hother : ∀ k ∈ PyDict.keys dir, ∀ tc ∈ schema, csvMatches cenv tc.1.toList k = true →
      k = csvFileName cenv schema caseSpace tc.1) :
    (∃ dir', csvWrite env cenv cf allowOverwrite headers caseSpace schema dat dir = some dir' ∧
      csvCreate env cenv cf dv policy headers schema dir' = some dat) ↔
    (∀ tc ∈ schema, ∀ tab, PyDict.get? dat tc.1 = some tab → ¬ IsParams cf.params tc.1 → ∀ f x, HasCell tc.2 tab f x →
      CsvKeeps env cf dv tc.1 f x) ∧
    (∀ tab, PyDict.get? dat "parameters" = some tab → cf.params ≠ [] → ParamEntries (TextParamKeeps env cf.params) tab) := by
  have hg' : goodTableNames cenv ((schema.map Prod.fst).map String.toList) = true := by
    rw [List.map_map]; exact hg
  have hnames : (schema.map Prod.fst).Nodup := nodup_of_map _ (nodup_of_map _ ((goodTableNames_iff cenv _).mp hg').2.2)
  have hdn : (PyDict.keys dat).Nodup := by rw [hd.1]; exact hnames
  have hfn : ∀ tc ∈ schema, tc.2.fields.Nodup := fun tc htc => nodup_of_map _ (nodup_of_map _ (hf tc htc).2)
  constructor
  · rintro ⟨dir', h1, h2⟩
    have htab : ∀ tc ∈ schema, ∀ tab, PyDict.get? dat tc.1 = some tab → ∃ lines y tab2,
        csvTable env cf tc.1 tc.2 headers tab = some lines ∧ csvReadTable env cenv cf dv tc.1 tc.2 headers lines = some y ∧
        (initTable tc.2 y = some tab2 ∨ tab2 = emptyTable tc.2) ∧ tab = (if IsParamsB cf.params tc.1 then (match tab2 with
          | .keyed d => .keyed (d.map (postReadEntry env cf.params))
          | x => x) else tab2) := by
      intro tc htc tab htab
      -- the directory
      have hmatch : ∀ tc ∈ schema, ∀ tc' ∈ schema,
          (csvMatches cenv tc'.1.toList (csvFileName cenv schema caseSpace tc.1) = true ↔ tc'.1.toList = tc.1.toList) := by
        intro tc htc tc' htc'
        exact csvMatches_out laws hg caseSpace (List.mem_map.mpr ⟨tc, htc, rfl⟩) (hrt tc htc)
          (List.mem_map.mpr ⟨tc', htc', rfl⟩)
      have hfnames : (schema.map (fun tc => csvFileName cenv schema caseSpace tc.1)).Nodup := by
        have hinj : ∀ a ∈ schema.map Prod.fst, ∀ b ∈ schema.map Prod.fst,
            csvFileName cenv schema caseSpace a = csvFileName cenv schema caseSpace b → a = b := by
          intro a ha b hb e
          obtain ⟨ta, hta, rfl⟩ := List.mem_map.mp ha
          obtain ⟨tb, htb, rfl⟩ := List.mem_map.mp hb
          have h1 := (hmatch ta hta ta hta).mpr rfl
          rw [e] at h1
          exact String.toList_injective ((hmatch tb htb ta hta).mp h1)
        have : (schema.map Prod.fst).map (csvFileName cenv schema caseSpace) =
            schema.map (fun tc => csvFileName cenv schema caseSpace tc.1) := by
          rw [List.map_map]; rfl
        rw [← this]
        unfold List.Nodup
        rw [List.pairwise_map]
        refine List.Pairwise.imp_of_mem ?_ hnames
        intro a b ha hb hne e
        exact hne (hinj a ha b hb e)
      unfold csvWrite at h1
      rw [Option.bind_eq_some_iff] at h1
      obtain ⟨_, _, h1⟩ := h1
      obtain ⟨dir2, h3, h4, h5, h6⟩ := write_all (fun tc => csvFileName cenv schema caseSpace tc.1)
        (fun tc => (PyDict.get? dat tc.1).bind (csvTable env cf tc.1 tc.2 headers)) (fun _ _ => True) schema hfnames
        (fun tc htc => by
          obtain ⟨v, hv⟩ := writeAll_some _ _ _ _ _ h1 tc htc
          exact ⟨v, hv, trivial⟩) dir hdir
      rw [h1] at h3
      cases h3
      obtain ⟨lines, h7, h8, _⟩ := h5 tc htc
      rw [htab, Option.bind_some] at h8
      have hpath : csvFilePath cenv (PyDict.keys dir') tc.1.toList = some (some (csvFileName cenv schema caseSpace tc.1)) := by
        unfold csvFilePath
        have : (PyDict.keys dir').filter (csvMatches cenv tc.1.toList) = [csvFileName cenv schema caseSpace tc.1] := by
          rw [filter_eq_singleton _ h4]
          refine ⟨?_, (hmatch tc htc tc htc).mpr rfl, ?_⟩
          · refine Classical.byContradiction (fun hno => ?_)
            rw [(PyDict.get?_eq_none _ _).mpr hno] at h7
            cases h7
          · intro k hk hm
            by_cases hkn : ∀ tc' ∈ schema, k ≠ csvFileName cenv schema caseSpace tc'.1
            · have hkd : k ∈ PyDict.keys dir := by
                refine Classical.byContradiction (fun hno => ?_)
                have h11 := h6 k hkn
                rw [(PyDict.get?_eq_none _ _).mpr hno] at h11
                exact (PyDict.get?_eq_none _ _).mp h11 hk
              exact hother k hkd tc htc hm
            · obtain ⟨tc', htc', e⟩ : ∃ tc' ∈ schema, k = csvFileName cenv schema caseSpace tc'.1 := by
                refine Classical.byContradiction (fun hno => hkn (fun tc' h e => hno ⟨tc', h, e⟩))
              rw [e] at hm ⊢
              have := String.toList_injective ((hmatch tc' htc' tc htc).mp hm)
              rw [this]
        rw [this]
      -- the tables
      unfold csvCreate at h2
      simp only [Option.map_eq_some_iff, Option.bind_eq_some_iff] at h2
      obtain ⟨dat2, ⟨input, h9, h10⟩, hpr⟩ := h2
      obtain ⟨_, h12⟩ := gatherTables_inv _ schema hnames input h9
      obtain ⟨o, h13, h14⟩ := h12 tc htc
      unfold csvFind at h13
      rw [hpath] at h13
      simp only [Option.bind_some, h7, Option.map_eq_some_iff] at h13
      obtain ⟨y, h15, h16⟩ := h13
      have hk2 : (PyDict.keys dat2).Nodup := by
        rw [← postRead_keys env cf.params dat2, hpr]
        exact hdn
      have hadj : ∀ tab2, (tc.1, tab2) ∈ dat2 → tab = (if IsParamsB cf.params tc.1 then (match tab2 with
          | .keyed d => .keyed (d.map (postReadEntry env cf.params))
          | x => x) else tab2) := by
        intro tab2 hm2
        have h16 := postRead_entry env cf.params dat2 tc.1
        rw [hpr, htab, PyDict.get?_of_mem hk2 hm2, Option.map_some] at h16
        exact Option.some.inj h16
      unfold initDat at h10
      split at h10
      case isFalse => cases h10
      cases hm : schema.mapM (initEntry input) with
      | none => rw [hm] at h10; cases h10
      | some tabs =>
        rw [hm] at h10
        simp only at h10
        split at h10
        case isTrue => cases h10
        cases h10
        rw [mapM_eq_some_iff] at hm
        have : initEntry input tc ∈ dat2.map some := by rw [← hm]; exact List.mem_map.mpr ⟨tc, htc, rfl⟩
        obtain ⟨q, h17, h18⟩ := List.mem_map.mp this
        have h18 := h18.symm
        unfold initEntry at h18
        rw [h14, ← h16] at h18
        by_cases hz : y.size = 0
        · rw [if_pos hz] at h18
          simp only [Option.some.injEq] at h18
          subst h18
          exact ⟨lines, y, _, h8, h15, .inr rfl, hadj _ h17⟩
        · rw [if_neg hz] at h18
          simp only [Option.map_eq_some_iff] at h18
          obtain ⟨tab2, h19, rfl⟩ := h18
          exact ⟨lines, y, _, h8, h15, .inl h19, hadj _ h17⟩
    constructor
    · intro tc htc tab htb hnp f x hx
      have hws := hd.2 tc htc tab htb
      obtain ⟨lines, y, tab2, h6, h7, h8, h9⟩ := htab tc htc tab htb
      rw [if_neg (by rw [isParamsB_iff]; exact hnp)] at h9
      subst h9
      rw [← csv_cell_iff hT cf hq dv tc.1 f x hnp]
      rcases h8 with h8 | h8
      · exact csv_table_inv env cenv cf dv tc.1 tc.2 headers (hf tc htc).2 tab hws lines h6 y h7 h8 f x hx
      · subst h8
        obtain ⟨r, hr, _⟩ := hasCell_row tc.2 (hfn tc htc) _ hws hx
        unfold emptyTable at hr
        split at hr <;> cases hr
    · intro tab htb hpar
      obtain ⟨tc, htc, htn⟩ : ∃ tc ∈ schema, tc.1 = "parameters" := by
        have : "parameters" ∈ PyDict.keys dat := by
          refine Classical.byContradiction (fun hno => ?_)
          rw [(PyDict.get?_eq_none _ _).mpr hno] at htb
          cases htb
        rw [hd.1] at this
        obtain ⟨tc, h, e⟩ := List.mem_map.mp this
        exact ⟨tc, h, e⟩
      have hip : IsParams cf.params tc.1 := ⟨hpar, htn⟩
      rw [← htn] at htb
      obtain ⟨hpk, hdf⟩ := hps tc htc hip
      have hws := hd.2 tc htc tab htb
      obtain ⟨lines, y, tab2, h6, h7, h8, h9⟩ := htab tc htc tab htb
      rw [if_pos (by rw [isParamsB_iff]; exact hip)] at h9
      cases tab2 with
      | plain rs =>
        subst h9
        rw [hws.1] at hpk
        cases hpk
      | keyed d2 =>
        subst h9
        intro p hp
        rcases h8 with h8 | h8
        · have h10 := csv_table_rel env cenv cf dv tc.1 tc.2 headers (hf tc htc).2 _ (.keyed d2) hws lines h6 y h7 h8
            (by simp [TabVal.size])
          obtain ⟨k, f, v, v0, pf, rfl, h11, h12, h13⟩ := params_back env cf.params tc.2 hpk hdf d2 hws _ h10 p hp
          rw [htn, csv_param_cell cf hpar] at h11 h12
          obtain ⟨s, rfl⟩ : ∃ s, k = .str s := ⟨_, h11⟩
          rw [h12] at h13
          exact ⟨_, f, v, rfl, (text_param_iff hT.toTextOK cf.params s v).mp h13⟩
        · unfold emptyTable at h8
          split at h8
          · cases h8
            cases hp
          · cases h8
  · rintro ⟨h, hp⟩
    obtain ⟨dat', hk', hpost, hrel⟩ := params_view env cf.params (textParam env) schema hnames hfn dat hd.1 hd.2
      (fun t f x y => CsvCell env cf dv t f x y)
      (fun tc htc tab hget hnp f x hx => (csv_cell_iff hT cf hq dv tc.1 f x hnp).mpr (h tc htc tab hget hnp f x hx))
      (TextParamKeeps env cf.params) hp
      (by
        intro hpar f f' k v hkv
        have ⟨⟨s, hs⟩, _⟩ := hkv
        subst hs
        refine ⟨(csv_param_cell cf hpar dv f _ _).mpr ?_, (csv_param_cell cf hpar dv f' _ _).mpr rfl,
          (text_param_iff hT.toTextOK cf.params s v).mpr hkv⟩
        simp [textParam, Cell.isNull, hT.str])
    obtain ⟨dir', h1, _, h2⟩ := csv_read_back env cenv laws cf dv policy allowOverwrite headers caseSpace schema hg hrt hf dat dat'
      hk' hrel dir hdir hover hother
    refine ⟨dir', h1, ?_⟩
    rw [h2 dir' (.refl _), hpost]

/-- One declared parameter without type, in an empty directory: the object comes back if and only if its value is a number or text
that does not read as a number.  `None`, which json keeps, does not come back. -/
example (headers : Bool) (v : Cell) :
    (∃ dir', csvWrite unaryText asciiEnv ⟨[], .na, false, [(.str "Gap", (none, .num (.fin 0)))]⟩ false headers false
        [("parameters", ⟨["Key"], ["Value"], []⟩)] [("parameters", .keyed [(.one (.str "Gap"), [("Value", v)])])] [] = some dir' ∧
      csvCreate unaryText asciiEnv ⟨[], .na, false, [(.str "Gap", (none, .num (.fin 0)))]⟩ (fun _ _ => none) .assert headers
        [("parameters", ⟨["Key"], ["Value"], []⟩)] dir' = some [("parameters", .keyed [(.one (.str "Gap"), [("Value", v)])])]) ↔
    (∃ s, v = .str s ∧ unaryText.float s = none) ∨ (∃ y, v = .num y) := by
  refine Iff.trans (csv_round_trip_params_iff unaryText unaryText_csv_ok asciiEnv asciiLaws _ (by intro q h; cases h)
    (fun _ _ => none) .assert false headers false _ (by decide +kernel)
    (by intro tc h; simp at h; subst h; exact asciiRoundTrip _)
    (by intro tc h; simp at h; subst h; exact ⟨by simp [TabClass.fields], by decide +kernel⟩)
    (by intro tc h _; simp at h; subst h; decide) _ ⟨rfl, ?_⟩ [] (by simp [PyDict.keys]) (.inr (by simp [PyDict.keys]))
    (by simp [PyDict.keys])) ?_
  · intro tc htc tab htab
    simp at htc
    subst htc
    simp [PyDict.get?] at htab
    subst htab
    refine ⟨by simp, by simp [PyDict.keys], ?_⟩
    intro p hp
    simp at hp
    subst hp
    exact ⟨by simp [KeyShape], rfl⟩
  · have : TextParamKeeps unaryText [(.str "Gap", (none, .num (.fin 0)))] (.str "Gap") v ↔
        (∃ s, v = .str s ∧ unaryText.float s = none) ∨ (∃ y, v = .num y) := by
      unfold TextParamKeeps ParamFixed NoNumberText paramType
      cases v <;> simp [PyDict.get?]
    rw [← this]
    constructor
    · rintro ⟨_, h⟩
      obtain ⟨k, f, w, h1, h2⟩ := h _ rfl (by simp) _ (List.mem_singleton.mpr rfl)
      cases h1
      exact h2
    · intro h
      refine ⟨?_, ?_⟩
      · intro tc htc _ _ hnp
        simp at htc
        subst htc
        exact absurd ⟨by simp, rfl⟩ hnp
      · intro tab htab _
        cases htab
        intro p hp
        rw [List.mem_singleton] at hp
        subst hp
        exact ⟨_, _, _, rfl, h⟩

end Ticdat

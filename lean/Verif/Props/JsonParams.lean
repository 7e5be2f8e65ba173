import Verif.Spec.JsonParams
import Verif.Props.JsonBack
import Verif.Props.SqliteTable
/-!
# C20: which objects json keeps, with parameters
-/
set_option linter.unusedSectionVars false
set_option linter.unusedSimpArgs false
namespace Ticdat
open Spec

theorem float_self_iff (env : TextEnv) (v : Cell) : (toFloat env v).getD v = v ↔ NoNumberText env v := by
  unfold NoNumberText
  cases v with
  | str s =>
    cases h : env.float s with
    | none => simp [toFloat, h]
    | some y => cases y <;> simp [toFloat, h, floatCell]
  | _ => simp [toFloat]

/-- **C16, C20.**  Exactly the values that the adjustment of the parameters table leaves alone. -/
theorem fix_param_iff (env : TextEnv) (params : Params) (k v : Cell) : fixParam env params k v = v ↔ ParamFixed env params k v := by
  unfold fixParam ParamFixed
  rw [paramType_eq]
  cases htd : paramType params k with
  | none => simp [float_self_iff]
  | some td =>
    simp only [Option.map_some, Option.getD_some]
    by_cases h1 : (td.nullable && decide (v = .str "") && !td.validData env.parses v) = true
    · rw [if_pos h1]
      simp only [Bool.and_eq_true, decide_eq_true_eq, Bool.not_eq_true'] at h1
      obtain ⟨⟨h2, rfl⟩, h3⟩ := h1
      refine iff_of_false (by simp) (fun h => h.1 ⟨h2, rfl, fun h4 => ?_⟩)
      rw [(valid_data_iff _ _ _).2 h4] at h3
      cases h3
    · rw [if_neg h1]
      have h2 : ¬ (td.nullable = true ∧ v = .str "" ∧ ¬ Valid env.parses td v) := by
        rintro ⟨h2, h3, h4⟩
        refine h1 ?_
        rw [← valid_data_iff] at h4
        simp [h2, h3] at h4 ⊢
        exact h4
      simp only [h2, not_false_eq_true, true_and]
      cases hdt : td.datetime with
      | true =>
        simp only [if_true, forall_const, Bool.true_eq_false, false_imp_iff, and_true]
        cases v with
        | dt d => simp [dateAdjust]
        | num y => simp [dateAdjust]
        | nan => simp [dateAdjust]
        | _ =>
          simp only [dateAdjust, reduceCtorEq, exists_false, false_or]
          split
          · rename_i d hd; simp [hd]
          · rename_i hd; simp [hd]
      | false =>
        simp only [Bool.false_eq_true, if_false, false_imp_iff, true_and, forall_const]
        by_cases hn : td.numberAllowed = true
        · simp [hn, float_self_iff]
        · simp [hn]

theorem fix_none (env : TextEnv) (params : Params) (k : Cell) : fixParam env params k .none ≠ .nan := by
  unfold fixParam
  rw [paramType_eq]
  cases paramType params k with
  | none => simp [toFloat]
  | some td =>
    simp only [Option.map_some, Option.getD_some]
    split
    · simp
    · split
      · split <;> simp
      · split <;> simp [toFloat]

theorem json_param_cell {env : TextEnv} (cf : IOConf) (hp : cf.params ≠ []) (g : String) (x y : Cell) :
    JsonCell env cf "parameters" g x y ↔ (∀ i, x ≠ .other i) ∧ y = jsonParamText env (if x.isNull then .none else x) := by
  have hr : ∀ w, (readCell env cf "parameters" g w = some y ↔ y = w) := by
    intro w
    simp only [readCell, if_true, Option.some.injEq]
    exact eq_comm
  have hw : ∀ z, writeCell env cf "parameters" g z = some (if z.isNull then .none else z) := by
    intro z
    simp [writeCell, hp]
  unfold JsonCell
  simp only [hr]
  cases x with
  | dt d =>
    simp only [jsonWriteCell, Option.some.injEq]
    constructor
    · rintro ⟨w, rfl, _, rfl⟩
      exact ⟨by simp, rfl⟩
    · rintro ⟨_, rfl⟩
      exact ⟨_, rfl, rfl, rfl⟩
  | other i =>
    refine iff_of_false ?_ (fun h => h.1 i rfl)
    simp only [jsonWriteCell, hw, Option.some.injEq]
    rintro ⟨w, rfl, h, _⟩
    cases h
  | _ =>
    simp only [jsonWriteCell, hw, Option.some.injEq]
    constructor
    · rintro ⟨w, rfl, _, rfl⟩
      exact ⟨by simp, rfl⟩
    · rintro ⟨_, rfl⟩
      exact ⟨_, rfl, rfl, rfl⟩

/-- **C20, one entry of the parameters table.**  Its name and its value come back exactly if `JsonParamKeeps` says so. -/
theorem json_param_iff {env : TextEnv} (hT : ∀ d, env.date (.str (env.text (.dt d))) = some d) (cf : IOConf) (hp : cf.params ≠ [])
    (f f' : String) (k v : Cell) :
    (JsonCell env cf "parameters" f k k ∧ ∃ w, JsonCell env cf "parameters" f' v w ∧ fixParam env cf.params k w = v) ↔
      JsonParamKeeps env cf.params k v := by
  have hcell := fun g x y => json_param_cell (env := env) cf hp g x y
  unfold JsonParamKeeps
  have hkey : JsonCell env cf "parameters" f k k ↔ (k ≠ .nan ∧ (∀ d, k ≠ .dt d) ∧ ∀ i, k ≠ .other i) := by
    rw [hcell]
    cases k <;> simp [Cell.isNull, jsonParamText]
  rw [hkey]
  refine and_congr_right fun _ => ?_
  simp only [hcell]
  cases v with
  | other i => simp
  | nan =>
    refine iff_of_false ?_ id
    rintro ⟨w, ⟨_, rfl⟩, h⟩
    exact fix_none env cf.params k h
  | dt d =>
    simp only [Cell.isNull, jsonParamText]
    constructor
    · rintro ⟨w, ⟨_, rfl⟩, h⟩
      unfold fixParam at h
      rw [paramType_eq] at h
      cases htd : paramType cf.params k with
      | none =>
        rw [htd] at h
        simp only [Option.map_none, Option.getD_none, Bool.false_eq_true, if_false, if_true, toFloat] at h
        cases hf : env.float (env.text (.dt d)) with
        | none => rw [hf] at h; cases h
        | some y => rw [hf] at h; cases y <;> cases h
      | some td =>
        refine ⟨td, rfl, ?_⟩
        cases hdt : td.datetime with
        | true => rfl
        | false =>
          rw [htd] at h
          simp only [Option.map_some, Option.getD_some, hdt, Bool.false_eq_true, if_false] at h
          split at h
          · cases h
          · split at h
            · simp only [toFloat] at h
              cases hf : env.float (env.text (.dt d)) with
              | none => simp [hf] at h
              | some y => cases y <;> simp [hf, floatCell] at h
            · cases h
    · rintro ⟨td, htd, hdt⟩
      refine ⟨_, ⟨by simp, rfl⟩, ?_⟩
      have h1 : td.validData env.parses (.str (env.text (.dt d))) = true := by
        rw [valid_data_iff]
        refine Or.inr (Or.inl ⟨?_, hdt, Or.inr ?_⟩)
        · rintro (h | h) <;> cases h
        · simp [TextEnv.parses, dateAdjust, hT]
      unfold fixParam
      simp [paramType_eq, htd, h1, hdt, dateAdjust, hT]
  | none => simp [Cell.isNull, jsonParamText, fix_param_iff]
  | num y => simp [Cell.isNull, jsonParamText, fix_param_iff]
  | str s => simp [Cell.isNull, jsonParamText, fix_param_iff]
  | bool b => simp [Cell.isNull, jsonParamText, fix_param_iff]

/-- Is the table the parameters table of a factory with declared parameters. -/
def IsParamsB (params : Params) (t : String) : Bool := !decide (params = []) && decide (t = "parameters")

theorem isParamsB_iff (params : Params) (t : String) : IsParamsB params t = true ↔ IsParams params t := by
  simp [IsParamsB, IsParams]

/-- The adjustment of one table. -/
theorem postRead_entry (env : TextEnv) (params : Params) (dat2 : PyDict String TabVal) (t : String) :
    PyDict.get? (postRead env params dat2) t = (PyDict.get? dat2 t).map (fun tab =>
      if IsParamsB params t then (match tab with
        | .keyed d => .keyed (d.map (postReadEntry env params))
        | x => x) else tab) := by
  unfold postRead IsParamsB
  by_cases hp : params = []
  · simp [hp]
  · rw [if_neg hp]
    induction dat2 with
    | nil => rfl
    | cons p dat2 ih =>
      obtain ⟨k, v⟩ := p
      rw [List.map_cons]
      by_cases hk : k = "parameters"
      · subst hk
        by_cases ht : "parameters" = t
        · subst ht
          rw [if_pos rfl]
          cases v <;> simp [PyDict.get?, hp]
        · simp only [if_pos, PyDict.get?, if_neg ht]
          exact ih
      · by_cases ht : k = t
        · subst ht
          simp [PyDict.get?, hk]
        · simp only [if_neg hk, PyDict.get?, if_neg ht]
          exact ih

theorem postReadEntry_inv (env : TextEnv) (params : Params) (q : KeyArg × RowVal) (k : Cell) (f : String) (v : Cell)
    (h : postReadEntry env params q = (.one k, [(f, v)])) : ∃ v0, q = (.one k, [(f, v0)]) ∧ fixParam env params k v0 = v := by
  unfold postReadEntry at h
  split at h
  · rename_i k0 f0 v0
    cases h
    exact ⟨v0, rfl, rfl⟩
  · rename_i hno
    subst h
    exact absurd rfl (hno k f v)

/-- The entries of a parameters table that is read and adjusted. -/
theorem params_back (env : TextEnv) (params : Params) (c : TabClass) (hpk : c.pks.length = 1) (hdf : c.dfs.length = 1)
    (d2 : List (KeyArg × RowVal)) (hws : WellShaped c (.keyed (d2.map (postReadEntry env params))))
    (R : String → Cell → Cell → Prop)
    (h : Pairwise2 (RowRel c.fields R) (tabRows (.keyed (d2.map (postReadEntry env params)))) (tabRows (.keyed d2)))
    (p : KeyArg × RowVal) (hp : p ∈ d2.map (postReadEntry env params)) :
    ∃ k f v v0 pf, p = (.one k, [(f, v)]) ∧ R pf k k ∧ R f v v0 ∧ fixParam env params k v0 = v := by
  obtain ⟨q, hq2, rfl⟩ := List.mem_map.mp hp
  obtain ⟨hks, hdk⟩ := hws.2.2 _ hp
  obtain ⟨pf, hpf⟩ := List.length_eq_one_iff.mp hpk
  obtain ⟨df, hdff⟩ := List.length_eq_one_iff.mp hdf
  obtain ⟨k, v, hkv⟩ : ∃ k v, postReadEntry env params q = (.one k, [(df, v)]) := by
    generalize postReadEntry env params q = p at hks hdk
    obtain ⟨ka, row⟩ := p
    rw [hdff] at hdk
    cases ka with
    | tup vs => exact absurd hpk hks.2
    | one k =>
      match row, hdk with
      | [(f0, v)], hdk =>
        simp [PyDict.keys] at hdk
        subst hdk
        exact ⟨k, v, rfl⟩
  obtain ⟨v0, rfl, hfix⟩ := postReadEntry_inv env params q k df v hkv
  have hrel : ∀ (d : List (KeyArg × RowVal)), Pairwise2 (RowRel c.fields R)
      (tabRows (.keyed (d.map (postReadEntry env params)))) (tabRows (.keyed d)) → ∀ q ∈ d,
      RowRel c.fields R (flatOf (postReadEntry env params q)) (flatOf q) := by
    intro d
    induction d with
    | nil => intro _ q hq; cases hq
    | cons a d ih =>
      intro hh q hq
      cases hh with
      | cons ha hh =>
        rcases List.mem_cons.mp hq with e | hq
        · rw [e]; exact ha
        · exact ih hh q hq
  have h11 := hrel d2 h _ hq2
  rw [hkv] at h11
  have hfields : c.fields = [pf, df] := by rw [TabClass.fields, hpf, hdff]; rfl
  exact ⟨k, df, v, v0, pf, hkv, h11.2.2 0 pf k k (by rw [hfields]; rfl) rfl rfl,
    h11.2.2 1 df v v0 (by rw [hfields]; rfl) rfl rfl, hfix⟩

theorem postRead_keys (env : TextEnv) (params : Params) (dat2 : PyDict String TabVal) :
    PyDict.keys (postRead env params dat2) = PyDict.keys dat2 := by
  unfold postRead PyDict.keys
  split
  · rfl
  · rw [List.map_map]
    apply List.map_congr_left
    intro p _
    simp only [Function.comp_apply]
    split <;> rfl

/-- **C20.**  A data object written to json, in either layout, comes back as it was if and only if every cell of every table is one that json
carries, as spelled out in `JsonKeeps`, and every entry of the parameters table, if parameters are declared, is one of `JsonParamKeeps`.
The parameters table has one key field and one data field, as `add_parameter` demands. -/
theorem json_round_trip_params_iff (env : TextEnv) (hT : ∀ d, env.date (.str (env.text (.dt d))) = some d) (cenv : CaseEnv)
    (cf : IOConf) (hq : ∀ q, cf.flag = .num q → 0 < q) (policy : DupPolicy) (verbose : Bool)
    (schema : List (String × TabClass))
    (hg : goodTableNames cenv (schema.map (fun tc => tc.1.toList)) = true) (hf : ∀ tc ∈ schema, tc.2.fields.Nodup)
    (hps : ∀ tc ∈ schema, IsParams cf.params tc.1 → tc.2.pks.length = 1 ∧ tc.2.dfs.length = 1)
    (dat : PyDict String TabVal) (hd : DatOK schema dat) :
    (∃ file, jsonWrite env cf verbose schema dat = some file ∧ ∀ file', SameJson file file' →
      jsonCreate env cenv cf policy schema file' = some dat) ↔
    (∀ tc ∈ schema, ∀ tab, PyDict.get? dat tc.1 = some tab → ¬ IsParams cf.params tc.1 → ∀ f x, HasCell tc.2 tab f x →
      JsonKeeps env cf tc.1 f x) ∧
    (∀ tab, PyDict.get? dat "parameters" = some tab → cf.params ≠ [] → ParamEntries (JsonParamKeeps env cf.params) tab) := by
  have hg' : goodTableNames cenv ((schema.map Prod.fst).map String.toList) = true := by
    rw [List.map_map]; exact hg
  have hnames : (schema.map Prod.fst).Nodup := nodup_of_map _ (nodup_of_map _ ((goodTableNames_iff cenv _).mp hg').2.2)
  have hdn : (PyDict.keys dat).Nodup := by rw [hd.1]; exact hnames
  have hget : ∀ tc ∈ schema, ∃ tab, PyDict.get? dat tc.1 = some tab := by
    intro tc htc
    cases h : PyDict.get? dat tc.1 with
    | some tab => exact ⟨tab, rfl⟩
    | none =>
      rw [PyDict.get?_eq_none, hd.1] at h
      exact absurd (List.mem_map.mpr ⟨tc, htc, rfl⟩) h
  constructor
  · rintro ⟨file, h1, h2⟩
    have h3 := h2 file (sameJson_refl file)
    unfold jsonCreate at h3
    simp only [Option.bind_eq_some_iff, Option.map_eq_some_iff] at h3
    obtain ⟨input, h4, dat2, h5, hpr⟩ := h3
    unfold jsonWrite at h1
    rw [mapM_eq_some_iff] at h1
    have hrow : ∀ tc ∈ schema, ∃ tab rows, PyDict.get? dat tc.1 = some tab ∧
        jsonTable env cf verbose tc.1 tc.2 tab = some rows ∧ (tc.1, rows) ∈ file := by
      intro tc htc
      obtain ⟨tab, h⟩ := hget tc htc
      have : ((PyDict.get? dat tc.1).bind (fun tab =>
          (jsonTable env cf verbose tc.1 tc.2 tab).map (fun rows => (tc.1, rows)))) ∈ file.map some := by
        rw [← h1]; exact List.mem_map.mpr ⟨tc, htc, rfl⟩
      obtain ⟨q, h6, h7⟩ := List.mem_map.mp this
      rw [h, Option.bind_some, eq_comm, Option.map_eq_some_iff] at h7
      obtain ⟨rows, h8, rfl⟩ := h7
      exact ⟨tab, rows, h, h8, h6⟩
    have hkeys : PyDict.keys file = schema.map Prod.fst := by
      have h3 := congrArg (List.map (fun o : Option (String × List RowIn) => o.map Prod.fst)) h1
      rw [List.map_map, List.map_map] at h3
      have h4 : (schema.map Prod.fst).map some = (PyDict.keys file).map some := by
        unfold PyDict.keys
        rw [List.map_map, List.map_map]
        refine Eq.trans ?_ h3
        apply List.map_congr_left
        intro tc htc
        obtain ⟨tab, rows, hr, hj, _⟩ := hrow tc htc
        simp only [Function.comp_apply, hr, hj, Option.bind_some, Option.map_some]
      exact ((List.map_inj_right (fun _ _ => Option.some.inj)).mp h4).symm
    have hfn : (PyDict.keys file).Nodup := by rw [hkeys]; exact hnames
    -- each table is read, and adjusted
    have htab : ∀ tc ∈ schema, ∀ tab, PyDict.get? dat tc.1 = some tab → ∃ rows y tab2,
        jsonTable env cf verbose tc.1 tc.2 tab = some rows ∧ jsonReadTable env cf tc.1 tc.2 rows = some y ∧
        initTable tc.2 y = some tab2 ∧ tab = (if IsParamsB cf.params tc.1 then (match tab2 with
          | .keyed d => .keyed (d.map (postReadEntry env cf.params))
          | x => x) else tab2) := by
      intro tc htc tab htab
      obtain ⟨tab', rows, h6, h7, h8⟩ := hrow tc htc
      rw [htab] at h6
      cases h6
      obtain ⟨rows', y, h9, h10, h11⟩ := jsonTables_inv env cenv cf _ hg' file (by rw [hkeys]) schema
        (fun tc h => List.mem_map.mpr ⟨tc, h, rfl⟩) hnames input h4 tc htc
      rw [PyDict.get?_of_mem hfn h8] at h9
      cases h9
      unfold initDat at h5
      split at h5
      case isFalse => cases h5
      cases hm : schema.mapM (initEntry input) with
      | none => rw [hm] at h5; cases h5
      | some tabs =>
        rw [hm] at h5
        simp only at h5
        split at h5
        case isTrue => cases h5
        cases h5
        rw [mapM_eq_some_iff] at hm
        have : initEntry input tc ∈ dat2.map some := by rw [← hm]; exact List.mem_map.mpr ⟨tc, htc, rfl⟩
        obtain ⟨q, h12, h13⟩ := List.mem_map.mp this
        have h13 := h13.symm
        unfold initEntry at h13
        rw [h11] at h13
        simp only [Option.map_eq_some_iff] at h13
        obtain ⟨tab2, h14, rfl⟩ := h13
        have hk2 : (PyDict.keys dat2).Nodup := by
          have : PyDict.keys dat2 = PyDict.keys dat := by
            rw [← hpr]
            unfold postRead PyDict.keys
            split
            · rfl
            · rw [List.map_map]
              apply List.map_congr_left
              intro p _
              simp only [Function.comp_apply]
              split <;> rfl
          rw [this]
          exact hdn
        have h15 := PyDict.get?_of_mem hk2 h12
        refine ⟨rows, y, tab2, h7, h10, h14, ?_⟩
        have h16 := postRead_entry env cf.params dat2 tc.1
        rw [hpr, htab, h15, Option.map_some] at h16
        exact Option.some.inj h16
    constructor
    · intro tc htc tab htb hnp f x hx
      obtain ⟨rows, y, tab2, h6, h7, h8, h9⟩ := htab tc htc tab htb
      rw [if_neg (by rw [isParamsB_iff]; exact hnp)] at h9
      subst h9
      rw [← json_cell_iff hT cf hq tc.1 f x hnp]
      exact json_table_inv env cf tc.1 tc.2 (hf tc htc) verbose tab (hd.2 tc htc tab htb) rows h6 y h7 h8 f x hx
    · intro tab htb hpar
      obtain ⟨tc, htc, htn⟩ : ∃ tc ∈ schema, tc.1 = "parameters" := by
        have : "parameters" ∈ PyDict.keys dat := by
          refine Classical.byContradiction (fun hno => ?_)
          rw [(PyDict.get?_eq_none _ _).mpr hno] at htb
          cases htb
        rw [hd.1] at this
        obtain ⟨tc, h, e⟩ := List.mem_map.mp this
        exact ⟨tc, h, e⟩
      have hip : IsParams cf.params tc.1 := ⟨hpar, htn⟩
      rw [← htn] at htb
      obtain ⟨hpk, hdf⟩ := hps tc htc hip
      have hws := hd.2 tc htc tab htb
      obtain ⟨rows, y, tab2, h6, h7, h8, h9⟩ := htab tc htc tab htb
      rw [if_pos (by rw [isParamsB_iff]; exact hip)] at h9
      cases tab2 with
      | plain rs =>
        subst h9
        rw [hws.1] at hpk
        cases hpk
      | keyed d2 =>
        subst h9
        have h10 := json_table_rel env cf tc.1 tc.2 (hf tc htc) verbose _ (.keyed d2) hws rows h6 y h7 h8 (by simp [TabVal.size])
        intro p hp
        obtain ⟨k, f, v, v0, pf, rfl, h11, h12, h13⟩ := params_back env cf.params tc.2 hpk hdf d2 hws _ h10 p hp
        rw [htn] at h11 h12
        exact ⟨k, f, v, rfl, (json_param_iff hT cf hpar pf f k v).mp ⟨h11, v0, h12, h13⟩⟩
  · rintro ⟨h, hp⟩
    obtain ⟨dat', hk', hpost, hrel⟩ := params_view env cf.params (jsonParamText env) schema hnames hf dat hd.1 hd.2
      (fun t f x y => JsonCell env cf t f x y)
      (fun tc htc tab hget hnp f x hx => (json_cell_iff hT cf hq tc.1 f x hnp).mpr (h tc htc tab hget hnp f x hx))
      (JsonParamKeeps env cf.params) hp
      (by
        intro hpar f f' k v hkv
        obtain ⟨h1, w, h2, h3⟩ := (json_param_iff hT cf hpar f f' k v).mpr hkv
        have : w = jsonParamText env v := by
          have h4 := (json_param_cell cf hpar f' v w).mp h2
          rw [h4.2]
          cases v with
          | nan => exact absurd hkv.2 id
          | _ => rfl
        rw [this] at h2 h3
        exact ⟨h1, h2, h3⟩)
    obtain ⟨file, h1, h2⟩ := json_read_back env cenv cf policy verbose schema hg hf dat dat' hk' hrel
    exact ⟨file, h1, fun file' hs => by rw [h2 file' hs, hpost]⟩

/-- One declared parameter without type: the object comes back if and only if its value is text that does not read as a number, a number
or `None`. -/
example (env : TextEnv) (hT : ∀ d, env.date (.str (env.text (.dt d))) = some d) (v : Cell) :
    (∃ file, jsonWrite env ⟨[], .na, false, [(.str "Gap", (none, .num (.fin 0)))]⟩ true [("parameters", ⟨["Key"], ["Value"], []⟩)]
        [("parameters", .keyed [(.one (.str "Gap"), [("Value", v)])])] = some file ∧ ∀ file', SameJson file file' →
      jsonCreate env asciiEnv ⟨[], .na, false, [(.str "Gap", (none, .num (.fin 0)))]⟩ .assert [("parameters", ⟨["Key"], ["Value"], []⟩)]
        file' = some [("parameters", .keyed [(.one (.str "Gap"), [("Value", v)])])]) ↔
    (∃ s, v = .str s ∧ env.float s = none) ∨ (∃ y, v = .num y) ∨ v = .none := by
  refine Iff.trans (json_round_trip_params_iff env hT asciiEnv _ (by intro q h; cases h) .assert true _ (by decide +kernel)
    (by intro tc h; simp at h; subst h; decide) (by intro tc h _; simp at h; subst h; decide) _ ⟨rfl, ?_⟩) ?_
  · intro tc htc tab htab
    simp at htc
    subst htc
    simp [PyDict.get?] at htab
    subst htab
    refine ⟨by simp, by simp [PyDict.keys], ?_⟩
    intro p hp
    simp at hp
    subst hp
    exact ⟨by simp [KeyShape], rfl⟩
  · have : JsonParamKeeps env [(.str "Gap", (none, .num (.fin 0)))] (.str "Gap") v ↔
        (∃ s, v = .str s ∧ env.float s = none) ∨ (∃ y, v = .num y) ∨ v = .none := by
      unfold JsonParamKeeps ParamFixed NoNumberText paramType
      cases v <;> simp [PyDict.get?]
    rw [← this]
    constructor
    · rintro ⟨_, h⟩
      obtain ⟨k, f, w, h1, h2⟩ := h _ rfl (by simp) _ (List.mem_singleton.mpr rfl)
      cases h1
      exact h2
    · intro h
      refine ⟨?_, ?_⟩
      · intro tc htc _ _ hnp
        simp at htc
        subst htc
        exact absurd ⟨by simp, rfl⟩ hnp
      · intro tab htab _
        cases htab
        intro p hp
        rw [List.mem_singleton] at hp
        subst hp
        exact ⟨_, _, _, rfl, h⟩

end Ticdat

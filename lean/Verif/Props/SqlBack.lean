import Verif.Props.SqlCells
import Verif.Props.SqlFileWrite
import Verif.Props.CsvBack
import Verif.Props.JsonParams
/-!
# C47: which objects a SQLite database or a .sql file keeps
-/
set_option linter.unusedSectionVars false
set_option linter.unusedSimpArgs false
namespace Ticdat
open Spec

/-- **C47, .sql files.**  As `sql_file_round_trip`, for all the cells that a .sql file can carry. -/
theorem sql_file_round_trip_keeps (env : TextEnv) (hT : ∀ d, env.date (.str (env.text (.dt d))) = some d) (senv : SqlEnv)
    (cenv : CaseEnv) (laws : CaseLaws cenv) (hW : SqlWords cenv senv) (hI : FloatInf env) (cf : IOConf)
    (hq : ∀ q, cf.flag = .num q → 0 < q) (dv : Defaults) (policy : DupPolicy)
    (schema : List (String × TabClass))
    (hg : goodTableNames cenv (schema.map (fun tc => tc.1.toList)) = true)
    (hf : ∀ tc ∈ schema, (tc.2.fields.map (fun f => cenv.lower f.toList)).Nodup)
    (dat : PyDict String TabVal) (hk : PyDict.keys dat = schema.map Prod.fst)
    (hw : ∀ tc ∈ schema, ∀ tab, PyDict.get? dat tc.1 = some tab → WellShaped tc.2 tab)
    (hc : ∀ tc ∈ schema, ∀ tab, PyDict.get? dat tc.1 = some tab → ¬ IsParams cf.params tc.1 → ∀ f x,
      HasCell tc.2 tab f x → SqlKeeps env senv cenv cf dv true (decide (tc.2.pks ≠ [])) tc.1 f x)
    (hp : ∀ tab, PyDict.get? dat "parameters" = some tab → cf.params ≠ [] →
      ParamEntries (SqlParam env cenv cf true) tab) :
    ∃ db, sqlRunFile env senv cenv cf dv schema dat = some db ∧ ∀ db', SameDb db db' →
      ∃ dat2, sqlCreate env cenv cf policy schema db' = some dat2 ∧ SameUpToOrder dat dat2 :=
  sql_file_trip_cells env hT senv cenv laws hW cf dv policy schema hg hf dat hk hw
    (fun tc htc tab hget hnp f x hx => (sql_cell_iff hT hI hW cf hq dv true _ tc.1 f x hnp).mpr (hc tc htc tab hget hnp f x hx)) hp

/-- **C47, databases.**  As `sql_db_round_trip`, for all the cells that a database can carry. -/
theorem sql_db_round_trip_keeps (env : TextEnv) (hT : ∀ d, env.date (.str (env.text (.dt d))) = some d) (senv : SqlEnv)
    (cenv : CaseEnv) (laws : CaseLaws cenv) (hW : SqlWords cenv senv) (hI : FloatInf env) (cf : IOConf)
    (hq : ∀ q, cf.flag = .num q → 0 < q) (dv : Defaults) (policy : DupPolicy)
    (allowOverwrite : Bool) (schema : List (String × TabClass))
    (hg : goodTableNames cenv (schema.map (fun tc => tc.1.toList)) = true)
    (hf : ∀ tc ∈ schema, (tc.2.fields.map (fun f => cenv.lower f.toList)).Nodup)
    (dat : PyDict String TabVal) (hk : PyDict.keys dat = schema.map Prod.fst)
    (hw : ∀ tc ∈ schema, ∀ tab, PyDict.get? dat tc.1 = some tab → WellShaped tc.2 tab)
    (hc : ∀ tc ∈ schema, ∀ tab, PyDict.get? dat tc.1 = some tab → ¬ IsParams cf.params tc.1 → ∀ f x,
      HasCell tc.2 tab f x → SqlKeeps env senv cenv cf dv false (decide (tc.2.pks ≠ [])) tc.1 f x)
    (hp : ∀ tab, PyDict.get? dat "parameters" = some tab → cf.params ≠ [] →
      ParamEntries (SqlParam env cenv cf false) tab)
    (old : Option SqlDb)
    (hold : ∀ db, old = some db → (PyDict.keys db).Nodup ∧
      (∀ tc ∈ schema, ∃ rows, PyDict.get? db tc.1 = some rows ∧ (allowOverwrite = true ∨ rows = [])) ∧
      ∀ k ∈ PyDict.keys db, ∀ tc ∈ schema, unblank (cenv.lower k.toList) = cenv.lower tc.1.toList → k = tc.1) :
    ∃ db, sqlWriteDb env senv cenv cf dv allowOverwrite schema dat old = some db ∧
      (∀ db0, old = some db0 → ∀ k, (∀ tc ∈ schema, k ≠ tc.1) → PyDict.get? db k = PyDict.get? db0 k) ∧
      ∀ db', SameDb db db' → ∃ dat2, sqlCreate env cenv cf policy schema db' = some dat2 ∧ SameUpToOrder dat dat2 :=
  sql_db_trip_cells env hT senv cenv laws hW cf dv policy allowOverwrite schema hg hf dat hk hw
    (fun tc htc tab hget hnp f x hx => (sql_cell_iff hT hI hW cf hq dv false _ tc.1 f x hnp).mpr (hc tc htc tab hget hnp f x hx)) hp old hold

/-- **C77.**  As `sqlite_existing_db_round_trip`, for all the cells that a database can carry. -/
theorem sqlite_existing_db_round_trip_keeps (env : TextEnv) (hT : ∀ d, env.date (.str (env.text (.dt d))) = some d) (senv : SqlEnv)
    (cenv : CaseEnv) (laws : CaseLaws cenv) (hW : SqlWords cenv senv) (hI : FloatInf env) (cf : IOConf)
    (hq : ∀ q, cf.flag = .num q → 0 < q) (dv : Defaults) (policy : DupPolicy)
    (allowOverwrite : Bool) (schema : List (String × TabClass))
    (hg : goodTableNames cenv (schema.map (fun tc => tc.1.toList)) = true)
    (hf : ∀ tc ∈ schema, (tc.2.fields.map (fun f => cenv.lower f.toList)).Nodup)
    (dat : PyDict String TabVal) (hk : PyDict.keys dat = schema.map Prod.fst)
    (hw : ∀ tc ∈ schema, ∀ tab, PyDict.get? dat tc.1 = some tab → WellShaped tc.2 tab)
    (hc : ∀ tc ∈ schema, ∀ tab, PyDict.get? dat tc.1 = some tab → ¬ IsParams cf.params tc.1 → ∀ f x,
      HasCell tc.2 tab f x → SqlKeeps env senv cenv cf dv false (decide (tc.2.pks ≠ [])) tc.1 f x)
    (hp : ∀ tab, PyDict.get? dat "parameters" = some tab → cf.params ≠ [] →
      ParamEntries (SqlParam env cenv cf false) tab)
    (file : SqlFile) (hwf : SqlFileWF cenv file)
    (hfile : ∀ tc ∈ schema, ∃ tab, HasTable cenv file tc.1 tab ∧ TakesRows cenv cf dv tc.1 tc.2 tab ∧
      (allowOverwrite = true ∨ tab.rows = [])) :
    ∃ file', sqlFileWrite env senv cenv cf allowOverwrite schema dat file = (file', false) ∧
      PyDict.keys file' = PyDict.keys file ∧
      (∀ p ∈ file, (∀ tc ∈ schema, ¬ SqlSame cenv p.1 tc.1) → p ∈ file') ∧
      (∀ tc ∈ schema, ∀ tab, HasTable cenv file tc.1 tab → ∃ tab', HasTable cenv file' tc.1 tab' ∧ tab'.cols = tab.cols ∧
        tab'.key = tab.key ∧ ∀ r ∈ tab'.rows, DefaultsIn cenv tab tc.2.fields r) ∧
      ∀ file'', SameSqlFile file' file'' →
        ∃ dat2, sqlFileCreate env cenv cf policy schema file'' = some dat2 ∧ SameUpToOrder dat dat2 :=
  sqlite_existing_db_trip_cells env hT senv cenv laws hW cf dv policy allowOverwrite schema hg hf dat hk hw
    (fun tc htc tab hget hnp f x hx => (sql_cell_iff hT hI hW cf hq dv false _ tc.1 f x hnp).mpr (hc tc htc tab hget hnp f x hx)) hp file hwf hfile

/-! ### The other direction -/

theorem sql_row_inv (env : TextEnv) (senv : SqlEnv) (cenv : CaseEnv) (cf : IOConf) (dv : Defaults) (asSql keyed : Bool) (t : String)
    (fields : List String) (r : List Cell) (hl : r.length = fields.length) (w r' : List Cell)
    (h1 : mapCells (sqlCell env senv cf dv asSql keyed t) fields r = some w)
    (h2 : mapCells (sqlReadCell env cenv cf t) fields w = some r') :
    RowRel fields (SqlCell env senv cenv cf dv asSql keyed t) r r' := by
  have hlw := mapCells_length _ _ _ _ hl h1
  refine ⟨hl, mapCells_length _ _ _ _ hlw h2, fun i f x y hf hx hy => ?_⟩
  obtain ⟨v, h6, h7⟩ := mapCells_at h1 i hf hx
  obtain ⟨y1, h8, h9⟩ := mapCells_at h2 i hf h6
  rw [hy] at h8
  cases h8
  exact ⟨v, h7, h9⟩

/-- The rows of a table that is written and read, without rows lost: the cells travel through SQLite one by one. -/
theorem sql_table_rel (env : TextEnv) (senv : SqlEnv) (cenv : CaseEnv) (cf : IOConf) (dv : Defaults) (asSql : Bool) (t : String) (c : TabClass)
    (hfn : c.fields.Nodup) (tab tab' : TabVal) (h : WellShaped c tab) (rows : List (List Cell))
    (h1 : sqlRows env senv cf dv asSql t c tab = some rows) (rs' : List (List Cell))
    (h2 : rows.mapM (mapCells (sqlReadCell env cenv cf t) c.fields) = some rs')
    (h3 : initTable c (readerTable c rs') = some tab')
    (hs : tab'.size = tab.size) :
    Pairwise2 (RowRel c.fields (SqlCell env senv cenv cf dv asSql (decide (c.pks ≠ [])) t)) (tabRows tab) (tabRows tab') := by
  have hdn : c.dfs.Nodup := (List.nodup_append.mp hfn).2.1
  have hrl : ∀ r ∈ tabRows tab, r.length = c.fields.length := tabRows_length c tab h
  unfold sqlRows at h1
  rw [flatRows_eq c hdn tab h, Option.bind_some, isKeyed_of_shape c tab h] at h1
  rw [Option.bind_eq_some_iff] at h1
  obtain ⟨ws, h4, h5⟩ := h1
  split at h5
  case isTrue => cases h5
  cases h5
  rw [mapM_eq_some_iff] at h4 h2
  have key : ∀ (rs ws rs' : List (List Cell)), (∀ r ∈ rs, r.length = c.fields.length) →
      rs.map (mapCells (sqlCell env senv cf dv asSql (decide (c.pks ≠ [])) t) c.fields) = ws.map some →
      ws.map (mapCells (sqlReadCell env cenv cf t) c.fields) = rs'.map some →
      Pairwise2 (RowRel c.fields (SqlCell env senv cenv cf dv asSql (decide (c.pks ≠ [])) t)) rs rs' := by
    intro rs
    induction rs with
    | nil =>
      intro ls rs' _ h1 h2
      have : ls = [] := by simpa using h1.symm
      subst this
      have : rs' = [] := by simpa using h2.symm
      subst this
      exact .nil
    | cons r rs ih =>
      intro ls rs' ha h1 h2
      cases ls with
      | nil => simp at h1
      | cons w ls =>
        cases rs' with
        | nil => simp at h2
        | cons y rs' =>
          simp only [List.map_cons, List.cons.injEq] at h1 h2
          exact .cons (sql_row_inv env senv cenv cf dv asSql _ t c.fields r (ha r List.mem_cons_self) w y h1.1 h2.1)
            (ih ls rs' (fun r h => ha r (List.mem_cons_of_mem _ h)) h1.2 h2.2)
  have h6 := key _ _ _ hrl h4 h2
  have h7 : tabRows tab' = rs' := by
    refine reader_rows_inv c hfn rs' ?_ tab' h3 ?_
    · intro r hr
      obtain ⟨_, _, h8⟩ := pairwise2_mem h6 r hr
      exact h8.2.1
    · rw [pairwise2_length h6, tabRows_size, hs]
  rw [h7]
  exact h6

/-- **C47, one table, the other direction.**  If a table comes back then so does each of its cells. -/
theorem sql_table_inv (env : TextEnv) (senv : SqlEnv) (cenv : CaseEnv) (cf : IOConf) (dv : Defaults) (asSql : Bool) (t : String) (c : TabClass)
    (hfn : c.fields.Nodup) (tab : TabVal) (h : WellShaped c tab) (rows : List (List Cell))
    (h1 : sqlRows env senv cf dv asSql t c tab = some rows) (rs' : List (List Cell))
    (h2 : rows.mapM (mapCells (sqlReadCell env cenv cf t) c.fields) = some rs')
    (h3 : initTable c (readerTable c rs') = some tab) (f : String) (v : Cell)
    (hv : HasCell c tab f v) : SqlCell env senv cenv cf dv asSql (decide (c.pks ≠ [])) t f v v := by
  have h6 := sql_table_rel env senv cenv cf dv asSql t c hfn tab tab h rows h1 rs' h2 h3 rfl
  obtain ⟨r, hr, hm⟩ := hasCell_row c hfn tab h hv
  have h8 : RowRel c.fields (SqlCell env senv cenv cf dv asSql (decide (c.pks ≠ [])) t) r r := by
    have : ∀ l : List (List Cell), Pairwise2 (RowRel c.fields (SqlCell env senv cenv cf dv asSql (decide (c.pks ≠ [])) t)) l l → ∀ r ∈ l,
        RowRel c.fields (SqlCell env senv cenv cf dv asSql (decide (c.pks ≠ [])) t) r r := by
      intro l hl
      induction l with
      | nil => intro r hr; cases hr
      | cons a l ih =>
        cases hl with
        | cons ha hl =>
          intro r hr
          rcases List.mem_cons.mp hr with e | hr
          · rw [e]; exact ha
          · exact ih hl r hr
    exact this _ h6 r hr
  obtain ⟨i, hi⟩ := List.mem_iff_getElem?.mp hm
  have ⟨h9, h10⟩ := List.getElem?_zip_eq_some.mp hi
  exact h8.2.2 i f v v h9 h10 h10

/-- The core of the other direction, for both containers: how a table has been read and adjusted. -/
theorem sql_back_read (env : TextEnv) (senv : SqlEnv) (cenv : CaseEnv) (laws : CaseLaws cenv) (cf : IOConf)
    (dv : Defaults) (policy : DupPolicy) (asSql : Bool) (schema : List (String × TabClass))
    (hg : goodTableNames cenv (schema.map (fun tc => tc.1.toList)) = true)
    (dat : PyDict String TabVal) (hd : DatOK schema dat) (db0 db : SqlDb) (hdn0 : (PyDict.keys db0).Nodup)
    (hother : ∀ k ∈ PyDict.keys db0, ∀ tc ∈ schema, unblank (cenv.lower k.toList) = cenv.lower tc.1.toList → k = tc.1)
    (h1 : writeAll (fun tc => tc.1) (fun tc => (PyDict.get? dat tc.1).bind (sqlRows env senv cf dv asSql tc.1 tc.2)) schema db0 = some db)
    (h2 : sqlCreate env cenv cf policy schema db = some dat) (tc : String × TabClass) (htc : tc ∈ schema) (tab : TabVal)
    (htab : PyDict.get? dat tc.1 = some tab) :
    ∃ rows rs' tab2, sqlRows env senv cf dv asSql tc.1 tc.2 tab = some rows ∧
      rows.mapM (mapCells (sqlReadCell env cenv cf tc.1) tc.2.fields) = some rs' ∧ initTable tc.2 (readerTable tc.2 rs') = some tab2 ∧
      tab = (if IsParamsB cf.params tc.1 then (match tab2 with
          | .keyed d => .keyed (d.map (postReadEntry env cf.params))
          | x => x) else tab2) := by
  have hg' : goodTableNames cenv ((schema.map Prod.fst).map String.toList) = true := by
    rw [List.map_map]; exact hg
  have ⟨_, hblank, hlow⟩ := (goodTableNames_iff cenv _).mp hg'
  have hnames : (schema.map Prod.fst).Nodup := nodup_of_map _ (nodup_of_map _ hlow)
  have hdn : (PyDict.keys dat).Nodup := by rw [hd.1]; exact hnames
  have hws := hd.2 tc htc tab htab
  have hb : ∀ tc ∈ schema, ' ' ∉ cenv.lower tc.1.toList := by
    intro tc htc h
    exact hblank _ (List.mem_map.mpr ⟨tc.1, List.mem_map.mpr ⟨tc, htc, rfl⟩, rfl⟩) ((lower_blank cenv laws _).mp h)
  obtain ⟨db2, h3, h4, h5, h6⟩ := write_all (fun tc : String × TabClass => tc.1)
    (fun tc => (PyDict.get? dat tc.1).bind (sqlRows env senv cf dv asSql tc.1 tc.2)) (fun _ _ => True) schema hnames
    (fun tc htc => by
      obtain ⟨v, hv⟩ := writeAll_some _ _ _ _ _ h1 tc htc
      exact ⟨v, hv, trivial⟩) db0 hdn0
  rw [h1] at h3
  cases h3
  obtain ⟨rows, h7, h8, _⟩ := h5 tc htc
  rw [htab, Option.bind_some] at h8
  have hother' : ∀ k ∈ PyDict.keys db, ∀ tc ∈ schema, unblank (cenv.lower k.toList) = cenv.lower tc.1.toList → k = tc.1 := by
    intro k hk tc htc he
    by_cases hkn : ∀ tc' ∈ schema, k ≠ tc'.1
    · have hkd : k ∈ PyDict.keys db0 := by
        refine Classical.byContradiction (fun hno => ?_)
        have h11 := h6 k hkn
        rw [(PyDict.get?_eq_none _ _).mpr hno] at h11
        exact (PyDict.get?_eq_none _ _).mp h11 hk
      exact hother k hkd tc htc he
    · obtain ⟨tc', htc', e⟩ : ∃ tc' ∈ schema, k = tc'.1 := by
        refine Classical.byContradiction (fun hno => hkn (fun tc' h e => hno ⟨tc', h, e⟩))
      rw [e, unblank_of_no_blank _ (hb tc' htc')] at he
      rw [e]
      exact String.toList_injective (lower_inj_of_nodup hlow (List.mem_map.mpr ⟨tc'.1, List.mem_map.mpr ⟨tc', htc', rfl⟩, rfl⟩)
        (List.mem_map.mpr ⟨tc.1, List.mem_map.mpr ⟨tc, htc, rfl⟩, rfl⟩) he)
  have hin : tc.1 ∈ PyDict.keys db := by
    refine Classical.byContradiction (fun hno => ?_)
    rw [(PyDict.get?_eq_none _ _).mpr hno] at h7
    cases h7
  have hname := sql_table_found cenv laws schema hg db hother' tc htc hin
  have hsel := sql_select_found cenv schema db h4 hb hother' tc htc rows h7
  unfold sqlCreate at h2
  simp only [Option.map_eq_some_iff, Option.bind_eq_some_iff] at h2
  obtain ⟨dat2, ⟨input, h9, h10⟩, hpr⟩ := h2
  have hk2 : (PyDict.keys dat2).Nodup := by
    rw [← postRead_keys env cf.params dat2, hpr]
    exact hdn
  obtain ⟨_, h12⟩ := gatherTables_inv _ schema hnames input h9
  obtain ⟨o, h13, h14⟩ := h12 tc htc
  unfold sqlFind at h13
  rw [hname] at h13
  simp only [Option.bind_some, hsel, Option.map_eq_some_iff] at h13
  obtain ⟨rs', h15, h16⟩ := h13
  unfold initDat at h10
  split at h10
  case isFalse => cases h10
  cases hm : schema.mapM (initEntry input) with
  | none => rw [hm] at h10; cases h10
  | some tabs =>
    rw [hm] at h10
    simp only at h10
    split at h10
    case isTrue => cases h10
    cases h10
    rw [mapM_eq_some_iff] at hm
    have : initEntry input tc ∈ dat2.map some := by rw [← hm]; exact List.mem_map.mpr ⟨tc, htc, rfl⟩
    obtain ⟨q, h17, h18⟩ := List.mem_map.mp this
    have h18 := h18.symm
    unfold initEntry at h18
    rw [h14, ← h16] at h18
    rw [Option.map_eq_some_iff] at h18
    obtain ⟨tab2, h19, rfl⟩ := h18
    have h20 := postRead_entry env cf.params dat2 tc.1
    rw [hpr, htab, PyDict.get?_of_mem hk2 h17, Option.map_some] at h20
    exact ⟨rows, rs', tab2, h8, h15, h19, Option.some.inj h20⟩

/-- The core of the other direction, for both containers. -/
theorem sql_back_core (env : TextEnv) (senv : SqlEnv) (cenv : CaseEnv) (laws : CaseLaws cenv) (cf : IOConf) (hnp : cf.params = [])
    (dv : Defaults) (policy : DupPolicy) (asSql : Bool) (schema : List (String × TabClass))
    (hg : goodTableNames cenv (schema.map (fun tc => tc.1.toList)) = true) (hf : ∀ tc ∈ schema, tc.2.fields.Nodup)
    (dat : PyDict String TabVal) (hd : DatOK schema dat) (db0 db : SqlDb) (hdn0 : (PyDict.keys db0).Nodup)
    (hother : ∀ k ∈ PyDict.keys db0, ∀ tc ∈ schema, unblank (cenv.lower k.toList) = cenv.lower tc.1.toList → k = tc.1)
    (h1 : writeAll (fun tc => tc.1) (fun tc => (PyDict.get? dat tc.1).bind (sqlRows env senv cf dv asSql tc.1 tc.2)) schema db0 = some db)
    (h2 : sqlCreate env cenv cf policy schema db = some dat) (tc : String × TabClass) (htc : tc ∈ schema) (tab : TabVal)
    (htab : PyDict.get? dat tc.1 = some tab) (f : String) (x : Cell) (hx : HasCell tc.2 tab f x) :
    SqlCell env senv cenv cf dv asSql (decide (tc.2.pks ≠ [])) tc.1 f x x := by
  obtain ⟨rows, rs', tab2, h3, h4, h5, h6⟩ := sql_back_read env senv cenv laws cf dv policy asSql schema hg dat hd db0 db hdn0 hother h1 h2
    tc htc tab htab
  rw [if_neg (by rw [isParamsB_iff]; exact fun h => h.1 hnp)] at h6
  subst h6
  exact sql_table_inv env senv cenv cf dv asSql tc.1 tc.2 (hf tc htc) tab (hd.2 tc htc tab htab) rows h3 rs' h4 h5 f x hx

/-- **C47, .sql files, the other direction.**  For schemas without parameters: if the object that is read from a .sql file is the one
that was written, then every cell is one that `SqlKeeps` describes.  No condition of `sql_file_round_trip_keeps` can be dropped. -/
theorem sql_file_needs_keeps (env : TextEnv) (hT : ∀ d, env.date (.str (env.text (.dt d))) = some d) (senv : SqlEnv)
    (cenv : CaseEnv) (laws : CaseLaws cenv) (hW : SqlWords cenv senv) (hI : FloatInf env) (cf : IOConf)
    (hq : ∀ q, cf.flag = .num q → 0 < q) (hnp : cf.params = []) (dv : Defaults) (policy : DupPolicy)
    (schema : List (String × TabClass))
    (hg : goodTableNames cenv (schema.map (fun tc => tc.1.toList)) = true)
    (hf : ∀ tc ∈ schema, (tc.2.fields.map (fun f => cenv.lower f.toList)).Nodup)
    (dat : PyDict String TabVal) (hd : DatOK schema dat) (db : SqlDb)
    (h1 : sqlRunFile env senv cenv cf dv schema dat = some db) (h2 : sqlCreate env cenv cf policy schema db = some dat) :
    ∀ tc ∈ schema, ∀ tab, PyDict.get? dat tc.1 = some tab → ∀ f x, HasCell tc.2 tab f x →
      SqlKeeps env senv cenv cf dv true (decide (tc.2.pks ≠ [])) tc.1 f x := by
  intro tc htc tab htab f x hx
  rw [← sql_cell_iff hT hI hW cf hq dv true _ tc.1 f x (fun h => h.1 hnp)]
  obtain ⟨db0, h3, h4, _, _, h5⟩ := sql_new_db cenv laws schema hg hf
  rw [sqlRunFile, h3, Option.bind_some] at h1
  exact sql_back_core env senv cenv laws cf hnp dv policy true schema hg (fun tc htc => nodup_of_map _ (hf tc htc)) dat hd db0 db h4 h5
    h1 h2 tc htc tab htab f x hx

/-- **C47, databases, the other direction.**  For schemas without parameters: if the object that is read from a database is the one that
was written, then every cell is one that `SqlKeeps` describes.  No condition of `sql_db_round_trip_keeps` can be dropped. -/
theorem sql_db_needs_keeps (env : TextEnv) (hT : ∀ d, env.date (.str (env.text (.dt d))) = some d) (senv : SqlEnv)
    (cenv : CaseEnv) (laws : CaseLaws cenv) (hW : SqlWords cenv senv) (hI : FloatInf env) (cf : IOConf)
    (hq : ∀ q, cf.flag = .num q → 0 < q) (hnp : cf.params = []) (dv : Defaults) (policy : DupPolicy) (allowOverwrite : Bool)
    (schema : List (String × TabClass))
    (hg : goodTableNames cenv (schema.map (fun tc => tc.1.toList)) = true)
    (hf : ∀ tc ∈ schema, (tc.2.fields.map (fun f => cenv.lower f.toList)).Nodup)
    (dat : PyDict String TabVal) (hd : DatOK schema dat) (old : Option SqlDb)
    (hold : ∀ db, old = some db → (PyDict.keys db).Nodup ∧
      ∀ k ∈ PyDict.keys db, ∀ tc ∈ schema, unblank (cenv.lower k.toList) = cenv.lower tc.1.toList → k = tc.1) (db : SqlDb)
    (h1 : sqlWriteDb env senv cenv cf dv allowOverwrite schema dat old = some db)
    (h2 : sqlCreate env cenv cf policy schema db = some dat) :
    ∀ tc ∈ schema, ∀ tab, PyDict.get? dat tc.1 = some tab → ∀ f x, HasCell tc.2 tab f x →
      SqlKeeps env senv cenv cf dv false (decide (tc.2.pks ≠ [])) tc.1 f x := by
  intro tc htc tab htab f x hx
  rw [← sql_cell_iff hT hI hW cf hq dv false _ tc.1 f x (fun h => h.1 hnp)]
  obtain ⟨db0, h3, h4, h5⟩ : ∃ db0, sqlOpen cenv schema old = some db0 ∧ (PyDict.keys db0).Nodup ∧
      ∀ k ∈ PyDict.keys db0, ∀ tc ∈ schema, unblank (cenv.lower k.toList) = cenv.lower tc.1.toList → k = tc.1 := by
    cases old with
    | none =>
      obtain ⟨db0, h3, h4, _, _, h5⟩ := sql_new_db cenv laws schema hg hf
      exact ⟨db0, h3, h4, h5⟩
    | some d => exact ⟨d, rfl, hold d rfl⟩
  rw [sqlWriteDb, h3, Option.bind_some] at h1
  split at h1
  case isFalse => cases h1
  exact sql_back_core env senv cenv laws cf hnp dv policy false schema hg (fun tc htc => nodup_of_map _ (hf tc htc)) dat hd db0 db h4 h5
    h1 h2 tc htc tab htab f x hx

/-- The hypotheses can be met: an object that comes back, and so each of its cells is kept. -/
example : ∀ tc ∈ sqlExampleSchema, ∀ tab, PyDict.get? sqlExampleDat tc.1 = some tab → ∀ f x, HasCell tc.2 tab f x →
    SqlKeeps unaryText noNums asciiEnv ⟨[], .num 1000, false, []⟩ (fun _ _ => some (.num (.fin 0))) true (decide (tc.2.pks ≠ [])) tc.1 f x := by
  have h : ∃ db, sqlRunFile unaryText noNums asciiEnv ⟨[], .num 1000, false, []⟩ (fun _ _ => some (.num (.fin 0)))
      sqlExampleSchema sqlExampleDat = some db ∧
      sqlCreate unaryText asciiEnv ⟨[], .num 1000, false, []⟩ .assert sqlExampleSchema db = some sqlExampleDat :=
    ⟨_, rfl, by decide +kernel⟩
  obtain ⟨db, h1, h2⟩ := h
  exact sql_file_needs_keeps unaryText unaryText_ok.dt noNums asciiEnv asciiLaws ascii_sqlWords unary_floatInf _
    (fun q h => by cases h; decide +kernel) rfl _ .assert _ (by decide +kernel) (by decide +kernel) _ ⟨rfl, sqlExample_shape⟩ db h1 h2

end Ticdat

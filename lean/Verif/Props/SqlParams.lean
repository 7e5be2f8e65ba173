import Verif.Spec.SqlParams
import Verif.Props.SqlBack
import Verif.Props.CsvParams
/-!
# C47: which objects a SQLite database or a .sql file keeps, with parameters
-/
set_option linter.unusedSectionVars false
set_option linter.unusedSimpArgs false
namespace Ticdat
open Spec

/-- The value of a parameter as it is seen in SQLite. -/
def sqlParamSeen (env : TextEnv) (asSql : Bool) : Cell → Cell
  | .nan => .none
  | .num .pinf => if asSql then .str "inf" else .num .pinf
  | .num .ninf => if asSql then .str "-inf" else .num .ninf
  | .dt d => .str (env.text (.dt d))
  | x => x

theorem sql_read_param {env : TextEnv} {cenv : CaseEnv} (cf : IOConf) (hp : cf.params ≠ []) (f s : String) :
    (NoBoolWord cenv s ∧ sqlReadCell env cenv cf "parameters" f (.str s) = some (.str s)) ∨
    (¬ NoBoolWord cenv s ∧ ∃ b, sqlReadCell env cenv cf "parameters" f (.str s) = some (.bool b)) := by
  unfold sqlReadCell NoBoolWord
  simp only
  rw [if_neg (by rintro ⟨_, _, h⟩; exact h ⟨trivial, hp⟩)]
  by_cases h1 : cenv.lower s.toList = "true".toList
  · rw [if_pos h1]
    exact .inr ⟨fun h => h.1 h1, true, rfl⟩
  · rw [if_neg h1]
    by_cases h2 : cenv.lower s.toList = "false".toList
    · rw [if_pos h2]
      exact .inr ⟨fun h => h.2 h2, false, rfl⟩
    · rw [if_neg h2]
      exact .inl ⟨⟨h1, h2⟩, by simp [readCell]⟩

/-- How a cell of the parameters table travels through SQLite. -/
theorem sql_param_put {env : TextEnv} {senv : SqlEnv} {cenv : CaseEnv} (cf : IOConf)
    (dv : Defaults) (asSql : Bool) (hp : cf.params ≠ []) (f : String) (x y : Cell) (hb : ∀ b, x ≠ .bool b) :
    SqlCell env senv cenv cf dv asSql true "parameters" f x y ↔
      ∃ v, sqlStore env senv asSql false (if x.isNull then .none else x) = some v ∧ sqlReadCell env cenv cf "parameters" f v = some y := by
  have haff : sqlAffinity cf dv "parameters" f = false := by
    simp [sqlAffinity, hp]
  have hw : sqlWriteCell env cf "parameters" f x = some (if x.isNull then .none else x) := by
    cases x with
    | bool b => exact absurd rfl (hb b)
    | _ => simp [sqlWriteCell, writeCell, hp]
  rw [sqlCell_split]
  simp only [if_true, hw, haff, Option.some.injEq]
  constructor
  · rintro ⟨w, rfl, h⟩; exact h
  · intro h; exact ⟨_, rfl, h⟩

theorem sql_param_words {env : TextEnv} {senv : SqlEnv} {cenv : CaseEnv} (hW : SqlWords cenv senv) (cf : IOConf)
    (hD : ∀ d, NoBoolWord cenv (env.text (.dt d)))
    (dv : Defaults) (asSql : Bool) (hp : cf.params ≠ []) (f : String) (x y : Cell) :
    SqlCell env senv cenv cf dv asSql true "parameters" f x y ↔
      match x with
      | .other _ => False
      | .str s => ∃ s', (if asSql then sqlFileText s else some s) = some s' ∧
          ((NoBoolWord cenv s' ∧ y = .str s') ∨ ∃ b, ¬ NoBoolWord cenv s' ∧ y = .bool b ∧
            sqlReadCell env cenv cf "parameters" f (.str s') = some (.bool b))
      | x => y = sqlParamSeen env asSql x := by
  have hr : ∀ w, (∀ s, w ≠ .str s) → (sqlReadCell env cenv cf "parameters" f w = some y ↔ y = w) := by
    intro w hw
    cases w with
    | str s => exact absurd rfl (hw s)
    | _ =>
      simp only [sqlReadCell, readCell, if_true, Option.some.injEq]
      exact eq_comm
  have hrs : ∀ s, NoBoolWord cenv s → (sqlReadCell env cenv cf "parameters" f (.str s) = some y ↔ y = .str s) := by
    intro s hs
    rcases sql_read_param (env := env) (cenv := cenv) cf hp f s with ⟨_, h⟩ | ⟨h, _⟩
    · rw [h, Option.some.injEq]; exact eq_comm
    · exact absurd hs h
  have hinf : NoBoolWord cenv "inf" := by
    unfold NoBoolWord; rw [hW.inf]; decide
  have hninf : NoBoolWord cenv "-inf" := by
    unfold NoBoolWord; rw [hW.ninf]; decide
  cases x with
  | bool b =>
    have h := sql_bool (env := env) hW (cf := cf) (dv := dv) (t := "parameters") (f := f) asSql b
    simp only [sqlParamSeen]
    constructor
    · intro h'
      obtain ⟨w, h1, h2⟩ := h
      obtain ⟨w', h3, h4⟩ := h'
      rw [h1] at h3
      cases h3
      rw [h2] at h4
      exact (Option.some.inj h4).symm
    · rintro rfl; exact h
  | none =>
    rw [sql_param_put cf dv asSql hp f _ _ (by simp)]
    simp [Cell.isNull, sqlStore, hr, sqlParamSeen]
  | nan =>
    rw [sql_param_put cf dv asSql hp f _ _ (by simp)]
    simp [Cell.isNull, sqlStore, hr, sqlParamSeen]
  | other i =>
    rw [sql_param_put cf dv asSql hp f _ _ (by simp)]
    simp [Cell.isNull, sqlStore]
  | num z =>
    rw [sql_param_put cf dv asSql hp f _ _ (by simp)]
    cases z with
    | fin q => simp [Cell.isNull, sqlStore, hr, sqlParamSeen]
    | pinf => cases asSql <;> simp [Cell.isNull, sqlStore, hr, hrs, hinf, sqlParamSeen]
    | ninf => cases asSql <;> simp [Cell.isNull, sqlStore, hr, hrs, hninf, sqlParamSeen]
  | dt d =>
    rw [sql_param_put cf dv asSql hp f _ _ (by simp)]
    simp [Cell.isNull, sqlStore, sqlStoreText, hrs _ (hD d), sqlParamSeen]
  | str s =>
    rw [sql_param_put cf dv asSql hp f _ _ (by simp)]
    simp only [Cell.isNull, Bool.false_eq_true, if_false, sqlStore, sqlStoreText, Option.map_eq_some_iff]
    constructor
    · rintro ⟨v, ⟨s', h1, rfl⟩, h2⟩
      refine ⟨s', h1, ?_⟩
      rcases sql_read_param (env := env) (cenv := cenv) cf hp f s' with ⟨h3, h4⟩ | ⟨h3, b, h4⟩
      · rw [h4] at h2
        exact .inl ⟨h3, (Option.some.inj h2).symm⟩
      · rw [h4] at h2
        exact .inr ⟨b, h3, (Option.some.inj h2).symm, h4⟩
    · rintro ⟨s', h1, ⟨h2, rfl⟩ | ⟨b, _, rfl, h2⟩⟩
      · exact ⟨_, ⟨s', h1, rfl⟩, (hrs s' h2).mpr rfl⟩
      · exact ⟨_, ⟨s', h1, rfl⟩, h2⟩

theorem fix_bool_no_text (env : TextEnv) (params : Params) (k : Cell) (b : Bool) (s : String) :
    fixParam env params k (.bool b) ≠ .str s := by
  unfold fixParam
  rw [paramType_eq]
  cases paramType params k with
  | none => simp [toFloat]
  | some td =>
    simp only [Option.map_some, Option.getD_some]
    split
    · simp
    · split
      · split <;> simp
      · split <;> simp [toFloat]

theorem fix_number (env : TextEnv) (params : Params) (k : Cell) (y : XNum) : fixParam env params k (.num y) = .num y := by
  rw [fix_param_iff]
  unfold ParamFixed NoNumberText
  cases paramType params k with
  | none => simp
  | some td => simp

/-- A datetime that is read as text. -/
theorem fix_dt_text {env : TextEnv} (hT : ∀ d, env.date (.str (env.text (.dt d))) = some d) (params : Params) (k : Cell) (d : Nat) :
    fixParam env params k (.str (env.text (.dt d))) = .dt d ↔ ∃ td, paramType params k = some td ∧ td.datetime = true := by
  constructor
  · intro h
    rcases fix_text_cases env params k (env.text (.dt d)) with ⟨h1, _⟩ | ⟨_, _, _, h1⟩ | ⟨y, h1, _⟩ | h1
    · rw [h] at h1; cases h1
    · exact h1
    · rw [h] at h1
      rcases floatCell_cases y with h2 | ⟨x, h2⟩ <;> rw [h2] at h1 <;> cases h1
    · rw [h] at h1; cases h1
  · rintro ⟨td, htd, hdt⟩
    have h1 : td.validData env.parses (.str (env.text (.dt d))) = true := by
      rw [valid_data_iff]
      refine Or.inr (Or.inl ⟨?_, hdt, Or.inr ?_⟩)
      · rintro (h | h) <;> cases h
      · simp [TextEnv.parses, dateAdjust, hT]
    unfold fixParam
    simp [paramType_eq, htd, h1, hdt, dateAdjust, hT]

/-- An infinity that is read as text. -/
theorem fix_inf_text {env : TextEnv} (params : Params) (k : Cell) (s : String) (hs : s ≠ "") (y : XNum)
    (hf : env.float s = some (some y)) :
    fixParam env params k (.str s) = .num y ↔ ∀ td, paramType params k = some td → td.datetime = false ∧ td.numberAllowed = true := by
  constructor
  · intro h
    rcases fix_text_cases env params k s with ⟨h1, _⟩ | ⟨_, h1, _⟩ | ⟨_, _, _, h1⟩ | h1
    · rw [h] at h1; cases h1
    · rw [h] at h1; cases h1
    · exact h1
    · rw [h] at h1; cases h1
  · intro h
    unfold fixParam
    rw [paramType_eq]
    cases htd : paramType params k with
    | none => simp [toFloat, hf, floatCell]
    | some td =>
      obtain ⟨h1, h2⟩ := h td htd
      simp [hs, h1, h2, toFloat, hf, floatCell]

/-- **C47, one entry of the parameters table.**  Its name and its value come back exactly if `SqlParamKeeps` says so. -/
theorem sql_param_iff {env : TextEnv} (hT : ∀ d, env.date (.str (env.text (.dt d))) = some d) (hI : FloatInf env) {senv : SqlEnv}
    {cenv : CaseEnv} (hW : SqlWords cenv senv) (hD : ∀ d, NoBoolWord cenv (env.text (.dt d))) (cf : IOConf) (dv : Defaults)
    (asSql : Bool) (hp : cf.params ≠ []) (f f' : String) (k v : Cell) :
    (SqlCell env senv cenv cf dv asSql true "parameters" f k k ∧
      ∃ w, SqlCell env senv cenv cf dv asSql true "parameters" f' v w ∧ fixParam env cf.params k w = v) ↔
      SqlParamKeeps env cenv cf.params asSql k v := by
  have hfile : ∀ s, (if asSql then sqlFileText s else some s) = some s ↔ SqlFileOK asSql s := by
    intro s
    unfold SqlFileOK
    cases asSql with
    | true => simp [sqlFileText_iff]
    | false => simp
  have hkey : SqlCell env senv cenv cf dv asSql true "parameters" f k k ↔ SqlNameKeeps cenv asSql k := by
    rw [sql_param_words hW cf hD dv asSql hp]
    unfold SqlNameKeeps
    cases k with
    | num y => cases y <;> cases asSql <;> simp [sqlParamSeen]
    | str s =>
      simp only
      constructor
      · rintro ⟨s', h1, ⟨h2, h3⟩ | ⟨b, _, h3, _⟩⟩
        · cases h3
          exact ⟨h2, (hfile s).mp h1⟩
        · cases h3
      · rintro ⟨h1, h2⟩
        exact ⟨s, (hfile s).mpr h2, .inl ⟨h1, rfl⟩⟩
    | _ => simp [sqlParamSeen]
  unfold SqlParamKeeps
  rw [hkey]
  refine and_congr_right fun _ => ?_
  simp only [sql_param_words hW cf hD dv asSql hp f']
  cases v with
  | other i => simp
  | nan => simpa [sqlParamSeen] using fix_none env cf.params k
  | none => simp [sqlParamSeen, fix_param_iff]
  | bool b => simp [sqlParamSeen, fix_param_iff]
  | dt d => simp [sqlParamSeen, fix_dt_text hT]
  | num y =>
    cases y with
    | fin q => simp [sqlParamSeen, fix_number]
    | pinf => cases asSql <;> simp [sqlParamSeen, fix_number, fix_inf_text cf.params k "inf" (by decide) _ hI.pinf]
    | ninf => cases asSql <;> simp [sqlParamSeen, fix_number, fix_inf_text cf.params k "-inf" (by decide) _ hI.ninf]
  | str s =>
    simp only
    constructor
    · rintro ⟨w, ⟨s', h1, ⟨h2, rfl⟩ | ⟨b, _, rfl, _⟩⟩, h3⟩
      · have : s' = s := by
          rcases fix_text_cases env cf.params k s' with ⟨h4, _⟩ | ⟨_, h4, _⟩ | ⟨y, h4, _⟩ | h4
          · rw [h3] at h4; cases h4
          · rw [h3] at h4; cases h4
          · rw [h3] at h4
            rcases floatCell_cases y with h5 | ⟨x, h5⟩ <;> rw [h5] at h4 <;> cases h4
          · rw [h3] at h4; cases h4; rfl
        subst this
        exact ⟨h2, (hfile _).mp h1, (fix_param_iff env cf.params k _).mp h3⟩
      · exact absurd h3 (fix_bool_no_text env cf.params k b s)
    · rintro ⟨h1, h2, h3⟩
      exact ⟨_, ⟨s, (hfile s).mpr h2, .inl ⟨h1, rfl⟩⟩, (fix_param_iff env cf.params k _).mpr h3⟩

/-- The core of both round trips, with parameters. -/
theorem sql_params_core (env : TextEnv) (hT : ∀ d, env.date (.str (env.text (.dt d))) = some d) (hI : FloatInf env) (senv : SqlEnv)
    (cenv : CaseEnv) (laws : CaseLaws cenv) (hW : SqlWords cenv senv) (hD : ∀ d, NoBoolWord cenv (env.text (.dt d))) (cf : IOConf)
    (hq : ∀ q, cf.flag = .num q → 0 < q) (dv : Defaults) (policy : DupPolicy)
    (asSql : Bool) (schema : List (String × TabClass))
    (hg : goodTableNames cenv (schema.map (fun tc => tc.1.toList)) = true) (hf : ∀ tc ∈ schema, tc.2.fields.Nodup)
    (dat : PyDict String TabVal) (hd : DatOK schema dat)
    (hc : ∀ tc ∈ schema, ∀ tab, PyDict.get? dat tc.1 = some tab → ¬ IsParams cf.params tc.1 → ∀ f x,
      HasCell tc.2 tab f x → SqlKeeps env senv cenv cf dv asSql (decide (tc.2.pks ≠ [])) tc.1 f x)
    (hp : ∀ tab, PyDict.get? dat "parameters" = some tab → cf.params ≠ [] →
      ParamEntries (SqlParamKeeps env cenv cf.params asSql) tab)
    (db : SqlDb) (hdb : (PyDict.keys db).Nodup)
    (hother : ∀ k ∈ PyDict.keys db, ∀ tc ∈ schema, unblank (cenv.lower k.toList) = cenv.lower tc.1.toList → k = tc.1) :
    ∃ db', writeAll (fun tc => tc.1) (fun tc => (PyDict.get? dat tc.1).bind (sqlRows env senv cf dv asSql tc.1 tc.2))
        schema db = some db' ∧
      (∀ k, (∀ tc ∈ schema, k ≠ tc.1) → PyDict.get? db' k = PyDict.get? db k) ∧
      ∀ db'', SameDb db' db'' → ∃ dat2, sqlCreate env cenv cf policy schema db'' = some dat2 ∧
        SameUpToOrder dat dat2 := by
  have hnames : (schema.map Prod.fst).Nodup := by
    have hg' : goodTableNames cenv ((schema.map Prod.fst).map String.toList) = true := by
      rw [List.map_map]; exact hg
    exact nodup_of_map _ (nodup_of_map _ ((goodTableNames_iff cenv _).mp hg').2.2)
  have hkeyed : ∀ tc ∈ schema, keyedIn schema tc.1 = decide (tc.2.pks ≠ []) := by
    intro tc htc
    unfold keyedIn
    rw [PyDict.get?_of_mem hnames (show (tc.1, tc.2) ∈ schema from htc)]
    rfl
  obtain ⟨dat', hk', hpost, hrel⟩ := params_view env cf.params (sqlParamSeen env asSql) schema hnames hf dat hd.1 hd.2
    (fun t f x y => SqlCell env senv cenv cf dv asSql (keyedIn schema t) t f x y)
    (fun tc htc tab hget hnp f x hx => by
      rw [hkeyed tc htc]
      exact (sql_cell_iff hT hI hW cf hq dv asSql _ tc.1 f x hnp).mpr (hc tc htc tab hget hnp f x hx))
    (fun k v => SqlParamKeeps env cenv cf.params asSql k v ∧ keyedIn schema "parameters" = true)
    (by
      intro tab hget hpar
      have hent := hp tab hget hpar
      cases tab with
      | plain rows => exact absurd hent id
      | keyed d =>
        intro p hpd
        obtain ⟨k, f, v, h1, h2⟩ := hent p hpd
        refine ⟨k, f, v, h1, h2, ?_⟩
        have hmem : "parameters" ∈ schema.map Prod.fst := by
          rw [← hd.1]
          refine Classical.byContradiction (fun hno => ?_)
          rw [(PyDict.get?_eq_none _ _).mpr hno] at hget
          cases hget
        obtain ⟨tc, htc, e⟩ := List.mem_map.mp hmem
        have hsh := hd.2 tc htc (.keyed d) (by rw [e]; exact hget)
        have := hkeyed tc htc
        rw [e] at this
        rw [this]
        exact decide_eq_true hsh.1)
    (by
      rintro hpar f f' k v ⟨hkv, hkt⟩
      rw [hkt]
      obtain ⟨h1, w, h2, h3⟩ := (sql_param_iff hT hI hW hD cf dv asSql hpar f f' k v).mpr hkv
      have : w = sqlParamSeen env asSql v := by
        have h4 := (sql_param_words hW cf hD dv asSql hpar f' v w).mp h2
        cases v with
        | other i => exact absurd h4 id
        | str s =>
          obtain ⟨s', h5, ⟨h6, h7⟩ | ⟨b, _, h7, _⟩⟩ := h4
          · subst h7
            have h8 := hkv.2.2.1
            have h9 : (if asSql then sqlFileText s else some s) = some s := by
              cases asSql with
              | true => simp only [if_true]; exact (sqlFileText_iff s).mpr (h8 rfl)
              | false => rfl
            rw [h9] at h5
            cases h5
            rfl
          · rw [h7] at h3
            exact absurd h3 (fix_bool_no_text env cf.params k b s)
        | _ => exact h4
      rw [this] at h2 h3
      exact ⟨h1, h2, h3⟩)
  obtain ⟨db', h1, h2, h3⟩ := sql_write_read env senv cenv laws cf dv policy asSql schema hg hf dat dat' hk'
    (by
      intro tc htc
      obtain ⟨tab, tab', h4, h5, h6, h7, h8⟩ := hrel tc htc
      refine ⟨tab, tab', h4, h5, h6, h7, ?_⟩
      rw [isKeyed_of_shape tc.2 tab h6, ← hkeyed tc htc]
      exact h8) db hdb hother
  refine ⟨db', h1, h2, fun db'' hs => ?_⟩
  obtain ⟨dat2, h4, h5⟩ := h3 db'' hs
  rw [hpost] at h5
  exact ⟨dat2, h4, h5⟩

/-- **C47, .sql files.**  As `sql_file_round_trip_keeps`, for all the parameters that a .sql file can carry. -/
theorem sql_file_params_keeps (env : TextEnv) (hT : ∀ d, env.date (.str (env.text (.dt d))) = some d) (hI : FloatInf env) (senv : SqlEnv)
    (cenv : CaseEnv) (laws : CaseLaws cenv) (hW : SqlWords cenv senv) (hD : ∀ d, NoBoolWord cenv (env.text (.dt d))) (cf : IOConf)
    (hq : ∀ q, cf.flag = .num q → 0 < q) (dv : Defaults) (policy : DupPolicy)
    (schema : List (String × TabClass))
    (hg : goodTableNames cenv (schema.map (fun tc => tc.1.toList)) = true)
    (hf : ∀ tc ∈ schema, (tc.2.fields.map (fun f => cenv.lower f.toList)).Nodup)
    (dat : PyDict String TabVal) (hd : DatOK schema dat)
    (hc : ∀ tc ∈ schema, ∀ tab, PyDict.get? dat tc.1 = some tab → ¬ IsParams cf.params tc.1 → ∀ f x,
      HasCell tc.2 tab f x → SqlKeeps env senv cenv cf dv true (decide (tc.2.pks ≠ [])) tc.1 f x)
    (hp : ∀ tab, PyDict.get? dat "parameters" = some tab → cf.params ≠ [] →
      ParamEntries (SqlParamKeeps env cenv cf.params true) tab) :
    ∃ db, sqlRunFile env senv cenv cf dv schema dat = some db ∧ ∀ db', SameDb db db' →
      ∃ dat2, sqlCreate env cenv cf policy schema db' = some dat2 ∧ SameUpToOrder dat dat2 := by
  obtain ⟨db0, h1, h2, _, _, h5⟩ := sql_new_db cenv laws schema hg hf
  obtain ⟨db, h6, _, h7⟩ := sql_params_core env hT hI senv cenv laws hW hD cf hq dv policy true schema hg
    (fun tc htc => nodup_of_map _ (hf tc htc)) dat hd hc hp db0 h2 h5
  exact ⟨db, by rw [sqlRunFile, h1, Option.bind_some, h6], h7⟩

/-- **C47, databases.**  As `sql_db_round_trip_keeps`, for all the parameters that a database can carry. -/
theorem sql_db_params_keeps (env : TextEnv) (hT : ∀ d, env.date (.str (env.text (.dt d))) = some d) (hI : FloatInf env) (senv : SqlEnv)
    (cenv : CaseEnv) (laws : CaseLaws cenv) (hW : SqlWords cenv senv) (hD : ∀ d, NoBoolWord cenv (env.text (.dt d))) (cf : IOConf)
    (hq : ∀ q, cf.flag = .num q → 0 < q) (dv : Defaults) (policy : DupPolicy)
    (allowOverwrite : Bool) (schema : List (String × TabClass))
    (hg : goodTableNames cenv (schema.map (fun tc => tc.1.toList)) = true)
    (hf : ∀ tc ∈ schema, (tc.2.fields.map (fun f => cenv.lower f.toList)).Nodup)
    (dat : PyDict String TabVal) (hd : DatOK schema dat)
    (hc : ∀ tc ∈ schema, ∀ tab, PyDict.get? dat tc.1 = some tab → ¬ IsParams cf.params tc.1 → ∀ f x,
      HasCell tc.2 tab f x → SqlKeeps env senv cenv cf dv false (decide (tc.2.pks ≠ [])) tc.1 f x)
    (hp : ∀ tab, PyDict.get? dat "parameters" = some tab → cf.params ≠ [] →
      ParamEntries (SqlParamKeeps env cenv cf.params false) tab)
    (old : Option SqlDb)
    (hold : ∀ db, old = some db → (PyDict.keys db).Nodup ∧
      (∀ tc ∈ schema, ∃ rows, PyDict.get? db tc.1 = some rows ∧ (allowOverwrite = true ∨ rows = [])) ∧
      ∀ k ∈ PyDict.keys db, ∀ tc ∈ schema, unblank (cenv.lower k.toList) = cenv.lower tc.1.toList → k = tc.1) :
    ∃ db, sqlWriteDb env senv cenv cf dv allowOverwrite schema dat old = some db ∧
      (∀ db0, old = some db0 → ∀ k, (∀ tc ∈ schema, k ≠ tc.1) → PyDict.get? db k = PyDict.get? db0 k) ∧
      ∀ db', SameDb db db' → ∃ dat2, sqlCreate env cenv cf policy schema db' = some dat2 ∧ SameUpToOrder dat dat2 := by
  obtain ⟨db0, h1, h2, h3, h5, h6⟩ : ∃ db0, sqlOpen cenv schema old = some db0 ∧
      (PyDict.keys db0).Nodup ∧
      (∀ tc ∈ schema, ∃ rows, PyDict.get? db0 tc.1 = some rows ∧ (allowOverwrite = true ∨ rows = [])) ∧
      (∀ k ∈ PyDict.keys db0, ∀ tc ∈ schema, unblank (cenv.lower k.toList) = cenv.lower tc.1.toList → k = tc.1) ∧
      ∀ db, old = some db → db0 = db := by
    cases old with
    | none =>
      obtain ⟨db0, h1, h2, h3, _, h5⟩ := sql_new_db cenv laws schema hg hf
      exact ⟨db0, h1, h2, fun tc htc => ⟨[], h3 tc htc, .inr rfl⟩, h5, by simp⟩
    | some db =>
      obtain ⟨h1, h2, h3⟩ := hold db rfl
      exact ⟨db, rfl, h1, h2, h3, fun db' e => Option.some.inj e⟩
  obtain ⟨db, h7, h8, h9⟩ := sql_params_core env hT hI senv cenv laws hW hD cf hq dv policy false schema hg
    (fun tc htc => nodup_of_map _ (hf tc htc)) dat hd hc hp db0 h2 h5
  refine ⟨db, ?_, ?_, h9⟩
  · unfold sqlWriteDb
    rw [h1, Option.bind_some, if_pos, h7]
    rw [List.all_eq_true]
    intro tc htc
    obtain ⟨rows, h10, h11⟩ := h3 tc htc
    have hin : tc.1 ∈ PyDict.keys db0 := by
      refine Classical.byContradiction (fun hno => ?_)
      rw [(PyDict.get?_eq_none _ _).mpr hno] at h10
      cases h10
    have hb : ∀ tc ∈ schema, ' ' ∉ cenv.lower tc.1.toList := by
      intro tc htc h
      unfold CaseEnv.lower at h
      rw [List.mem_flatMap] at h
      obtain ⟨c, hc, h⟩ := h
      have := laws.lo_no_blank c h
      rw [this] at hc
      exact ((goodTableNames_iff cenv _).mp hg).2.1 _ (List.mem_map.mpr ⟨tc, htc, rfl⟩) hc
    rw [sql_table_found cenv laws schema hg db0 h5 tc htc hin,
      sql_select_found cenv schema db0 h2 hb h5 tc htc rows h10]
    rcases h11 with h | h <;> simp [h]
  · intro db1 e k hk
    rw [h8 k hk, h6 db1 e]

/-- The other direction, for both containers. -/
theorem sql_params_back (env : TextEnv) (hT : ∀ d, env.date (.str (env.text (.dt d))) = some d) (hI : FloatInf env) (senv : SqlEnv)
    (cenv : CaseEnv) (laws : CaseLaws cenv) (hW : SqlWords cenv senv) (hD : ∀ d, NoBoolWord cenv (env.text (.dt d))) (cf : IOConf)
    (hq : ∀ q, cf.flag = .num q → 0 < q) (dv : Defaults) (policy : DupPolicy)
    (asSql : Bool) (schema : List (String × TabClass))
    (hg : goodTableNames cenv (schema.map (fun tc => tc.1.toList)) = true) (hf : ∀ tc ∈ schema, tc.2.fields.Nodup)
    (hps : ∀ tc ∈ schema, IsParams cf.params tc.1 → tc.2.pks.length = 1 ∧ tc.2.dfs.length = 1)
    (dat : PyDict String TabVal) (hd : DatOK schema dat) (db0 db : SqlDb) (hdn0 : (PyDict.keys db0).Nodup)
    (hother : ∀ k ∈ PyDict.keys db0, ∀ tc ∈ schema, unblank (cenv.lower k.toList) = cenv.lower tc.1.toList → k = tc.1)
    (h1 : writeAll (fun tc => tc.1) (fun tc => (PyDict.get? dat tc.1).bind (sqlRows env senv cf dv asSql tc.1 tc.2)) schema db0 = some db)
    (h2 : sqlCreate env cenv cf policy schema db = some dat) :
    (∀ tc ∈ schema, ∀ tab, PyDict.get? dat tc.1 = some tab → ¬ IsParams cf.params tc.1 → ∀ f x,
      HasCell tc.2 tab f x → SqlKeeps env senv cenv cf dv asSql (decide (tc.2.pks ≠ [])) tc.1 f x) ∧
    (∀ tab, PyDict.get? dat "parameters" = some tab → cf.params ≠ [] →
      ParamEntries (SqlParamKeeps env cenv cf.params asSql) tab) := by
  have hread := sql_back_read env senv cenv laws cf dv policy asSql schema hg dat hd db0 db hdn0 hother h1 h2
  constructor
  · intro tc htc tab htb hnp f x hx
    obtain ⟨rows, rs', tab2, h3, h4, h5, h6⟩ := hread tc htc tab htb
    rw [if_neg (by rw [isParamsB_iff]; exact hnp)] at h6
    subst h6
    rw [← sql_cell_iff hT hI hW cf hq dv asSql _ tc.1 f x hnp]
    exact sql_table_inv env senv cenv cf dv asSql tc.1 tc.2 (hf tc htc) tab (hd.2 tc htc tab htb) rows h3 rs' h4 h5 f x hx
  · intro tab htb hpar
    obtain ⟨tc, htc, htn⟩ : ∃ tc ∈ schema, tc.1 = "parameters" := by
      have : "parameters" ∈ PyDict.keys dat := by
        refine Classical.byContradiction (fun hno => ?_)
        rw [(PyDict.get?_eq_none _ _).mpr hno] at htb
        cases htb
      rw [hd.1] at this
      obtain ⟨tc, h, e⟩ := List.mem_map.mp this
      exact ⟨tc, h, e⟩
    have hip : IsParams cf.params tc.1 := ⟨hpar, htn⟩
    rw [← htn] at htb
    obtain ⟨hpk, hdf⟩ := hps tc htc hip
    have hws := hd.2 tc htc tab htb
    obtain ⟨rows, rs', tab2, h3, h4, h5, h6⟩ := hread tc htc tab htb
    rw [if_pos (by rw [isParamsB_iff]; exact hip)] at h6
    cases tab2 with
    | plain rs =>
      subst h6
      rw [hws.1] at hpk
      cases hpk
    | keyed d2 =>
      subst h6
      have hk : decide (tc.2.pks ≠ []) = true := decide_eq_true hws.1
      have h10 := sql_table_rel env senv cenv cf dv asSql tc.1 tc.2 (hf tc htc) _ (.keyed d2) hws rows h3 rs' h4 h5 (by simp [TabVal.size])
      intro p hp
      obtain ⟨k, f, v, v0, pf, rfl, h11, h12, h13⟩ := params_back env cf.params tc.2 hpk hdf d2 hws _ h10 p hp
      rw [htn, hk] at h11 h12
      exact ⟨k, f, v, rfl, (sql_param_iff hT hI hW hD cf dv asSql hpar pf f k v).mp ⟨h11, v0, h12, h13⟩⟩

/-- **C47, .sql files, the other direction.**  If the object that is read from a .sql file is the one that was written, then every cell
is one that `SqlKeeps` describes and every entry of the parameters table one that `SqlParamKeeps` describes.  No condition of
`sql_file_params_keeps` can be dropped. -/
theorem sql_file_needs_params (env : TextEnv) (hT : ∀ d, env.date (.str (env.text (.dt d))) = some d) (hI : FloatInf env) (senv : SqlEnv)
    (cenv : CaseEnv) (laws : CaseLaws cenv) (hW : SqlWords cenv senv) (hD : ∀ d, NoBoolWord cenv (env.text (.dt d))) (cf : IOConf)
    (hq : ∀ q, cf.flag = .num q → 0 < q) (dv : Defaults) (policy : DupPolicy)
    (schema : List (String × TabClass))
    (hg : goodTableNames cenv (schema.map (fun tc => tc.1.toList)) = true)
    (hf : ∀ tc ∈ schema, (tc.2.fields.map (fun f => cenv.lower f.toList)).Nodup)
    (hps : ∀ tc ∈ schema, IsParams cf.params tc.1 → tc.2.pks.length = 1 ∧ tc.2.dfs.length = 1)
    (dat : PyDict String TabVal) (hd : DatOK schema dat) (db : SqlDb)
    (h1 : sqlRunFile env senv cenv cf dv schema dat = some db) (h2 : sqlCreate env cenv cf policy schema db = some dat) :
    (∀ tc ∈ schema, ∀ tab, PyDict.get? dat tc.1 = some tab → ¬ IsParams cf.params tc.1 → ∀ f x,
      HasCell tc.2 tab f x → SqlKeeps env senv cenv cf dv true (decide (tc.2.pks ≠ [])) tc.1 f x) ∧
    (∀ tab, PyDict.get? dat "parameters" = some tab → cf.params ≠ [] →
      ParamEntries (SqlParamKeeps env cenv cf.params true) tab) := by
  obtain ⟨db0, h3, h4, _, _, h5⟩ := sql_new_db cenv laws schema hg hf
  rw [sqlRunFile, h3, Option.bind_some] at h1
  exact sql_params_back env hT hI senv cenv laws hW hD cf hq dv policy true schema hg (fun tc htc => nodup_of_map _ (hf tc htc)) hps
    dat hd db0 db h4 h5 h1 h2

/-- **C47, databases, the other direction.**  If the object that is read from a database is the one that was written, then every cell
is one that `SqlKeeps` describes and every entry of the parameters table one that `SqlParamKeeps` describes.  No condition of
`sql_db_params_keeps` can be dropped. -/
theorem sql_db_needs_params (env : TextEnv) (hT : ∀ d, env.date (.str (env.text (.dt d))) = some d) (hI : FloatInf env) (senv : SqlEnv)
    (cenv : CaseEnv) (laws : CaseLaws cenv) (hW : SqlWords cenv senv) (hD : ∀ d, NoBoolWord cenv (env.text (.dt d))) (cf : IOConf)
    (hq : ∀ q, cf.flag = .num q → 0 < q) (dv : Defaults) (policy : DupPolicy)
    (allowOverwrite : Bool) (schema : List (String × TabClass))
    (hg : goodTableNames cenv (schema.map (fun tc => tc.1.toList)) = true)
    (hf : ∀ tc ∈ schema, (tc.2.fields.map (fun f => cenv.lower f.toList)).Nodup)
    (hps : ∀ tc ∈ schema, IsParams cf.params tc.1 → tc.2.pks.length = 1 ∧ tc.2.dfs.length = 1)
    (dat : PyDict String TabVal) (hd : DatOK schema dat) (old : Option SqlDb)
    (hold : ∀ db, old = some db → (PyDict.keys db).Nodup ∧
      ∀ k ∈ PyDict.keys db, ∀ tc ∈ schema, unblank (cenv.lower k.toList) = cenv.lower tc.1.toList → k = tc.1) (db : SqlDb)
    (h1 : sqlWriteDb env senv cenv cf dv allowOverwrite schema dat old = some db)
    (h2 : sqlCreate env cenv cf policy schema db = some dat) :
    (∀ tc ∈ schema, ∀ tab, PyDict.get? dat tc.1 = some tab → ¬ IsParams cf.params tc.1 → ∀ f x,
      HasCell tc.2 tab f x → SqlKeeps env senv cenv cf dv false (decide (tc.2.pks ≠ [])) tc.1 f x) ∧
    (∀ tab, PyDict.get? dat "parameters" = some tab → cf.params ≠ [] →
      ParamEntries (SqlParamKeeps env cenv cf.params false) tab) := by
  obtain ⟨db0, h3, h4, h5⟩ : ∃ db0, sqlOpen cenv schema old = some db0 ∧ (PyDict.keys db0).Nodup ∧
      ∀ k ∈ PyDict.keys db0, ∀ tc ∈ schema, unblank (cenv.lower k.toList) = cenv.lower tc.1.toList → k = tc.1 := by
    cases old with
    | none =>
      obtain ⟨db0, h3, h4, _, _, h5⟩ := sql_new_db cenv laws schema hg hf
      exact ⟨db0, h3, h4, h5⟩
    | some d => exact ⟨d, rfl, hold d rfl⟩
  rw [sqlWriteDb, h3, Option.bind_some] at h1
  split at h1
  case isFalse => cases h1
  exact sql_params_back env hT hI senv cenv laws hW hD cf hq dv policy false schema hg (fun tc htc => nodup_of_map _ (hf tc htc)) hps
    dat hd db0 db h4 h5 h1 h2

theorem unary_noBoolWord (d : Nat) : NoBoolWord asciiEnv (unaryText.text (.dt d)) := by
  have h : ∃ l, asciiEnv.lower (unaryText.text (.dt d)).toList = 'd' :: l := by
    refine ⟨asciiEnv.lower (List.replicate d 'd'), ?_⟩
    have : (unaryText.text (.dt d)).toList = 'd' :: List.replicate d 'd' := by
      simp [unaryText, List.replicate_succ]
    rw [this]
    rfl
  obtain ⟨l, h⟩ := h
  unfold NoBoolWord
  rw [h]
  constructor <;> (intro e; exact absurd (congrArg List.head? e) (by simp))

theorem sql_param_example_ok (v : Cell) : DatOK [("parameters", ⟨["Key"], ["Value"], []⟩)]
    [("parameters", .keyed [(.one (.str "Gap"), [("Value", v)])])] := by
  refine ⟨rfl, ?_⟩
  intro tc htc tab htab
  simp at htc
  subst htc
  simp [PyDict.get?] at htab
  subst htab
  refine ⟨by simp, by simp [PyDict.keys], ?_⟩
  intro p hp
  simp at hp
  subst hp
  exact ⟨by simp [KeyShape], rfl⟩

/-- The hypotheses can be met: an infinity as the value of a declared parameter without type comes back from a .sql file. -/
example : ∃ db, sqlRunFile unaryText noNums asciiEnv ⟨[], .na, false, [(.str "Gap", (none, .num (.fin 0)))]⟩ (fun _ _ => none)
      [("parameters", ⟨["Key"], ["Value"], []⟩)] [("parameters", .keyed [(.one (.str "Gap"), [("Value", .num .pinf)])])] = some db ∧
    ∀ db', SameDb db db' → ∃ dat2, sqlCreate unaryText asciiEnv ⟨[], .na, false, [(.str "Gap", (none, .num (.fin 0)))]⟩ .assert
      [("parameters", ⟨["Key"], ["Value"], []⟩)] db' = some dat2 ∧
      SameUpToOrder [("parameters", .keyed [(.one (.str "Gap"), [("Value", .num .pinf)])])] dat2 := by
  refine sql_file_params_keeps unaryText unaryText_ok.dt unary_floatInf noNums asciiEnv asciiLaws ascii_sqlWords unary_noBoolWord _
    (by intro q h; cases h) _ .assert _ (by decide +kernel) (by decide +kernel) _ (sql_param_example_ok _) ?_ ?_
  · intro tc htc _ _ hnp
    simp at htc
    subst htc
    exact absurd ⟨by simp, rfl⟩ hnp
  · intro tab htab _
    cases htab
    intro p hp
    rw [List.mem_singleton] at hp
    subst hp
    refine ⟨_, _, _, rfl, ⟨⟨by decide, by decide⟩, fun _ => (sqlFileText_iff "Gap").mp (by decide +kernel)⟩, ?_⟩
    · intro _ _ td h
      simp [paramType, PyDict.get?] at h

/-- The other direction: whatever value of that parameter comes back from a database is a number, `None`, or text that reads neither as
a Boolean nor as a number. -/
example (v : Cell) (db : SqlDb)
    (h1 : sqlWriteDb unaryText noNums asciiEnv ⟨[], .na, false, [(.str "Gap", (none, .num (.fin 0)))]⟩ (fun _ _ => none) true
      [("parameters", ⟨["Key"], ["Value"], []⟩)] [("parameters", .keyed [(.one (.str "Gap"), [("Value", v)])])] none = some db)
    (h2 : sqlCreate unaryText asciiEnv ⟨[], .na, false, [(.str "Gap", (none, .num (.fin 0)))]⟩ .assert
      [("parameters", ⟨["Key"], ["Value"], []⟩)] db = some [("parameters", .keyed [(.one (.str "Gap"), [("Value", v)])])]) :
    v = .none ∨ (∃ y, v = .num y) ∨ ∃ s, v = .str s ∧ NoBoolWord asciiEnv s ∧ unaryText.float s = none := by
  have h := (sql_db_needs_params unaryText unaryText_ok.dt unary_floatInf noNums asciiEnv asciiLaws ascii_sqlWords unary_noBoolWord _
    (by intro q h; cases h) _ .assert true _ (by decide +kernel) (by decide +kernel)
    (by intro tc h _; simp at h; subst h; decide) _ (sql_param_example_ok v) none (by simp) db h1 h2).2 _ rfl (by simp)
  obtain ⟨k, f, w, h3, h4⟩ := h _ (List.mem_singleton.mpr rfl)
  cases h3
  obtain ⟨_, h4⟩ := h4
  cases v with
  | none => simp
  | num y => simp
  | str s =>
    refine .inr (.inr ⟨s, rfl, h4.1, ?_⟩)
    have h5 := h4.2.2
    simp [ParamFixed, paramType, PyDict.get?, NoNumberText] at h5
    exact h5
  | bool b => simp [ParamFixed, paramType, PyDict.get?, NoNumberText] at h4
  | dt d => simp [paramType, PyDict.get?] at h4
  | nan => exact absurd h4 id
  | other i => exact absurd h4 id

end Ticdat

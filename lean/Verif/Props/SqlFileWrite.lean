import Verif.Props.SqlFile
/-!
# C77: writing into databases with a schema of their own
-/
set_option linter.unusedSectionVars false
set_option linter.unusedSimpArgs false
namespace Ticdat
open Spec

/-! ### One row -/

theorem zip_find (cenv : CaseEnv) (fields : List String) (cells : List Cell)
    (hn : (fields.map (fun f => cenv.lower f.toList)).Nodup) (j : Nat) (f : String) (w : Cell) (hf : fields[j]? = some f)
    (hw : cells[j]? = some w) (n : String) (hs : SqlSame cenv n f) :
    (fields.zip cells).find? (fun p => decide (cenv.lower p.1.toList = cenv.lower n.toList)) = some (f, w) := by
  induction fields generalizing cells j with
  | nil => simp at hf
  | cons a rest ih =>
    rw [List.map_cons, List.nodup_cons] at hn
    cases cells with
    | nil => simp at hw
    | cons x cells =>
      rw [List.zip_cons_cons, List.find?_cons]
      cases j with
      | zero =>
        simp only [List.getElem?_cons_zero, Option.some.injEq] at hf hw
        subst hf hw
        have : cenv.lower a.toList = cenv.lower n.toList := (show cenv.lower _ = cenv.lower _ from hs).symm
        simp [this]
      | succ j =>
        simp only [List.getElem?_cons_succ] at hf hw
        have : ¬ cenv.lower a.toList = cenv.lower n.toList := fun h =>
          hn.1 (List.mem_map.mpr ⟨f, List.mem_of_getElem? hf, (h.trans hs).symm⟩)
        simp only [this, decide_false, Bool.false_eq_true, if_false]
        exact ih cells hn.2 j hf hw

theorem newRow_spec (env : TextEnv) (senv : SqlEnv) (cenv : CaseEnv) (tab : SqlTab) (fields : List String)
    (ws vs : List Cell) (hfn : (fields.map (fun f => cenv.lower f.toList)).Nodup)
    (hfields : ∀ f ∈ fields, ∃ c ∈ tab.cols, SqlSame cenv c.name f)
    (hothers : ∀ c ∈ tab.cols, (∀ f ∈ fields, ¬ SqlSame cenv c.name f) → ∃ x, c.dflt = some x)
    (hlw : ws.length = fields.length) (hlv : vs.length = fields.length)
    (hst : ∀ (j : Nat) f w v, fields[j]? = some f → ws[j]? = some w → vs[j]? = some v → ∀ c ∈ tab.cols,
      SqlSame cenv c.name f → sqlStore env senv false c.aff w = some v) :
    ∃ row, tab.newRow env senv cenv fields ws = some row ∧ row.length = tab.cols.length ∧
      (∀ (j : Nat) f x, fields[j]? = some f → vs[j]? = some x → CellAt cenv tab row f x) ∧ DefaultsIn cenv tab fields row := by
  have hcase : ∀ c ∈ tab.cols, (∃ (j : Nat) (f : String) (w v : Cell), fields[j]? = some f ∧ ws[j]? = some w ∧ vs[j]? = some v ∧
      SqlSame cenv c.name f) ∨ ∀ f ∈ fields, ¬ SqlSame cenv c.name f := by
    intro c hc
    by_cases h : ∃ f ∈ fields, SqlSame cenv c.name f
    · obtain ⟨f, hf, hs⟩ := h
      obtain ⟨j, hj⟩ := List.getElem?_of_mem hf
      obtain ⟨hlt, _⟩ := List.getElem?_eq_some_iff.mp hj
      exact .inl ⟨j, f, ws[j], vs[j], hj, List.getElem?_eq_getElem (by omega), List.getElem?_eq_getElem (by omega), hs⟩
    · exact .inr (fun f hf hs => h ⟨f, hf, hs⟩)
  have hnone : ∀ c ∈ tab.cols, (∀ f ∈ fields, ¬ SqlSame cenv c.name f) →
      (fields.zip ws).find? (fun p => decide (cenv.lower p.1.toList = cenv.lower c.name.toList)) = none := by
    intro c _ h
    rw [List.find?_eq_none]
    intro p hp hd
    exact h p.1 (List.of_mem_zip hp).1 (show cenv.lower _ = cenv.lower _ from (of_decide_eq_true hd).symm)
  obtain ⟨row, hrow⟩ := mapM_some_of_forall (fun c : SqlCol =>
      match (fields.zip ws).find? (fun p => decide (cenv.lower p.1.toList = cenv.lower c.name.toList)) with
      | some p => sqlStore env senv false c.aff p.2
      | none => c.dflt) tab.cols (by
    intro c hc
    rw [Option.isSome_iff_exists]
    rcases hcase c hc with ⟨j, f, w, v, h1, h2, h3, h4⟩ | h
    · rw [zip_find cenv fields ws hfn j f w h1 h2 c.name h4]
      exact ⟨v, hst j f w v h1 h2 h3 c hc h4⟩
    · rw [hnone c hc h]
      exact hothers c hc h)
  have hm := (mapM_eq_some_iff _ _ _).mp hrow
  have hget : ∀ (i : Nat) c, tab.cols[i]? = some c → row[i]? =
      match (fields.zip ws).find? (fun p => decide (cenv.lower p.1.toList = cenv.lower c.name.toList)) with
      | some p => sqlStore env senv false c.aff p.2
      | none => c.dflt := by
    intro i c hi
    have h1 := congrArg (fun l => l[i]?) hm
    simp only [List.getElem?_map, hi, Option.map_some] at h1
    cases hr : row[i]? with
    | none => rw [hr] at h1; cases h1
    | some x =>
      rw [hr, Option.map_some, Option.some.injEq] at h1
      exact h1.symm
  refine ⟨row, hrow, ?_, ?_, ?_⟩
  · have := congrArg List.length hm
    simpa using this.symm
  · intro j f x hf hx
    obtain ⟨c, hc, hs⟩ := hfields f (List.mem_of_getElem? hf)
    obtain ⟨i, hi⟩ := List.getElem?_of_mem hc
    obtain ⟨hlt, _⟩ := List.getElem?_eq_some_iff.mp hf
    have hw := List.getElem?_eq_getElem (l := ws) (i := j) (by omega)
    refine ⟨i, c, hi, hs, ?_⟩
    rw [hget i c hi, zip_find cenv fields ws hfn j f _ hf hw c.name hs]
    exact hst j f _ x hf hw hx c hc hs
  · intro i c hi hno
    rw [hget i c hi, hnone c (List.mem_of_getElem? hi) hno]

/-! ### The rows of one table -/

/-- What is stored for cells that are bound. -/
def storeCells (env : TextEnv) (senv : SqlEnv) (cf : IOConf) (dv : Defaults) (t : String) (fields : List String)
    (ws : List Cell) : Option (List Cell) :=
  mapCells (fun f x => sqlStore env senv false (sqlAffinity cf dv t f) x) fields ws

theorem mapCells_get (g : String → Cell → Option Cell) (fields : List String) (ws vs : List Cell)
    (hl : ws.length = fields.length) (h : mapCells g fields ws = some vs) :
    vs.length = fields.length ∧ ∀ (j : Nat) f w v, fields[j]? = some f → ws[j]? = some w → vs[j]? = some v → g f w = some v := by
  have hm := (mapM_eq_some_iff _ _ _).mp h
  constructor
  · have := congrArg List.length hm
    simp only [List.length_map, List.length_zip] at this
    omega
  · intro j f w v h1 h2 h3
    have := congrArg (fun l => l[j]?) hm
    have hz : (fields.zip ws)[j]? = some (f, w) := List.getElem?_zip_eq_some.mpr ⟨h1, h2⟩
    simp only [List.getElem?_map, hz, h3, Option.map_some, Option.some.injEq] at this
    exact this

/-- Rows of a table that the schema sees as `vs`. -/
theorem insert_row (env : TextEnv) (senv : SqlEnv) (cenv : CaseEnv) (cf : IOConf) (dv : Defaults) (t : String) (c : TabClass)
    (tab : SqlTab) (hn : (tab.cols.map (fun c => cenv.lower c.name.toList)).Nodup)
    (hkey : ∀ k ∈ tab.key, ∃ col ∈ tab.cols, SqlSame cenv col.name k) (ht : TakesRows cenv cf dv t c tab)
    (hfn : (c.fields.map (fun f => cenv.lower f.toList)).Nodup) (ixs : List Nat)
    (hix : c.fields.mapM (tab.col cenv) = some ixs) (ws vs : List Cell) (hl : ws.length = c.fields.length)
    (hst : storeCells env senv cf dv t c.fields ws = some vs)
    (hu : c.pks ≠ [] → ∀ r ∈ tab.rows, (pick ixs r).take c.pks.length = vs.take c.pks.length →
      Cell.none ∈ vs.take c.pks.length) :
    ∃ row, tab.insert env senv cenv c.fields ws = some { tab with rows := tab.rows ++ [row] } ∧ pick ixs row = vs ∧
      row.length = tab.cols.length ∧ DefaultsIn cenv tab c.fields row := by
  obtain ⟨hlv, hstj⟩ := mapCells_get _ _ _ _ hl hst
  obtain ⟨row, h1, h2, h3, h4⟩ := newRow_spec env senv cenv tab c.fields ws vs hfn ht.fields ht.others hl hlv (by
    intro j f w v a b d col hcol hs
    have h5 := hstj j f w v a b d
    have h6 : col.aff = sqlAffinity cf dv t f := by
      rw [Bool.eq_iff_iff, sqlAffinity_iff]
      exact ht.affinity col hcol f (List.mem_of_getElem? a) hs
    rw [h6]
    exact h5)
  have hpick := pick_cells cenv tab hn c.fields ixs hix row vs hlv h3
  refine ⟨row, ?_, hpick, h2, h4⟩
  unfold SqlTab.insert
  rw [h1, Option.bind_some, if_neg]
  rintro ⟨hk, hnn, hany⟩
  rcases ht.key with hk' | ⟨hpk, hsup⟩
  · exact hk hk'
  obtain ⟨r, hr, he⟩ := List.any_eq_true.mp hany
  have he := of_decide_eq_true he
  obtain ⟨kix, hkix⟩ := cols_some cenv tab hn tab.key hkey
  have hpix : ∀ (j : Nat) i, j < c.pks.length → ixs[j]? = some i → i ∈ kix := by
    intro j i hj hi
    have hfj : c.fields[j]? = some c.pks[j] := by
      unfold TabClass.fields
      rw [List.getElem?_append_left hj, List.getElem?_eq_getElem hj]
    obtain ⟨k, hkm, hks⟩ := hsup _ (List.getElem_mem hj)
    have hm := congrArg (fun l => l[j]?) ((mapM_eq_some_iff _ _ _).mp hix)
    simp only [List.getElem?_map, hfj, hi, Option.map_some, Option.some.injEq] at hm
    obtain ⟨col, hc1, hc2⟩ := (col_spec cenv tab hn _ i).mp hm
    have hck := (col_spec cenv tab hn k i).mpr ⟨col, hc1, (show cenv.lower _ = cenv.lower _ from hc2).trans
      (show cenv.lower _ = cenv.lower _ from hks).symm⟩
    have := List.mem_map.mpr ⟨k, hkm, hck⟩
    rw [(mapM_eq_some_iff _ _ _).mp hkix] at this
    obtain ⟨i', hi', e⟩ := List.mem_map.mp this
    cases e
    exact hi'
  have hko : ∀ r, tab.keyOf cenv r = pick kix r := fun r => by unfold SqlTab.keyOf; rw [hkix]; rfl
  rw [hko, hko] at he
  rw [hko] at hnn
  have hcell : ∀ i ∈ kix, (r[i]?).getD .none = (row[i]?).getD .none ∧ (row[i]?).getD .none ≠ Cell.none := by
    intro i hi
    unfold pick at he hnn
    refine ⟨(List.map_inj_left.mp he) i hi, fun hno => ?_⟩
    have : Cell.none ∈ kix.map (fun i => (row[i]?).getD .none) := List.mem_map.mpr ⟨i, hi, hno⟩
    have h9 := List.contains_iff_mem.mpr this
    rw [h9] at hnn
    cases hnn
  have hlen : ixs.length = c.fields.length := by
    have := congrArg List.length ((mapM_eq_some_iff _ _ _).mp hix)
    simpa using this.symm
  have htake : ∀ r, (pick ixs r).take c.pks.length = (ixs.take c.pks.length).map (fun i => (r[i]?).getD .none) := by
    intro r; unfold pick; rw [List.map_take]
  have hin : ∀ i ∈ ixs.take c.pks.length, i ∈ kix := by
    intro i hi
    obtain ⟨j, hj⟩ := List.getElem?_of_mem hi
    rw [List.getElem?_take] at hj
    split at hj
    · rename_i hlt
      exact hpix j i hlt hj
    · cases hj
  have heq : (pick ixs r).take c.pks.length = vs.take c.pks.length := by
    rw [← hpick, htake, htake]
    exact List.map_congr_left (fun i hi => (hcell i (hin i hi)).1)
  have := hu hpk r hr heq
  rw [← hpick, htake] at this
  obtain ⟨i, hi, e⟩ := List.mem_map.mp this
  exact (hcell i (hin i hi)).2 e

theorem keysUnique_mid (n : Nat) (A : List (List Cell)) (v : List Cell) (B : List (List Cell))
    (h : sqlKeysUnique n (A ++ v :: B) = true) (a : List Cell) (ha : a ∈ A) (he : a.take n = v.take n) :
    Cell.none ∈ v.take n := by
  refine Classical.byContradiction (fun hno => ?_)
  unfold sqlKeysUnique at h
  have h := of_decide_eq_true h
  rw [List.map_append, List.filter_append, List.nodup_append] at h
  have hc : ((v.take n).contains Cell.none) = false := by
    rw [Bool.eq_false_iff]
    intro hc
    exact hno (List.contains_iff_mem.mp hc)
  refine h.2.2 (v.take n) ?_ (v.take n) ?_ rfl
  · rw [List.mem_filter]
    exact ⟨List.mem_map.mpr ⟨a, ha, he⟩, by simp only [hc]; rfl⟩
  · rw [List.mem_filter]
    exact ⟨List.mem_map.mpr ⟨v, List.mem_cons_self, rfl⟩, by simp only [hc]; rfl⟩

theorem insert_rows (env : TextEnv) (senv : SqlEnv) (cenv : CaseEnv) (cf : IOConf) (dv : Defaults) (t : String) (c : TabClass)
    (hfn : (c.fields.map (fun f => cenv.lower f.toList)).Nodup) (ixs : List Nat) (wss vss : List (List Cell))
    (hl : ∀ ws ∈ wss, ws.length = c.fields.length) (hst : wss.mapM (storeCells env senv cf dv t c.fields) = some vss)
    (tab : SqlTab) (hn : (tab.cols.map (fun c => cenv.lower c.name.toList)).Nodup)
    (hkey : ∀ k ∈ tab.key, ∃ col ∈ tab.cols, SqlSame cenv col.name k) (ht : TakesRows cenv cf dv t c tab)
    (hix : c.fields.mapM (tab.col cenv) = some ixs)
    (hu : c.pks ≠ [] → sqlKeysUnique c.pks.length (tab.rows.map (pick ixs) ++ vss) = true)
    (hr : ∀ r ∈ tab.rows, r.length = tab.cols.length ∧ DefaultsIn cenv tab c.fields r) :
    ∃ rows', runSteps (SqlTab.insert env senv cenv c.fields) wss tab = ({ tab with rows := rows' }, false) ∧
      rows'.map (pick ixs) = tab.rows.map (pick ixs) ++ vss ∧
      ∀ r ∈ rows', r.length = tab.cols.length ∧ DefaultsIn cenv tab c.fields r := by
  induction wss generalizing vss tab with
  | nil =>
    have := (mapM_eq_some_iff _ _ _).mp hst
    cases vss with
    | cons a b => simp at this
    | nil => exact ⟨tab.rows, rfl, by simp, hr⟩
  | cons ws rest ih =>
    have hm := (mapM_eq_some_iff _ _ _).mp hst
    cases vss with
    | nil => simp at hm
    | cons vs vss =>
      simp only [List.map_cons, List.cons.injEq] at hm
      obtain ⟨row, h1, h2, h3, h4⟩ := insert_row env senv cenv cf dv t c tab hn hkey ht hfn ixs hix ws vs
        (hl ws List.mem_cons_self) hm.1 (by
          intro hpk r hrm he
          exact keysUnique_mid _ _ vs vss (hu hpk) (pick ixs r) (List.mem_map.mpr ⟨r, hrm, rfl⟩) he)
      obtain ⟨rows', h5, h6, h7⟩ := ih vss (fun w hw => hl w (List.mem_cons_of_mem _ hw)) ((mapM_eq_some_iff _ _ _).mpr hm.2)
        { tab with rows := tab.rows ++ [row] } hn hkey ⟨ht.fields, ht.affinity, ht.others, ht.key⟩ hix
        (by
          intro hpk
          simp only [List.map_append, List.map_cons, List.map_nil, h2, List.append_assoc, List.cons_append, List.nil_append]
          exact hu hpk)
        (by
          intro r hrm
          rcases List.mem_append.mp hrm with h | h
          · exact hr r h
          · rw [List.mem_singleton.mp h]
            exact ⟨h3, h4⟩)
      refine ⟨rows', ?_, ?_, h7⟩
      · rw [runSteps, h1]
        exact h5
      · rw [h6]
        simp [h2]

theorem execute_block (env : TextEnv) (senv : SqlEnv) (cenv : CaseEnv) (t : String) (fields : List String)
    (wss : List (List Cell)) (file : SqlFile) (hn : ((PyDict.keys file).map (fun k => cenv.lower k.toList)).Nodup)
    (tab tab' : SqlTab) (hf : file.find cenv t = some tab)
    (hr : runSteps (SqlTab.insert env senv cenv fields) wss tab = (tab', false)) :
    ∃ file', runSteps (sqlExecute env senv cenv) (wss.map (fun r => ⟨t, fields, r⟩)) file = (file', false) ∧
      PyDict.keys file' = PyDict.keys file ∧ file'.find cenv t = some tab' ∧
      ∀ u, ¬ SqlSame cenv u t → file'.find cenv u = file.find cenv u := by
  induction wss generalizing file tab with
  | nil =>
    rw [runSteps] at hr
    cases hr
    exact ⟨file, rfl, rfl, hf, fun _ _ => rfl⟩
  | cons ws rest ih =>
    rw [runSteps] at hr
    cases hi : tab.insert env senv cenv fields ws with
    | none => rw [hi] at hr; cases hr
    | some tab1 =>
      rw [hi] at hr
      obtain ⟨file1, h1, h2, h3, h4⟩ := update_found cenv t (SqlTab.insert env senv cenv fields ws) file hn tab tab1 hf hi
      obtain ⟨file2, h5, h6, h7, h8⟩ := ih file1 (by rw [h2]; exact hn) tab1 h3 hr
      refine ⟨file2, ?_, h6.trans h2, h7, fun u hu => (h8 u hu).trans (h4 u hu)⟩
      rw [List.map_cons, runSteps]
      simp only [sqlExecute, h1]
      exact h5

/-! ### All tables -/

theorem checkFields_ok (cenv : CaseEnv) (laws : CaseLaws cenv) (file : SqlFile) (hwf : SqlFileWF cenv file)
    (schema : List (String × TabClass)) (hb : ∀ tc ∈ schema, ' ' ∉ tc.1.toList)
    (h : ∀ tc ∈ schema, ∃ tab, HasTable cenv file tc.1 tab ∧ ∀ f ∈ tc.2.fields, ∃ c ∈ tab.cols, SqlSame cenv c.name f) :
    file.checkFields cenv schema = some (schema.map (fun tc => (tc.1, tc.1))) := by
  induction schema with
  | nil => rfl
  | cons tc rest ih =>
    obtain ⟨tab, h1, h2⟩ := h tc List.mem_cons_self
    have ⟨⟨k, hk, hs⟩, _⟩ := h1
    obtain ⟨ixs, h3⟩ := cols_some cenv tab (hwf.cols _ hk) tc.2.fields h2
    unfold SqlFile.checkFields
    rw [tableName_found cenv laws file tc.1 (hb tc List.mem_cons_self) tab h1,
      ih (fun tc' h' => hb tc' (List.mem_cons_of_mem _ h')) (fun tc' h' => h tc' (List.mem_cons_of_mem _ h'))]
    simp [find_of_mem cenv file hwf.names k tab hk tc.1 hs, h3]

theorem prepare_all (cenv : CaseEnv) (allowOverwrite : Bool) (names : PyDict String String) (s : List (String × TabClass))
    (hsn : (s.map (fun tc => cenv.lower tc.1.toList)).Nodup) (hnames : ∀ tc ∈ s, PyDict.get? names tc.1 = some tc.1)
    (file : SqlFile) (hn : ((PyDict.keys file).map (fun k => cenv.lower k.toList)).Nodup)
    (h : ∀ tc ∈ s, ∃ tab, file.find cenv tc.1 = some tab ∧ (allowOverwrite = true ∨ tab.rows = [])) :
    ∃ file', runSteps (sqlPrepare cenv allowOverwrite names) s file = (file', false) ∧
      PyDict.keys file' = PyDict.keys file ∧
      (∀ tc ∈ s, ∀ tab, file.find cenv tc.1 = some tab → file'.find cenv tc.1 = some { tab with rows := [] }) ∧
      ∀ u, (∀ tc ∈ s, ¬ SqlSame cenv u tc.1) → file'.find cenv u = file.find cenv u := by
  induction s generalizing file with
  | nil => exact ⟨file, rfl, rfl, by simp, fun _ _ => rfl⟩
  | cons tc rest ih =>
    rw [List.map_cons, List.nodup_cons] at hsn
    obtain ⟨tab, h1, h2⟩ := h tc List.mem_cons_self
    have hstep : ∃ file1, sqlPrepare cenv allowOverwrite names tc file = some file1 ∧ PyDict.keys file1 = PyDict.keys file ∧
        file1.find cenv tc.1 = some { tab with rows := [] } ∧
        ∀ u, ¬ SqlSame cenv u tc.1 → file1.find cenv u = file.find cenv u := by
      unfold sqlPrepare
      rw [if_neg (by simp [hnames tc List.mem_cons_self]), h1, Option.bind_some]
      by_cases ha : allowOverwrite = true
      · rw [if_pos ha]
        exact update_found cenv tc.1 _ file hn tab _ h1 rfl
      · have hr : tab.rows = [] := h2.resolve_left ha
        rw [if_neg ha, if_pos hr]
        refine ⟨file, rfl, rfl, ?_, fun _ _ => rfl⟩
        rw [h1]
        cases tab
        simp_all
    obtain ⟨file1, h3, h4, h5, h6⟩ := hstep
    have hne : ∀ tc' ∈ rest, ¬ SqlSame cenv tc'.1 tc.1 := fun tc' h' e =>
      hsn.1 (List.mem_map.mpr ⟨tc', h', e⟩)
    obtain ⟨file2, h7, h8, h9, h10⟩ := ih hsn.2 (fun tc' h' => hnames tc' (List.mem_cons_of_mem _ h')) file1
      (by rw [h4]; exact hn) (fun tc' h' => by
        rw [h6 tc'.1 (hne tc' h')]
        exact h tc' (List.mem_cons_of_mem _ h'))
    refine ⟨file2, ?_, h8.trans h4, ?_, ?_⟩
    · rw [runSteps, h3]
      exact h7
    · intro tc' htc' tab' hf'
      rcases List.mem_cons.mp htc' with e | h'
      · subst e
        rw [h1] at hf'
        cases hf'
        rw [h10 tc'.1 (fun tc'' h'' e => hne tc'' h'' (show cenv.lower _ = cenv.lower _ from
          (show cenv.lower _ = cenv.lower _ from e).symm)), h5]
      · exact h9 tc' h' tab' (by rw [h6 tc'.1 (hne tc' h')]; exact hf')
    · intro u hu
      rw [h10 u (fun tc' h' => hu tc' (List.mem_cons_of_mem _ h')), h6 u (hu tc List.mem_cons_self)]

theorem execute_all (env : TextEnv) (senv : SqlEnv) (cenv : CaseEnv) (blk : String × TabClass → List (List Cell))
    (Q : String × TabClass → SqlTab → Prop) (s : List (String × TabClass))
    (hsn : (s.map (fun tc => cenv.lower tc.1.toList)).Nodup)
    (file : SqlFile) (hn : ((PyDict.keys file).map (fun k => cenv.lower k.toList)).Nodup)
    (h : ∀ tc ∈ s, ∃ tab tab', file.find cenv tc.1 = some tab ∧
      runSteps (SqlTab.insert env senv cenv tc.2.fields) (blk tc) tab = (tab', false) ∧ Q tc tab') :
    ∃ file', runSteps (sqlExecute env senv cenv) (s.map (fun tc => (blk tc).map (fun r => ⟨tc.1, tc.2.fields, r⟩))).flatten
        file = (file', false) ∧
      PyDict.keys file' = PyDict.keys file ∧
      (∀ tc ∈ s, ∃ tab', file'.find cenv tc.1 = some tab' ∧ Q tc tab') ∧
      ∀ u, (∀ tc ∈ s, ¬ SqlSame cenv u tc.1) → file'.find cenv u = file.find cenv u := by
  induction s generalizing file with
  | nil => exact ⟨file, rfl, rfl, by simp, fun _ _ => rfl⟩
  | cons tc rest ih =>
    rw [List.map_cons, List.nodup_cons] at hsn
    obtain ⟨tab, tab', h1, h2, h3⟩ := h tc List.mem_cons_self
    obtain ⟨file1, h4, h5, h6, h7⟩ := execute_block env senv cenv tc.1 tc.2.fields (blk tc) file hn tab tab' h1 h2
    have hne : ∀ tc' ∈ rest, ¬ SqlSame cenv tc'.1 tc.1 := fun tc' h' e =>
      hsn.1 (List.mem_map.mpr ⟨tc', h', e⟩)
    obtain ⟨file2, h8, h9, h10, h11⟩ := ih hsn.2 file1 (by rw [h5]; exact hn) (fun tc' h' => by
      rw [h7 tc'.1 (hne tc' h')]
      exact h tc' (List.mem_cons_of_mem _ h'))
    refine ⟨file2, ?_, h9.trans h5, ?_, ?_⟩
    · rw [List.map_cons, List.flatten_cons, runSteps_append _ _ _ _ _ h4]
      exact h8
    · intro tc' htc'
      rcases List.mem_cons.mp htc' with e | h'
      · subst e
        refine ⟨tab', ?_, h3⟩
        rw [h11 tc'.1 (fun tc'' h'' e => hne tc'' h'' (show cenv.lower _ = cenv.lower _ from
          (show cenv.lower _ = cenv.lower _ from e).symm)), h6]
      · exact h10 tc' h'
    · intro u hu
      rw [h11 u (fun tc' h' => hu tc' (List.mem_cons_of_mem _ h')), h7 u (hu tc List.mem_cons_self)]

theorem bind_store (env : TextEnv) (senv : SqlEnv) (cf : IOConf) (dv : Defaults) (keyed : Bool) (t : String)
    (fields : List String) (r vs : List Cell) (hl : r.length = fields.length)
    (h : mapCells (sqlCell env senv cf dv false keyed t) fields r = some vs) :
    ∃ ws, mapCells (sqlBind env cf keyed t) fields r = some ws ∧ ws.length = fields.length ∧
      storeCells env senv cf dv t fields ws = some vs := by
  induction fields generalizing r vs with
  | nil =>
    have : r = [] := List.eq_nil_of_length_eq_zero (by simpa using hl)
    subst this
    exact ⟨[], rfl, rfl, h⟩
  | cons f fields ih =>
    cases r with
    | nil => simp at hl
    | cons x r =>
      unfold mapCells at h ⊢
      rw [List.zip_cons_cons, List.mapM_cons] at h
      simp only [Option.bind_eq_bind, Option.bind_eq_some_iff, Option.pure_def, Option.some.injEq] at h
      obtain ⟨v, h1, vs', h2, rfl⟩ := h
      obtain ⟨ws, h3, h4, h5⟩ := ih r vs' (by simpa using hl) h2
      unfold sqlCell at h1
      rw [Option.bind_eq_some_iff] at h1
      obtain ⟨w, h6, h7⟩ := h1
      refine ⟨w :: ws, ?_, by simp [h4], ?_⟩
      · unfold mapCells at h3
        rw [List.zip_cons_cons, List.mapM_cons]
        simp only [show sqlBind env cf keyed t f x = some w from h6, h3]
        rfl
      · unfold storeCells mapCells at h5 ⊢
        rw [List.zip_cons_cons, List.mapM_cons]
        simp only [h7, h5]
        rfl

theorem bind_store_rows (env : TextEnv) (senv : SqlEnv) (cf : IOConf) (dv : Defaults) (keyed : Bool) (t : String)
    (fields : List String) (rows vss : List (List Cell)) (hl : ∀ r ∈ rows, r.length = fields.length)
    (h : rows.mapM (mapCells (sqlCell env senv cf dv false keyed t) fields) = some vss) :
    ∃ wss, rows.mapM (mapCells (sqlBind env cf keyed t) fields) = some wss ∧ (∀ ws ∈ wss, ws.length = fields.length) ∧
      wss.mapM (storeCells env senv cf dv t fields) = some vss := by
  induction rows generalizing vss with
  | nil => exact ⟨[], rfl, by simp, h⟩
  | cons r rows ih =>
    rw [List.mapM_cons] at h
    simp only [Option.bind_eq_bind, Option.bind_eq_some_iff, Option.pure_def, Option.some.injEq] at h
    obtain ⟨v, h1, vs', h2, rfl⟩ := h
    obtain ⟨wss, h3, h4, h5⟩ := ih vs' (fun r' hr' => hl r' (List.mem_cons_of_mem _ hr')) h2
    obtain ⟨w, h6, h7, h8⟩ := bind_store env senv cf dv keyed t fields r v (hl r List.mem_cons_self) h1
    refine ⟨w :: wss, ?_, ?_, ?_⟩
    · rw [List.mapM_cons, h6, h3]; rfl
    · intro ws hws
      rcases List.mem_cons.mp hws with e | hws
      · rw [e]; exact h7
      · exact h4 ws hws
    · rw [List.mapM_cons, h8, h5]; rfl

theorem find_same (cenv : CaseEnv) (file file' : SqlFile) (h : SameSqlFile file file') (t : String) (tab : SqlTab)
    (hf : file.find cenv t = some tab) : ∃ tab', file'.find cenv t = some tab' ∧ tab'.cols = tab.cols ∧ tab'.key = tab.key ∧
      List.Perm tab'.rows tab.rows := by
  unfold SameSqlFile at h
  unfold SqlFile.find at hf ⊢
  induction h with
  | nil => cases hf
  | @cons p p' l l' hp _ ih =>
    rw [List.find?_cons] at hf ⊢
    rw [hp.1]
    by_cases he : cenv.lower p.1.toList = cenv.lower t.toList
    · simp only [he, decide_true, Option.map_some, Option.some.injEq] at hf ⊢
      subst hf
      exact ⟨p'.2, rfl, hp.2⟩
    · simp only [he, decide_false] at hf ⊢
      exact ih hf

theorem same_keys (file file' : SqlFile) (h : SameSqlFile file file') : PyDict.keys file' = PyDict.keys file := by
  unfold SameSqlFile at h
  induction h with
  | nil => rfl
  | cons hp _ ih =>
    simp only [PyDict.keys, List.map_cons] at ih ⊢
    rw [hp.1, ih]

/-- The values that are bound for the rows of a table. -/
def boundRows (env : TextEnv) (cf : IOConf) (dat : PyDict String TabVal) (tc : String × TabClass) : List (List Cell) :=
  (((PyDict.get? dat tc.1).bind (fun tab => (flatRows tc.2 tab).bind (fun rows =>
    rows.mapM (mapCells (sqlBind env cf tab.isKeyed tc.1) tc.2.fields)))).getD [])

theorem writeAll_some {K V : Type} [DecidableEq K] (name : String × TabClass → K)
    (content : String × TabClass → Option V) (s : List (String × TabClass)) (dir dir' : PyDict K V)
    (h : writeAll name content s dir = some dir') (tc : String × TabClass) (htc : tc ∈ s) : ∃ v, content tc = some v := by
  induction s generalizing dir with
  | nil => cases htc
  | cons a rest ih =>
    rw [writeAll, Option.bind_eq_some_iff] at h
    obtain ⟨v, h1, h2⟩ := h
    rcases List.mem_cons.mp htc with e | htc
    · rw [e]; exact ⟨v, h1⟩
    · exact ih _ h2 htc

/-- As `sqlite_existing_db_round_trip`, for whatever cells survive. -/
theorem sqlite_existing_db_trip_cells (env : TextEnv) (hT : ∀ d, env.date (.str (env.text (.dt d))) = some d) (senv : SqlEnv)
    (cenv : CaseEnv) (laws : CaseLaws cenv) (hW : SqlWords cenv senv) (cf : IOConf) (dv : Defaults) (policy : DupPolicy)
    (allowOverwrite : Bool) (schema : List (String × TabClass))
    (hg : goodTableNames cenv (schema.map (fun tc => tc.1.toList)) = true)
    (hf : ∀ tc ∈ schema, (tc.2.fields.map (fun f => cenv.lower f.toList)).Nodup)
    (dat : PyDict String TabVal) (hk : PyDict.keys dat = schema.map Prod.fst)
    (hw : ∀ tc ∈ schema, ∀ tab, PyDict.get? dat tc.1 = some tab → WellShaped tc.2 tab)
    (hc : ∀ tc ∈ schema, ∀ tab, PyDict.get? dat tc.1 = some tab → ¬ IsParams cf.params tc.1 → ∀ f x,
      HasCell tc.2 tab f x → SqlCell env senv cenv cf dv false (decide (tc.2.pks ≠ [])) tc.1 f x x)
    (hp : ∀ tab, PyDict.get? dat "parameters" = some tab → cf.params ≠ [] →
      ParamEntries (SqlParam env cenv cf false) tab)
    (file : SqlFile) (hwf : SqlFileWF cenv file)
    (hfile : ∀ tc ∈ schema, ∃ tab, HasTable cenv file tc.1 tab ∧ TakesRows cenv cf dv tc.1 tc.2 tab ∧
      (allowOverwrite = true ∨ tab.rows = [])) :
    ∃ file', sqlFileWrite env senv cenv cf allowOverwrite schema dat file = (file', false) ∧
      PyDict.keys file' = PyDict.keys file ∧
      (∀ p ∈ file, (∀ tc ∈ schema, ¬ SqlSame cenv p.1 tc.1) → p ∈ file') ∧
      (∀ tc ∈ schema, ∀ tab, HasTable cenv file tc.1 tab → ∃ tab', HasTable cenv file' tc.1 tab' ∧ tab'.cols = tab.cols ∧
        tab'.key = tab.key ∧ ∀ r ∈ tab'.rows, DefaultsIn cenv tab tc.2.fields r) ∧
      ∀ file'', SameSqlFile file' file'' →
        ∃ dat2, sqlFileCreate env cenv cf policy schema file'' = some dat2 ∧ SameUpToOrder dat dat2 := by
  have hg' : goodTableNames cenv ((schema.map Prod.fst).map String.toList) = true := by
    rw [List.map_map]; exact hg
  obtain ⟨_, hblank, hlow⟩ := (goodTableNames_iff cenv _).mp hg
  have hnames : (schema.map Prod.fst).Nodup := nodup_of_map _ (nodup_of_map _ ((goodTableNames_iff cenv _).mp hg').2.2)
  have hsn : (schema.map (fun tc => cenv.lower tc.1.toList)).Nodup := by
    rw [List.map_map] at hlow; exact hlow
  have hb : ∀ tc ∈ schema, ' ' ∉ tc.1.toList := fun tc htc => hblank _ (List.mem_map.mpr ⟨tc, htc, rfl⟩)
  have hbl : ∀ tc ∈ schema, ' ' ∉ cenv.lower tc.1.toList := fun tc htc h => hb tc htc ((lower_blank cenv laws _).mp h)
  -- the databases of the round trip for the columns of the schema
  obtain ⟨db0, _, hd0, hd1, hd2, hd3⟩ := sql_new_db cenv laws schema hg hf
  obtain ⟨db', hdb', hdb2, hdb3⟩ := sql_round_trip_core env hT senv cenv laws hW cf dv policy false schema hg
    (fun tc htc => nodup_of_map _ (hf tc htc)) dat hk hw hc hp db0 hd0 hd3
  obtain ⟨db1, hdb1, hdn, hdg, _⟩ := write_all (fun tc : String × TabClass => tc.1)
    (fun tc => (PyDict.get? dat tc.1).bind (sqlRows env senv cf dv false tc.1 tc.2)) (fun _ _ => True) schema hnames
    (fun tc htc => by
      obtain ⟨v, hv⟩ := writeAll_some _ _ _ _ _ hdb' tc htc
      exact ⟨v, hv, trivial⟩) db0 hd0
  rw [hdb'] at hdb1
  cases hdb1
  -- the values that are bound
  have hbound : ∀ tc ∈ schema, ∃ vss, PyDict.get? db' tc.1 = some vss ∧
      sqlTabData env cf dat tc = some ((boundRows env cf dat tc).map (fun r => ⟨tc.1, tc.2.fields, r⟩)) ∧
      (∀ ws ∈ boundRows env cf dat tc, ws.length = tc.2.fields.length) ∧
      (boundRows env cf dat tc).mapM (storeCells env senv cf dv tc.1 tc.2.fields) = some vss ∧
      (tc.2.pks ≠ [] → sqlKeysUnique tc.2.pks.length vss = true) := by
    intro tc htc
    obtain ⟨vss, h1, h2, _⟩ := hdg tc htc
    rw [Option.bind_eq_some_iff] at h2
    obtain ⟨tab, h3, h4⟩ := h2
    have hsh := hw tc htc tab h3
    have hdf : tc.2.dfs.Nodup := (List.nodup_append.mp (nodup_of_map _ (hf tc htc))).2.1
    unfold sqlRows at h4
    rw [flatRows_eq tc.2 hdf tab hsh, Option.bind_some, Option.bind_eq_some_iff] at h4
    obtain ⟨rows, h5, h6⟩ := h4
    have h7 : rows = vss ∧ (tc.2.pks ≠ [] → sqlKeysUnique tc.2.pks.length rows = true) := by
      split at h6
      · cases h6
      · rename_i hno
        cases h6
        refine ⟨rfl, fun hpk => ?_⟩
        cases hu : sqlKeysUnique tc.2.pks.length vss with
        | true => rfl
        | false => simp [hpk, hu] at hno
    obtain ⟨rfl, h8⟩ := h7
    obtain ⟨wss, h9, h10, h11⟩ := bind_store_rows env senv cf dv tab.isKeyed tc.1 tc.2.fields (tabRows tab) rows
      (fun r hr => tabRows_length tc.2 tab hsh r hr) h5
    have h12 : boundRows env cf dat tc = wss := by
      unfold boundRows
      rw [h3, Option.bind_some, flatRows_eq tc.2 hdf tab hsh, Option.bind_some, h9]
      rfl
    rw [h12]
    refine ⟨rows, h1, ?_, h10, h11, h8⟩
    unfold sqlTabData
    rw [h3, Option.bind_some, flatRows_eq tc.2 hdf tab hsh, Option.bind_some, h9]
    rfl
  have hdata : sqlData env cf dat schema =
      some (schema.map (fun tc => (boundRows env cf dat tc).map (fun r => ⟨tc.1, tc.2.fields, r⟩))).flatten := by
    unfold sqlData
    rw [(mapM_eq_some_iff (sqlTabData env cf dat) schema
      (schema.map (fun tc => (boundRows env cf dat tc).map (fun r => ⟨tc.1, tc.2.fields, r⟩)))).mpr]
    · rfl
    · rw [List.map_map]
      apply List.map_congr_left
      intro tc htc
      obtain ⟨vss, _, h, _⟩ := hbound tc htc
      exact h
  -- writing
  have hcheck := checkFields_ok cenv laws file hwf schema hb (fun tc htc => by
    obtain ⟨tab, h1, h2, _⟩ := hfile tc htc
    exact ⟨tab, h1, h2.fields⟩)
  have hfind : ∀ tc ∈ schema, ∀ tab, HasTable cenv file tc.1 tab → (∃ k, (k, tab) ∈ file) ∧ file.find cenv tc.1 = some tab := by
    rintro tc _ tab ⟨⟨k, h1, h2⟩, _⟩
    exact ⟨⟨k, h1⟩, find_of_mem cenv file hwf.names k tab h1 tc.1 h2⟩
  obtain ⟨file1, hp1, hp2, hp3, hp4⟩ := prepare_all cenv allowOverwrite (schema.map (fun tc => (tc.1, tc.1))) schema hsn
    (fun tc htc => PyDict.get?_of_mem (by
      simp only [PyDict.keys, List.map_map]
      exact hnames) (List.mem_map.mpr ⟨tc, htc, rfl⟩)) file hwf.names (fun tc htc => by
      obtain ⟨tab, h1, _, h3⟩ := hfile tc htc
      exact ⟨tab, (hfind tc htc tab h1).2, h3⟩)
  obtain ⟨file2, he1, he2, he3, he4⟩ := execute_all env senv cenv (boundRows env cf dat)
    (fun tc tab' => ∃ tab ixs vss, file.find cenv tc.1 = some tab ∧ tab'.cols = tab.cols ∧ tab'.key = tab.key ∧
      tc.2.fields.mapM (tab.col cenv) = some ixs ∧ PyDict.get? db' tc.1 = some vss ∧ tab'.rows.map (pick ixs) = vss ∧
      ∀ r ∈ tab'.rows, DefaultsIn cenv tab tc.2.fields r) schema hsn file1 (by rw [hp2]; exact hwf.names) (by
    intro tc htc
    obtain ⟨tab, h1, h2, _⟩ := hfile tc htc
    obtain ⟨⟨k, h3⟩, h4⟩ := hfind tc htc tab h1
    obtain ⟨vss, h5, _, h6, h7, h8⟩ := hbound tc htc
    obtain ⟨ixs, h9⟩ := cols_some cenv tab (hwf.cols _ h3) tc.2.fields h2.fields
    obtain ⟨rows', h10, h11, h12⟩ := insert_rows env senv cenv cf dv tc.1 tc.2 (hf tc htc) ixs _ vss h6 h7
      { tab with rows := [] } (hwf.cols _ h3) (hwf.key _ h3) ⟨h2.fields, h2.affinity, h2.others, h2.key⟩ h9
      (fun hpk => by simpa using h8 hpk) (by simp)
    exact ⟨_, _, hp3 tc htc tab h4, h10, tab, ixs, vss, h4, rfl, rfl, h9, h5, by simpa using h11, fun r hr => (h12 r hr).2⟩)
  have hkeys : PyDict.keys file2 = PyDict.keys file := he2.trans hp2
  have hhas : ∀ (f2 : SqlFile), PyDict.keys f2 = PyDict.keys file → ∀ tc ∈ schema, ∀ tab', f2.find cenv tc.1 = some tab' →
      HasTable cenv f2 tc.1 tab' := by
    intro f2 hk2 tc htc tab' hf2
    refine ⟨mem_of_find cenv f2 tc.1 tab' hf2, ?_⟩
    obtain ⟨tab, ⟨_, h1⟩, _⟩ := hfile tc htc
    rw [hk2]
    exact h1
  refine ⟨file2, ?_, hkeys, ?_, ?_, ?_⟩
  · unfold sqlFileWrite
    rw [hcheck]
    simp only [hp1, hdata, he1]
  · rintro ⟨k, tab⟩ hpm hno
    have h1 := find_of_mem cenv file hwf.names k tab hpm k rfl
    have h2 : file2.find cenv k = some tab := by
      rw [he4 k hno, hp4 k hno, h1]
    obtain ⟨k', h3, h4⟩ := mem_of_find cenv file2 k tab h2
    have h5 : k' ∈ PyDict.keys file := by
      rw [← hkeys]; exact List.mem_map.mpr ⟨_, h3, rfl⟩
    have h6 : k' = k := inj_of_nodup_map _ hwf.names h5 (List.mem_map.mpr ⟨_, hpm, rfl⟩) h4
    rw [← h6]
    exact h3
  · intro tc htc tab htab
    obtain ⟨tab', h1, tab0, ixs, vss, h2, h3, h4, _, _, _, h5⟩ := he3 tc htc
    rw [(hfind tc htc tab htab).2] at h2
    cases h2
    exact ⟨tab', hhas file2 hkeys tc htc tab' h1, h3, h4, h5⟩
  · intro file'' hsame
    have hkeys'' : PyDict.keys file'' = PyDict.keys file := (same_keys _ _ hsame).trans hkeys
    have hsel : ∀ tc ∈ schema, ∃ rows vss, (file''.find cenv tc.1).bind (fun tab => tab.select cenv tc.2.fields) = some rows ∧
        PyDict.get? db' tc.1 = some vss ∧ List.Perm rows vss ∧ file''.tableName cenv tc.1 = some (some tc.1) := by
      intro tc htc
      obtain ⟨tab', h1, tab0, ixs, vss, h2, h3, h4, h5, h6, h7, _⟩ := he3 tc htc
      obtain ⟨tab'', h8, h9, h10, h11⟩ := find_same cenv file2 file'' hsame tc.1 tab' h1
      refine ⟨tab''.rows.map (pick ixs), vss, ?_, h6, ?_, ?_⟩
      · rw [h8, Option.bind_some]
        unfold SqlTab.select
        have : (SqlTab.col cenv tab'') = (SqlTab.col cenv tab0) := by
          funext f
          unfold SqlTab.col
          rw [h9, h3]
        rw [this, h5]
        rfl
      · rw [← h7]
        exact h11.map _
      · exact tableName_found cenv laws file'' tc.1 (hb tc htc) tab'' (hhas file'' hkeys'' tc htc tab'' h8)
    obtain ⟨view, hview⟩ : ∃ view : SqlDb, view = schema.map (fun tc => (tc.1,
        ((file''.find cenv tc.1).bind (fun tab => tab.select cenv tc.2.fields)).getD [])) := ⟨_, rfl⟩
    have hvk : PyDict.keys view = schema.map Prod.fst := by
      rw [hview]; simp [PyDict.keys, Function.comp_def]
    have hvg : ∀ tc ∈ schema, PyDict.get? view tc.1 =
        some (((file''.find cenv tc.1).bind (fun tab => tab.select cenv tc.2.fields)).getD []) := fun tc htc =>
      PyDict.get?_of_mem (by rw [hvk]; exact hnames) (by rw [hview]; exact List.mem_map.mpr ⟨tc, htc, rfl⟩)
    have hdk : ∀ k, k ∈ PyDict.keys db' ↔ k ∈ schema.map Prod.fst := by
      intro k
      by_cases hks : ∀ tc ∈ schema, k ≠ tc.1
      · have h1 := hdb2 k hks
        constructor
        · intro h
          have : k ∈ PyDict.keys db0 := by
            refine Classical.byContradiction (fun hno => ?_)
            rw [(PyDict.get?_eq_none _ _).mpr hno] at h1
            exact (PyDict.get?_eq_none _ _).mp h1 h
          rw [hd2] at this
          exact this
        · intro h
          obtain ⟨tc, htc, e⟩ := List.mem_map.mp h
          exact absurd e.symm (hks tc htc)
      · obtain ⟨tc, htc, e⟩ : ∃ tc ∈ schema, k = tc.1 :=
          Classical.byContradiction (fun hno => hks (fun tc' h e => hno ⟨tc', h, e⟩))
        obtain ⟨v, h1, _⟩ := hdg tc htc
        refine ⟨fun _ => List.mem_map.mpr ⟨tc, htc, e.symm⟩, fun _ => ?_⟩
        rw [e]
        refine Classical.byContradiction (fun hno => ?_)
        rw [(PyDict.get?_eq_none _ _).mpr hno] at h1
        cases h1
    have hsdb : SameDb db' view := by
      refine ⟨?_, ?_⟩
      · rw [List.perm_ext_iff_of_nodup (by rw [hvk]; exact hnames) hdn]
        intro k
        rw [hdk k, hvk]
      · intro t rows hget
        have hmem : t ∈ schema.map Prod.fst := by
          rw [← hdk]
          refine Classical.byContradiction (fun hno => ?_)
          rw [(PyDict.get?_eq_none _ _).mpr hno] at hget
          cases hget
        obtain ⟨tc, htc, e⟩ := List.mem_map.mp hmem
        obtain ⟨rs, vss, h1, h2, h3, _⟩ := hsel tc htc
        rw [e] at h2
        rw [hget] at h2
        cases h2
        refine ⟨rs, ?_, h3⟩
        rw [← e, hvg tc htc, h1]
        rfl
    obtain ⟨dat2, h1, h2⟩ := hdb3 view hsdb
    refine ⟨dat2, ?_, h2⟩
    rw [← h1]
    rw [sqlFileCreate_eq env cenv cf policy schema hnames]
    unfold readAll sqlCreate
    rw [gather_congr _ (sqlFind env cenv cf view) schema]
    intro tc htc
    obtain ⟨rs, vss, h3, _, _, h4⟩ := hsel tc htc
    have hother : ∀ k ∈ PyDict.keys view, ∀ tc ∈ schema, unblank (cenv.lower k.toList) = cenv.lower tc.1.toList → k = tc.1 := by
      rw [hvk, ← hd2]; exact hd3
    have hvt := sql_table_found cenv laws schema hg view hother tc htc (by rw [hvk]; exact List.mem_map.mpr ⟨tc, htc, rfl⟩)
    have hvs := sql_select_found cenv schema view (by rw [hvk]; exact hnames) hbl hother tc htc rs (by
      rw [hvg tc htc, h3]; rfl)
    unfold sqlFileFind sqlFind
    rw [h4, hvt]
    simp only [Option.bind_some, hvs]
    unfold sqlTabRows
    rw [Option.bind_eq_some_iff] at h3
    obtain ⟨tab, h5, h6⟩ := h3
    rw [h5, Option.bind_some, h6, Option.bind_some, Option.map_map]
    rfl

/-- **C77, round trip.**  A data object written into an existing SQLite database is read back the same up to the order of the
rows: the tables may have their columns in another order and further columns with default values, names may be spelled in
another case, there may be other tables.  Other tables keep all they have, the tables of the schema keep their columns, and
the further columns of the new rows have the default values. -/
theorem sqlite_existing_db_round_trip (env : TextEnv) (hT : ∀ d, env.date (.str (env.text (.dt d))) = some d) (senv : SqlEnv)
    (cenv : CaseEnv) (laws : CaseLaws cenv) (hW : SqlWords cenv senv) (cf : IOConf) (dv : Defaults) (policy : DupPolicy)
    (allowOverwrite : Bool) (schema : List (String × TabClass))
    (hg : goodTableNames cenv (schema.map (fun tc => tc.1.toList)) = true)
    (hf : ∀ tc ∈ schema, (tc.2.fields.map (fun f => cenv.lower f.toList)).Nodup)
    (dat : PyDict String TabVal) (hk : PyDict.keys dat = schema.map Prod.fst)
    (hw : ∀ tc ∈ schema, ∀ tab, PyDict.get? dat tc.1 = some tab → WellShaped tc.2 tab)
    (hc : ∀ tc ∈ schema, ∀ tab, PyDict.get? dat tc.1 = some tab → ¬ IsParams cf.params tc.1 → ∀ f x,
      HasCell tc.2 tab f x → SqlSafe env senv cenv cf dv false (decide (tc.2.pks ≠ [])) tc.1 f x)
    (hp : ∀ tab, PyDict.get? dat "parameters" = some tab → cf.params ≠ [] →
      ParamEntries (SqlParam env cenv cf false) tab)
    (file : SqlFile) (hwf : SqlFileWF cenv file)
    (hfile : ∀ tc ∈ schema, ∃ tab, HasTable cenv file tc.1 tab ∧ TakesRows cenv cf dv tc.1 tc.2 tab ∧
      (allowOverwrite = true ∨ tab.rows = [])) :
    ∃ file', sqlFileWrite env senv cenv cf allowOverwrite schema dat file = (file', false) ∧
      PyDict.keys file' = PyDict.keys file ∧
      (∀ p ∈ file, (∀ tc ∈ schema, ¬ SqlSame cenv p.1 tc.1) → p ∈ file') ∧
      (∀ tc ∈ schema, ∀ tab, HasTable cenv file tc.1 tab → ∃ tab', HasTable cenv file' tc.1 tab' ∧ tab'.cols = tab.cols ∧
        tab'.key = tab.key ∧ ∀ r ∈ tab'.rows, DefaultsIn cenv tab tc.2.fields r) ∧
      ∀ file'', SameSqlFile file' file'' →
        ∃ dat2, sqlFileCreate env cenv cf policy schema file'' = some dat2 ∧ SameUpToOrder dat dat2 :=
  sqlite_existing_db_trip_cells env hT senv cenv laws hW cf dv policy allowOverwrite schema hg hf dat hk hw
    (fun tc htc tab hget hnp f x hx => sql_cell_survives hT hW cf dv false _ tc.1 f x hnp (hc tc htc tab hget hnp f x hx)) hp file hwf hfile

/-! ### Writing that fails -/

theorem sqlite_write_atomic (env : TextEnv) (senv : SqlEnv) (cenv : CaseEnv) (cf : IOConf) (allowOverwrite : Bool)
    (schema : List (String × TabClass)) (dat : PyDict String TabVal) (file file' : SqlFile)
    (h : sqlFileWrite env senv cenv cf allowOverwrite schema dat file = (file', true)) : file' = file := by
  unfold sqlFileWrite at h
  split at h
  · cases h; rfl
  · split at h
    · cases h; rfl
    · split at h
      · cases h; rfl
      · split at h
        · cases h; rfl
        · cases h

theorem runSteps_keeps {A S : Type} (step : A → S → Option S) (P : S → Prop) (hs : ∀ a s s', step a s = some s' → P s → P s')
    (l : List A) (s : S) (h : P s) : P (runSteps step l s).1 := by
  induction l generalizing s with
  | nil => exact h
  | cons a rest ih =>
    rw [runSteps]
    cases ha : step a s with
    | none => exact h
    | some s' => exact ih s' (hs a s s' ha h)

theorem runSteps_raises {A S : Type} (step : A → S → Option S) (P : S → Prop) (l : List A) (a : A) (ha : a ∈ l)
    (hs : ∀ b s s', step b s = some s' → P s → P s') (hr : ∀ s, P s → step a s = none) (s : S) (h : P s) :
    (runSteps step l s).2 = true := by
  induction l generalizing s with
  | nil => cases ha
  | cons b rest ih =>
    rw [runSteps]
    cases hb : step b s with
    | none => rfl
    | some s' =>
      rcases List.mem_cons.mp ha with e | ha
      · rw [← e, hr s h] at hb; cases hb
      · exact ih ha s' (hs b s s' hb h)

theorem prepare_keys (cenv : CaseEnv) (allowOverwrite : Bool) (names : PyDict String String) (tc : String × TabClass)
    (file file' : SqlFile) (h : sqlPrepare cenv allowOverwrite names tc file = some file') :
    PyDict.keys file' = PyDict.keys file ∧ (∀ u, ¬ SqlSame cenv u tc.1 → file'.find cenv u = file.find cenv u) ∧
      (allowOverwrite = false → file' = file) := by
  unfold sqlPrepare at h
  split at h
  · cases h
  · rw [Option.bind_eq_some_iff] at h
    obtain ⟨tab, _, h⟩ := h
    split at h
    · rename_i ha
      obtain ⟨h1, h2⟩ := update_keys cenv tc.1 _ file file' h
      exact ⟨h1, h2, fun e => by rw [e] at ha; cases ha⟩
    · split at h
      · cases h
        exact ⟨rfl, fun _ _ => rfl, fun _ => rfl⟩
      · cases h

/-- **C77, no overwrite.**  Without `allow_overwrite`, one row in a table of the schema is enough for writing to raise;
nothing is changed. -/
theorem sqlite_existing_no_overwrite (env : TextEnv) (senv : SqlEnv) (cenv : CaseEnv) (cf : IOConf)
    (schema : List (String × TabClass)) (dat : PyDict String TabVal) (file : SqlFile) (hwf : SqlFileWF cenv file)
    (tc : String × TabClass) (htc : tc ∈ schema) (tab : SqlTab) (h : HasTable cenv file tc.1 tab) (hr : tab.rows ≠ []) :
    sqlFileWrite env senv cenv cf false schema dat file = (file, true) := by
  obtain ⟨⟨k, hk, hs⟩, _⟩ := h
  have hf := find_of_mem cenv file hwf.names k tab hk tc.1 hs
  unfold sqlFileWrite
  cases hc : file.checkFields cenv schema with
  | none => rfl
  | some names =>
    have h1 := runSteps_raises (sqlPrepare cenv false names) (fun f => f = file) schema tc htc
      (fun b s s' hb e => by rw [(prepare_keys cenv false names b s s' hb).2.2 rfl, e])
      (fun s e => by
        subst e
        unfold sqlPrepare
        split
        · rfl
        · simp [hf, hr]) file rfl
    cases hrun : runSteps (sqlPrepare cenv false names) schema file with
    | mk f b =>
      rw [hrun] at h1
      subst h1
      simp only [hrun]

/-- **C77, missing tables.**  A table of the schema that is not in the database makes writing raise; nothing is changed. -/
theorem sqlite_write_missing_table (env : TextEnv) (senv : SqlEnv) (cenv : CaseEnv) (cf : IOConf)
    (allowOverwrite : Bool) (schema : List (String × TabClass)) (dat : PyDict String TabVal) (file : SqlFile)
    (tc : String × TabClass) (htc : tc ∈ schema)
    (h : ∀ k ∈ PyDict.keys file, ¬ SqlSame cenv k tc.1) :
    sqlFileWrite env senv cenv cf allowOverwrite schema dat file = (file, true) := by
  unfold sqlFileWrite
  cases hc : file.checkFields cenv schema with
  | none => rfl
  | some names =>
    have h1 := runSteps_raises (sqlPrepare cenv allowOverwrite names) (fun f => PyDict.keys f = PyDict.keys file) schema tc htc
      (fun b s s' hb e => (prepare_keys cenv allowOverwrite names b s s' hb).1.trans e)
      (fun s e => by
        unfold sqlPrepare
        split
        · rfl
        · cases hf : SqlFile.find cenv s tc.1 with
          | none => rfl
          | some tab =>
            obtain ⟨k, h2, h3⟩ := mem_of_find cenv s tc.1 tab hf
            exact absurd h3 (h k (by rw [← e]; exact List.mem_map.mpr ⟨_, h2, rfl⟩))) file rfl
    cases hrun : runSteps (sqlPrepare cenv allowOverwrite names) schema file with
    | mk f b =>
      rw [hrun] at h1
      subst h1
      simp only [hrun]

/-- Statements are for tables of the schema. -/
theorem sqlData_tables (env : TextEnv) (cf : IOConf) (dat : PyDict String TabVal) (schema : List (String × TabClass))
    (stmts : List SqlInsert) (h : sqlData env cf dat schema = some stmts) (st : SqlInsert) (hst : st ∈ stmts) :
    ∃ tc ∈ schema, st.table = tc.1 := by
  unfold sqlData at h
  rw [Option.map_eq_some_iff] at h
  obtain ⟨bs, h1, rfl⟩ := h
  obtain ⟨b, hb, hstb⟩ := List.mem_flatten.mp hst
  have h2 := (mapM_eq_some_iff _ _ _).mp h1
  have h3 : some b ∈ bs.map some := List.mem_map.mpr ⟨b, hb, rfl⟩
  rw [← h2] at h3
  obtain ⟨tc, htc, h4⟩ := List.mem_map.mp h3
  refine ⟨tc, htc, ?_⟩
  unfold sqlTabData at h4
  simp only [Option.bind_eq_some_iff, Option.map_eq_some_iff] at h4
  obtain ⟨_, _, _, _, _, _, rfl⟩ := h4
  obtain ⟨r, _, rfl⟩ := List.mem_map.mp hstb
  rfl

theorem runSteps_keeps_mem {A S : Type} (step : A → S → Option S) (P : S → Prop) (l : List A)
    (hs : ∀ a ∈ l, ∀ s s', step a s = some s' → P s → P s') (s : S) (h : P s) : P (runSteps step l s).1 := by
  induction l generalizing s with
  | nil => exact h
  | cons a rest ih =>
    rw [runSteps]
    cases ha : step a s with
    | none => exact h
    | some s' =>
      exact ih (fun b hb => hs b (List.mem_cons_of_mem _ hb)) s' (hs a List.mem_cons_self s s' ha h)

/-- **C77, all or nothing.**  Whatever is written into whatever database: if writing raises, the database is as it was, and if
it does not, the tables that are not of the schema are as they were. -/
theorem sqlite_write_local (env : TextEnv) (senv : SqlEnv) (cenv : CaseEnv) (cf : IOConf) (allowOverwrite : Bool)
    (schema : List (String × TabClass)) (dat : PyDict String TabVal) (file file' : SqlFile) (raised : Bool)
    (hwf : ((PyDict.keys file).map (fun k => cenv.lower k.toList)).Nodup)
    (h : sqlFileWrite env senv cenv cf allowOverwrite schema dat file = (file', raised)) :
    (raised = true → file' = file) ∧ PyDict.keys file' = PyDict.keys file ∧
      ∀ p ∈ file, (∀ tc ∈ schema, ¬ SqlSame cenv p.1 tc.1) → p ∈ file' := by
  cases raised with
  | true =>
    have := sqlite_write_atomic env senv cenv cf allowOverwrite schema dat file file' h
    subst this
    exact ⟨fun _ => rfl, rfl, fun p hp _ => hp⟩
  | false =>
    refine ⟨fun e => (Bool.false_ne_true e).elim, ?_⟩
    have hinv : PyDict.keys file' = PyDict.keys file ∧
        ∀ u, (∀ tc ∈ schema, ¬ SqlSame cenv u tc.1) → file'.find cenv u = file.find cenv u := by
      unfold sqlFileWrite at h
      split at h
      · cases h
      · rename_i names _
        split at h
        · cases h
        · rename_i file1 hrun1
          split at h
          · cases h
          · rename_i stmts hst
            split at h
            · cases h
            · rename_i file2 hrun2
              cases h
              have h1 := runSteps_keeps_mem (sqlPrepare cenv allowOverwrite names) (fun f => PyDict.keys f = PyDict.keys file ∧
                ∀ u, (∀ tc ∈ schema, ¬ SqlSame cenv u tc.1) → f.find cenv u = file.find cenv u) schema (by
                  intro a ha s s' hs hP
                  obtain ⟨h2, h3, _⟩ := prepare_keys cenv allowOverwrite names a s s' hs
                  exact ⟨h2.trans hP.1, fun u hu => (h3 u (hu a ha)).trans (hP.2 u hu)⟩) file ⟨rfl, fun _ _ => rfl⟩
              rw [hrun1] at h1
              have h4 := runSteps_keeps_mem (sqlExecute env senv cenv) (fun f => PyDict.keys f = PyDict.keys file ∧
                ∀ u, (∀ tc ∈ schema, ¬ SqlSame cenv u tc.1) → f.find cenv u = file.find cenv u) stmts (by
                  intro a ha s s' hs hP
                  obtain ⟨tc, htc, e⟩ := sqlData_tables env cf dat schema stmts hst a ha
                  obtain ⟨h2, h3⟩ := update_keys cenv a.table _ s s' hs
                  exact ⟨h2.trans hP.1, fun u hu => (h3 u (by rw [e]; exact hu tc htc)).trans (hP.2 u hu)⟩) file1 h1
              rw [hrun2] at h4
              exact h4
    refine ⟨hinv.1, ?_⟩
    rintro ⟨k, tab⟩ hpm hno
    have h2 := (hinv.2 k hno).trans (find_of_mem cenv file hwf k tab hpm k rfl)
    obtain ⟨k', h3, h4⟩ := mem_of_find cenv file' k tab h2
    have h6 : k' = k := inj_of_nodup_map _ hwf (by rw [← hinv.1]; exact List.mem_map.mpr ⟨_, h3, rfl⟩)
      (List.mem_map.mpr ⟨_, hpm, rfl⟩) h4
    rw [← h6]
    exact h3

end Ticdat

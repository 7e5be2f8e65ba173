import Verif.Props.FindDupsDb
/-!
# C67: `find_duplicates` of json files
-/
namespace Ticdat
open Spec
set_option linter.unusedSimpArgs false

/-! ### Rows -/

/-- What is read of a row that stands for a record stands for the record that is read. -/
theorem rowOf_read (env : TextEnv) (cf : IOConf) (t : String) (fields : List String) (flat : List Cell)
    (hl : flat.length = fields.length) (x x' : RowIn) (hx : RowOf fields flat x)
    (h : jsonReadRow env cf t fields x = some x') :
    ∃ r', mapCells (readCell env cf t) fields flat = some r' ∧ r'.length = fields.length ∧ RowOf fields r' x' := by
  cases x with
  | scalar v => exact absurd hx id
  | seq vs =>
    have : vs = flat := hx
    subst this
    simp only [jsonReadRow, Option.map_eq_some_iff] at h
    obtain ⟨r', h1, rfl⟩ := h
    exact ⟨r', h1, mapCells_length _ _ _ _ hl h1, rfl⟩
  | dict d =>
    have hp : List.Perm d (fields.zip flat) := hx
    simp only [jsonReadRow, Option.map_eq_some_iff] at h
    obtain ⟨d', h1, rfl⟩ := h
    rw [mapM_eq_some_iff] at h1
    have hsome : ∀ p ∈ d, ∃ y, readCell env cf t p.1 p.2 = some y := by
      intro p hpd
      have : (readCell env cf t p.1 p.2).map (fun v => (p.1, v)) ∈ d'.map some := by
        rw [← h1]; exact List.mem_map.mpr ⟨p, hpd, rfl⟩
      obtain ⟨q, _, hq⟩ := List.mem_map.mp this
      obtain ⟨y, hy, _⟩ := Option.map_eq_some_iff.mp hq.symm
      exact ⟨y, hy⟩
    obtain ⟨r', h3⟩ : ∃ r', mapCells (readCell env cf t) fields flat = some r' := by
      unfold mapCells
      apply mapM_some_of_forall
      intro p hpz
      obtain ⟨y, hy⟩ := hsome p (hp.mem_iff.mpr hpz)
      simp [hy]
    have hrl := mapCells_length _ _ _ _ hl h3
    refine ⟨r', h3, hrl, ?_⟩
    have hd' : d' = d.map (fun p => (p.1, (readCell env cf t p.1 p.2).getD .none)) := by
      have : d.map (fun p => (readCell env cf t p.1 p.2).map (fun v => (p.1, v))) =
          (d.map (fun p => (p.1, (readCell env cf t p.1 p.2).getD .none))).map some := by
        rw [List.map_map]
        apply List.map_congr_left
        intro p hpd
        obtain ⟨y, hy⟩ := hsome p hpd
        simp [hy]
      rw [this] at h1
      exact ((List.map_inj_right (fun _ _ => Option.some.inj)).mp h1).symm
    rw [hd']
    unfold mapCells at h3
    rw [mapM_eq_some_iff] at h3
    have h4 : (fields.zip flat).map (fun p => (p.1, (readCell env cf t p.1 p.2).getD .none)) = fields.zip r' := by
      apply List.ext_getElem?
      intro i
      rw [List.getElem?_map]
      have h5 := congrArg (fun l => l[i]?) h3
      simp only [List.getElem?_map] at h5
      cases hz : (fields.zip flat)[i]? with
      | none =>
        rw [List.getElem?_eq_none_iff] at hz
        have : (fields.zip r')[i]? = none := by
          rw [List.getElem?_eq_none_iff, List.length_zip, hrl]
          rw [List.length_zip, hl] at hz
          exact hz
        rw [this]
        rfl
      | some p =>
        rw [hz] at h5
        cases hr : r'[i]? with
        | none => rw [hr] at h5; cases h5
        | some y =>
          rw [hr] at h5
          simp only [Option.map_some, Option.some.injEq] at h5
          symm
          rw [Option.map_some, List.getElem?_zip_eq_some]
          rw [List.getElem?_zip_eq_some] at hz
          exact ⟨hz.1, by rw [hr, h5]; rfl⟩
    show List.Perm _ _
    rw [← h4]
    exact hp.map _

theorem rowsOf_read (env : TextEnv) (cf : IOConf) (t : String) (fields : List String) (K : List (List Cell))
    (hl : ∀ r ∈ K, r.length = fields.length) (xs xs' : List RowIn) (hx : Pairwise2 (RowOf fields) K xs)
    (h : xs.mapM (jsonReadRow env cf t fields) = some xs') :
    ∃ R, K.mapM (mapCells (readCell env cf t) fields) = some R ∧ (∀ r ∈ R, r.length = fields.length) ∧
      Pairwise2 (RowOf fields) R xs' := by
  rw [mapM_eq_some_iff] at h
  induction hx generalizing xs' with
  | nil =>
    have : xs' = [] := by simpa using h.symm
    subst this
    exact ⟨[], rfl, by simp, .nil⟩
  | cons hr _ ih =>
    cases xs' with
    | nil => simp at h
    | cons x' xs' =>
      simp only [List.map_cons, List.cons.injEq] at h
      obtain ⟨r', h1, h2, h3⟩ := rowOf_read env cf t fields _ (hl _ List.mem_cons_self) _ _ hr h.1
      obtain ⟨R, h4, h5, h6⟩ := ih (fun r hr => hl r (List.mem_cons_of_mem _ hr)) xs' h.2
      refine ⟨r' :: R, by rw [List.mapM_cons, h1, h4]; rfl, ?_, .cons h3 h6⟩
      intro r hr
      rcases List.mem_cons.mp hr with rfl | hr
      · exact h2
      · exact h5 r hr

/-- The dictionary of the records by key holds the last record of each key. -/
theorem holds_ofList (c : TabClass) (hpk : c.pks ≠ []) (rows : List (List Cell))
    (hl : ∀ r ∈ rows, r.length = c.fields.length) :
    HoldsLast c rows (.keyed (PyDict.ofList (rows.map (fun r =>
      (splitKey c.pks.length (.seq r), c.dfs.zip (r.drop c.pks.length)))))) := by
  have hpos : 0 < c.pks.length := List.length_pos_iff.mpr hpk
  have hl1 : ∀ r ∈ rows, c.pks.length ≤ r.length := fun r hr => by rw [hl r hr]; simp [TabClass.fields]
  refine ⟨_, rfl, PyDict.ofList_keys_nodup _, ?_, ?_⟩
  · intro k hk
    rw [PyDict.keys_ofList_mem, List.map_map] at hk
    obtain ⟨r, hr, rfl⟩ := List.mem_map.mp hk
    exact shape_of_record _ hpos r (hl1 r hr)
  · intro k hk
    rw [get?_ofList_reverse, ← List.map_reverse, List.find?_map, Option.map_map]
    unfold lastRecord
    have hgen : ∀ l : List (List Cell), (∀ r ∈ l, r ∈ rows) →
        l.find? (fun r => decide (splitKey c.pks.length (.seq r) = k)) =
        l.find? (fun r => decide (r.take c.pks.length = keyCells k)) := by
      intro l
      induction l with
      | nil => intro _; rfl
      | cons r l ih =>
        intro h
        have ht := (take_of_shape _ k hk r (hl1 r (h r List.mem_cons_self))).1
        rw [List.find?_cons, List.find?_cons, ih (fun x hx => h x (List.mem_cons_of_mem _ hx))]
        have : decide (splitKey c.pks.length (.seq r) = k) = decide (r.take c.pks.length = keyCells k) := by
          rw [decide_eq_decide]; exact ht.symm
        rw [this]
    rw [← hgen _ (fun r hr => List.mem_reverse.mp hr)]
    rfl

/-- Constructing a table with primary key from rows that stand for records. -/
theorem init_rows_keyed (c : TabClass) (hpk : c.pks ≠ []) (hn : c.fields.Nodup) (R : List (List Cell))
    (hl : ∀ r ∈ R, r.length = c.fields.length) (xs : List RowIn) (hx : Pairwise2 (RowOf c.fields) R xs) :
    ∃ tab, initTable c (.seq xs) = some tab ∧ HoldsLast c R tab := by
  refine ⟨_, ?_, holds_ofList c hpk R hl⟩
  have hdn : c.dfs.Nodup := (List.nodup_append.mp hn).2.1
  unfold initTable
  have hgood : goodTableForInit c (.seq xs) = true := by
    unfold goodTableForInit
    rw [if_pos hpk, List.all_eq_true]
    intro x hx'
    obtain ⟨flat, hm, hr⟩ := pairwise2_mem hx x hx'
    exact goodRow_rowOf _ flat (hl flat hm) x hr
  rw [if_pos hgood, if_pos hpk]
  simp only
  have : xs.mapM (initListRow c) =
      some (R.map (fun r => (splitKey c.pks.length (.seq r), c.dfs.zip (r.drop c.pks.length)))) := by
    refine pairwise2_mapM (R := fun r x => r ∈ R ∧ RowOf c.fields r x) ?_
      (pairwise2_strengthen hx (fun p hp x hr => ⟨hp, hr⟩))
    rintro r x ⟨hrR, hr⟩
    unfold initListRow
    rw [show c.pks ++ c.dfs = c.fields from rfl, handle_rowOf c.fields hn r (hl r hrR) x hr, splitData]
    have hlen : (r.drop c.pks.length).length = c.dfs.length := by
      rw [List.length_drop, hl r hrR]; simp [TabClass.fields]
    have hk : PyDict.keys (c.dfs.zip (r.drop c.pks.length)) = c.dfs := List.map_fst_zip (by omega)
    have h1 := initRow_flat c (c.dfs.zip (r.drop c.pks.length)) hk hdn
    rw [List.map_snd_zip (by omega)] at h1
    rw [h1]
    rfl
  rw [this]
  rfl

/-! ### Finding the tables -/

theorem gather_nodup (rd : String × TabClass → Option (Option TableIn)) (s : List (String × TabClass))
    (hn : (s.map Prod.fst).Nodup) (input : PyDict String TableIn) (h : gatherTables rd s = some input) :
    (PyDict.keys input).Nodup := by
  induction s generalizing input with
  | nil => cases h; simp [PyDict.keys]
  | cons tc rest ih =>
    rw [List.map_cons, List.nodup_cons] at hn
    unfold gatherTables at h
    simp only [Option.bind_eq_some_iff, Option.map_eq_some_iff] at h
    obtain ⟨x, _, r, hr, he⟩ := h
    have h1 := ih hn.2 r hr
    cases x with
    | none => subst he; exact h1
    | some y =>
      subst he
      show (tc.1 :: PyDict.keys r).Nodup
      rw [List.nodup_cons]
      exact ⟨fun hm => hn.1 ((gather_get rd rest hn.2 r hr).1 _ hm), h1⟩


/-- In a file whose keys match table names only if they are those names, each table is found under its name. -/
theorem jsonFind_exact (env : TextEnv) (cenv : CaseEnv) (cf : IOConf) (file : PyDict String (List RowIn))
    (hk : (PyDict.keys file).Nodup) (tc : String × TabClass) (hb : ' ' ∉ tc.1.toList)
    (hname : ∀ k ∈ PyDict.keys file, jsonMatches cenv tc.1.toList k.toList = true → k = tc.1) :
    jsonFind env cenv cf file tc = match PyDict.get? file tc.1 with
      | none => some none
      | some rows => (jsonReadTable env cf tc.1 tc.2 rows).map some := by
  have hself : jsonMatches cenv tc.1.toList tc.1.toList = true := by
    unfold jsonMatches
    rw [unblank_of_no_blank _ hb]
    exact decide_eq_true rfl
  unfold jsonFind
  rcases oneEntry_cases (fun k : String => jsonMatches cenv tc.1.toList k.toList) file with
    ⟨h1, h2⟩ | ⟨k, v, h1, h2, h3⟩ | ⟨a, b, l, h1, h2⟩
  · rw [h2]
    have : tc.1 ∉ PyDict.keys file := by
      intro hm
      have : tc.1 ∈ (PyDict.keys file).filter (fun k => jsonMatches cenv tc.1.toList k.toList) :=
        List.mem_filter.mpr ⟨hm, hself⟩
      rw [h1] at this
      cases this
    rw [(PyDict.get?_eq_none _ _).mpr this]
    rfl
  · have hm : k ∈ (PyDict.keys file).filter (fun k => jsonMatches cenv tc.1.toList k.toList) := by rw [h1]; simp
    have := hname k (List.mem_filter.mp hm).1 (List.mem_filter.mp hm).2
    subst this
    rw [h3, h2]
    rfl
  · have hf : ((PyDict.keys file).filter (fun k => jsonMatches cenv tc.1.toList k.toList)).Nodup :=
      hk.sublist List.filter_sublist
    have ha : ∀ x ∈ (PyDict.keys file).filter (fun k => jsonMatches cenv tc.1.toList k.toList), x = tc.1 := by
      intro x hx
      exact hname x (List.mem_filter.mp hx).1 (List.mem_filter.mp hx).2
    rw [h1] at hf ha
    have e1 := ha a (by simp)
    have e2 := ha b (by simp)
    rw [e1, e2] at hf
    simp at hf

/-! ### `find_duplicates` -/

theorem json_dups_reports (schema : List (String × TabClass)) (hn : (schema.map Prod.fst).Nodup)
    (hf : ∀ tc ∈ schema, tc.2.fields.Nodup) (file : PyDict String (List RowIn)) (hk : (PyDict.keys file).Nodup)
    (K : String → List (List Cell))
    (hK : ∀ tc ∈ schema, tc.2.pks ≠ [] → (∀ r ∈ K tc.1, r.length = tc.2.fields.length) ∧
      Pairwise2 (RowOf tc.2.fields) (K tc.1) ((PyDict.get? file tc.1).getD [])) :
    ∃ rtn, jsonDups schema file = some rtn ∧
      ∀ tc ∈ keyedOnly schema, ReportsTable tc.2.pks.length (K tc.1) (PyDict.get? rtn tc.1) := by
  unfold jsonDups
  by_cases hko : keyedOnly schema = []
  · rw [if_pos hko]
    exact ⟨[], rfl, by rw [hko]; simp⟩
  rw [if_neg hko]
  have hkn := keyedOnly_names schema hn
  have hin : ∀ tc ∈ keyedOnly schema, tc ∈ schema ∧ tc.2.pks ≠ [] := fun tc h => (mem_keyedOnly schema tc).1 h
  let s : List (String × TabClass) :=
    (keyedOnly schema).map (fun tc => (tc.1, { pks := [], dfs := tc.2.fields, defaults := [] }))
  have hsn : s.map Prod.fst = (keyedOnly schema).map Prod.fst := by simp [s, Function.comp_def]
  let input : PyDict String TableIn :=
    (file.filter (fun p => decide (p.1 ∈ s.map Prod.fst))).map (fun p => (p.1, .seq p.2))
  let dat : PyDict String TabVal :=
    (keyedOnly schema).map (fun tc => (tc.1, .plain ((K tc.1).map (fun r => tc.2.fields.zip r))))
  have hdk : PyDict.keys dat = (keyedOnly schema).map Prod.fst := by simp [dat, PyDict.keys, Function.comp_def]
  have hdat : ∀ tc ∈ keyedOnly schema, PyDict.get? dat tc.1 = some (.plain ((K tc.1).map (fun r => tc.2.fields.zip r))) := by
    intro tc htc
    exact PyDict.get?_of_mem (by rw [hdk]; exact hkn) (List.mem_map.mpr ⟨tc, htc, rfl⟩)
  have hik : PyDict.keys input = (file.filter (fun p => decide (p.1 ∈ s.map Prod.fst))).map Prod.fst := by
    simp [input, PyDict.keys, Function.comp_def]
  have hin1 : (PyDict.keys input).Nodup := by
    rw [hik]
    exact hk.sublist (List.filter_sublist.map _)
  have hin2 : ∀ t ∈ PyDict.keys input, t ∈ s.map Prod.fst := by
    intro t ht
    rw [hik] at ht
    obtain ⟨p, hp, rfl⟩ := List.mem_map.mp ht
    exact of_decide_eq_true (List.mem_filter.mp hp).2
  have hget : ∀ t ∈ s.map Prod.fst, PyDict.get? input t = (PyDict.get? file t).map TableIn.seq := by
    intro t ht
    cases hg : PyDict.get? file t with
    | none =>
      rw [Option.map_none, PyDict.get?_eq_none, hik]
      intro hm
      obtain ⟨p, hp, rfl⟩ := List.mem_map.mp hm
      exact (PyDict.get?_eq_none _ _).mp hg (List.mem_map.mpr ⟨p, (List.mem_filter.mp hp).1, rfl⟩)
    | some rows =>
      refine PyDict.get?_of_mem hin1 (List.mem_map.mpr ⟨(t, rows), List.mem_filter.mpr ⟨PyDict.get?_mem hg, ?_⟩, rfl⟩)
      exact decide_eq_true ht
  have hinit : initDat .assert s input = some dat := by
    refine initDat_of .assert s (by rw [hsn]; exact hkn) input dat hin2 hin1 (by rw [hdk, hsn]) ?_
    intro tc htc
    obtain ⟨tc0, htc0, rfl⟩ := List.mem_map.mp htc
    refine ⟨_, hdat tc0 htc0, ?_⟩
    obtain ⟨h1, h2⟩ := hK tc0 (hin tc0 htc0).1 (hin tc0 htc0).2
    have hg := hget tc0.1 (by rw [hsn]; exact List.mem_map.mpr ⟨tc0, htc0, rfl⟩)
    cases hfile : PyDict.get? file tc0.1 with
    | none =>
      left
      rw [hfile] at hg h2
      refine ⟨hg, ?_⟩
      generalize K tc0.1 = l at h2
      cases h2
      rfl
    | some rows =>
      right
      rw [hfile] at hg h2
      refine ⟨_, hg, ?_, ?_⟩
      · have htr : tabRows (.plain ((K tc0.1).map (fun r => tc0.2.fields.zip r))) = K tc0.1 := by
          simp only [tabRows, List.map_map]
          have : ∀ k ∈ K tc0.1, ((fun r : RowVal => r.map Prod.snd) ∘ fun r => tc0.2.fields.zip r) k = id k := by
            intro k hk
            show (tc0.2.fields.zip k).map Prod.snd = k
            exact List.map_snd_zip (by rw [h1 k hk]; exact Nat.le_refl _)
          rw [List.map_congr_left this, List.map_id]
        refine init_of_flat { pks := [], dfs := tc0.2.fields, defaults := [] } (hf tc0 (hin tc0 htc0).1)
          (.plain ((K tc0.1).map (fun r => tc0.2.fields.zip r))) ⟨rfl, ?_⟩ _ ?_
        · intro r hr
          obtain ⟨k, hk, rfl⟩ := List.mem_map.mp hr
          show ((tc0.2.fields.zip k).map Prod.fst) = tc0.2.fields
          exact List.map_fst_zip (by rw [h1 k hk]; exact Nat.le_refl _)
        · rw [htr]
          exact h2
      · show rows.length = _
        rw [TabVal.size, List.length_map]
        exact pairwise2_length h2
  show ∃ rtn, (initDat .assert s input).bind (fun td => findDuplicates (pkFieldsOf schema) (plainRowsOf td)) = some rtn ∧ _
  rw [hinit, Option.bind_some]
  obtain ⟨rf, hrf⟩ := recs_by_name (keyedOnly schema) hkn (fun tc => (K tc.1).map (recFun (tc.2.pks ++ tc.2.dfs)))
  have hw : ∀ tc ∈ keyedOnly schema, ∀ r ∈ K tc.1, tc.2.pks.length ≤ r.length := by
    intro tc htc r hr
    rw [(hK tc (hin tc htc).1 (hin tc htc).2).1 r hr]
    simp [TabClass.fields]
  obtain ⟨rtn, h1, h2⟩ := find_duplicates_exact (pkFieldsOf schema) (by rw [pkFieldsOf_names]; exact hkn)
    (plainRowsOf dat) rf (by
      intro p hp
      obtain ⟨tc, htc, rfl⟩ := List.mem_map.mp hp
      simp only
      have : plainRowsOf dat tc.1 = (K tc.1).map (fun r => (tc.2.pks ++ tc.2.dfs).zip r) := by
        unfold plainRowsOf
        rw [hdat tc htc]
        rfl
      rw [this, hrf tc htc]
      exact records_have_cells _ _ (hf tc (hin tc htc).1) _ (hw tc htc))
  refine ⟨rtn, h1, fun tc htc => ?_⟩
  refine reports_of_exact _ rf rtn h2 tc.1 tc.2.pks (List.mem_map.mpr ⟨tc, htc, rfl⟩) _ _ (fun k => ?_)
  rw [hrf tc htc, occurrences_records _ _ (hf tc (hin tc htc).1) _ (hw tc htc)]

/-- One table of a json file that was read. -/
theorem json_reads (env : TextEnv) (cenv : CaseEnv) (cf : IOConf) (policy : DupPolicy) (schema : List (String × TabClass))
    (hn : (schema.map Prod.fst).Nodup) (hf : ∀ tc ∈ schema, tc.2.fields.Nodup) (hb : ∀ tc ∈ schema, ' ' ∉ tc.1.toList)
    (file : PyDict String (List RowIn)) (hk : (PyDict.keys file).Nodup)
    (hname : ∀ tc ∈ schema, ∀ k ∈ PyDict.keys file, jsonMatches cenv tc.1.toList k.toList = true → k = tc.1)
    (dat : PyDict String TabVal) (h : jsonCreate env cenv cf policy schema file = some dat)
    (tc : String × TabClass) (htc : tc ∈ schema) (hpk : tc.2.pks ≠ []) (K : List (List Cell))
    (hl : ∀ r ∈ K, r.length = tc.2.fields.length)
    (hx : Pairwise2 (RowOf tc.2.fields) K ((PyDict.get? file tc.1).getD [])) :
    ∃ R tab, K.mapM (mapCells (readCell env cf tc.1) tc.2.fields) = some R ∧
      (∀ r ∈ R, r.length = tc.2.fields.length) ∧ HoldsLast tc.2 R tab ∧
      PyDict.get? dat tc.1 = some (postReadTab env cf.params tc.1 tab) := by
  rw [jsonCreate_eq] at h
  have hone := readAll_table env cf.params policy schema hn _ dat h tc htc
  rw [jsonFind_exact env cenv cf file hk tc (hb tc htc) (hname tc htc)] at hone
  cases hg : PyDict.get? file tc.1 with
  | none =>
    rw [hg] at hone hx
    cases hx
    refine ⟨[], emptyTable tc.2, rfl, by simp, empty_holds tc.2 hpk, ?_⟩
    rcases hone with ⟨_, h2⟩ | ⟨_, _, h1, _⟩
    · rw [h2]
      unfold postReadTab emptyTable
      simp only [if_pos hpk]
      split
      · rfl
      · split <;> rfl
    · cases h1
  | some rows =>
    rw [hg] at hone hx
    simp only [Option.map_eq_some_iff] at hone
    rcases hone with ⟨⟨_, _, h1⟩, _⟩ | ⟨y, tab, ⟨y', h1, h2⟩, h3, h4⟩
    · cases h1
    · cases h2
      unfold jsonReadTable at h1
      rw [Option.map_eq_some_iff] at h1
      obtain ⟨xs', h5, rfl⟩ := h1
      obtain ⟨R, h6, h7, h8⟩ := rowsOf_read env cf tc.1 tc.2.fields K hl rows xs' hx h5
      obtain ⟨tab', h9, h10⟩ := init_rows_keyed tc.2 hpk (hf tc htc) R h7 xs' h8
      rw [h9] at h3
      cases h3
      exact ⟨R, tab, h6, h7, h10, h4⟩

/-- **C67, json.**  The rows of the file, lists or dictionaries, stand for the records `K`.  If the file can be read, its
duplicates can be looked for and the report is exact for these records; the table read has the last record of each key, and
if reading the cells tells the same records apart, it has lost as many records as the report says. -/
theorem json_find_duplicates (env : TextEnv) (cenv : CaseEnv) (cf : IOConf) (policy : DupPolicy)
    (schema : List (String × TabClass))
    (hn : (schema.map Prod.fst).Nodup) (hf : ∀ tc ∈ schema, tc.2.fields.Nodup) (hb : ∀ tc ∈ schema, ' ' ∉ tc.1.toList)
    (file : PyDict String (List RowIn)) (hk : (PyDict.keys file).Nodup)
    (hname : ∀ tc ∈ schema, ∀ k ∈ PyDict.keys file, jsonMatches cenv tc.1.toList k.toList = true → k = tc.1)
    (K : String → List (List Cell))
    (hK : ∀ tc ∈ schema, tc.2.pks ≠ [] → (∀ r ∈ K tc.1, r.length = tc.2.fields.length) ∧
      Pairwise2 (RowOf tc.2.fields) (K tc.1) ((PyDict.get? file tc.1).getD []))
    (dat : PyDict String TabVal) (h : jsonCreate env cenv cf policy schema file = some dat) :
    ∃ rtn, jsonDups schema file = some rtn ∧
      ∀ tc ∈ schema, tc.2.pks ≠ [] → ∃ R tab, (K tc.1).mapM (mapCells (readCell env cf tc.1) tc.2.fields) = some R ∧
        PyDict.get? dat tc.1 = some tab ∧ ReportsTable tc.2.pks.length (K tc.1) (PyDict.get? rtn tc.1) ∧
        ((cf.params = [] ∨ tc.1 ≠ "parameters") → HoldsLast tc.2 R tab) ∧
        (SameKeys tc.2.pks.length (K tc.1) R → tab.size + surplus (PyDict.get? rtn tc.1) = R.length) := by
  obtain ⟨rtn, h1, h2⟩ := json_dups_reports schema hn hf file hk K hK
  refine ⟨rtn, h1, fun tc htc hpk => ?_⟩
  obtain ⟨hl, hx⟩ := hK tc htc hpk
  obtain ⟨R, tab, h3, h4, h5, h6⟩ := json_reads env cenv cf policy schema hn hf hb file hk hname dat h tc htc hpk _ hl hx
  have hrep := h2 tc ((mem_keyedOnly schema tc).2 ⟨htc, hpk⟩)
  refine ⟨R, _, h3, h6, hrep, ?_, ?_⟩
  · intro hp
    have : postReadTab env cf.params tc.1 tab = tab := by
      unfold postReadTab
      by_cases hps : cf.params = []
      · rw [if_pos hps]
      · rw [if_neg hps, if_neg (hp.resolve_left hps)]
    rw [this]
    exact h5
  · rw [postReadTab_size]
    exact (size_two_readings tc.2 hpk (K tc.1) R (mapM_length_eq _ _ _ h3).symm
      (fun r hr => by rw [h4 r hr]; simp [TabClass.fields]) _ hrep tab h5).2

theorem surplus_pos (n : Nat) (rows : List (List Cell)) (rep : Option (PyDict (PKey Cell) Nat))
    (h : ReportsTable n rows rep) : surplus rep = 0 ↔ rep = none := by
  constructor
  · intro h0
    cases hr : rep with
    | none => rfl
    | some d =>
      have hne : ¬ ∀ k, keyCount n rows k ≤ 1 := fun hall => by rw [h.1.2 hall] at hr; cases hr
      obtain ⟨k, hkc⟩ := Classical.not_forall.mp hne
      have hg := ((h.2 d hr).2 k (keyCount n rows k)).2 ⟨by omega, rfl⟩
      have hm := PyDict.get?_mem hg
      rw [hr] at h0
      have hle : ∀ l : List (PKey Cell × Nat), (k, keyCount n rows k) ∈ l →
          keyCount n rows k - 1 ≤ (l.map (fun p => p.2 - 1)).sum := by
        intro l
        induction l with
        | nil => intro hm; cases hm
        | cons p l ih =>
          intro hm
          rw [List.map_cons, List.sum_cons]
          rcases List.mem_cons.mp hm with rfl | hm
          · simp only; omega
          · have := ih hm; omega
      have := hle d hm
      unfold surplus at h0
      rw [Option.getD_some] at h0
      omega
  · intro h0
    rw [h0]
    rfl

/-- **C67, json and the policy `assert`.**  A file that can be read with duplicates ignored raises with `assert` exactly when
`find_duplicates` reports something, if reading the cells tells the same records apart. -/
theorem json_assert_iff_reported (env : TextEnv) (cenv : CaseEnv) (cf : IOConf)
    (schema : List (String × TabClass))
    (hn : (schema.map Prod.fst).Nodup) (hf : ∀ tc ∈ schema, tc.2.fields.Nodup) (hb : ∀ tc ∈ schema, ' ' ∉ tc.1.toList)
    (file : PyDict String (List RowIn)) (hk : (PyDict.keys file).Nodup)
    (hname : ∀ tc ∈ schema, ∀ k ∈ PyDict.keys file, jsonMatches cenv tc.1.toList k.toList = true → k = tc.1)
    (K : String → List (List Cell))
    (hK : ∀ tc ∈ schema, tc.2.pks ≠ [] → (∀ r ∈ K tc.1, r.length = tc.2.fields.length) ∧
      Pairwise2 (RowOf tc.2.fields) (K tc.1) ((PyDict.get? file tc.1).getD []))
    (hsame : ∀ tc ∈ schema, tc.2.pks ≠ [] → ∀ R, (K tc.1).mapM (mapCells (readCell env cf tc.1) tc.2.fields) = some R →
      SameKeys tc.2.pks.length (K tc.1) R)
    (dat : PyDict String TabVal) (h : jsonCreate env cenv cf .ignore schema file = some dat) :
    ∃ rtn, jsonDups schema file = some rtn ∧
      (jsonCreate env cenv cf .assert schema file = none ↔
        ∃ tc ∈ schema, tc.2.pks ≠ [] ∧ PyDict.get? rtn tc.1 ≠ none) := by
  obtain ⟨rtn, h1, h2⟩ := json_find_duplicates env cenv cf .ignore schema hn hf hb file hk hname K hK dat h
  refine ⟨rtn, h1, ?_⟩
  rw [jsonCreate_eq] at h ⊢
  unfold readAll at h ⊢
  simp only [Option.map_eq_some_iff, Option.bind_eq_some_iff] at h
  obtain ⟨tabs, ⟨input, h3, h4⟩, rfl⟩ := h
  rw [h3, Option.bind_some, Option.map_eq_none_iff]
  have hgg := (gather_get _ schema hn input h3).2
  have hgk := gather_nodup _ schema hn input h3
  obtain ⟨hok, hoin, hot⟩ := init_object .ignore schema hn input tabs h4
  have hread : ∀ tc ∈ schema, ∀ x, PyDict.get? input tc.1 = some x → ∃ rows xs, PyDict.get? file tc.1 = some rows ∧
      rows.mapM (jsonReadRow env cf tc.1 tc.2.fields) = some xs ∧ x = .seq xs := by
    intro tc htc x hx
    obtain ⟨y, hy, hg⟩ := hgg tc htc
    rw [hx] at hg
    subst hg
    rw [jsonFind_exact env cenv cf file hk tc (hb tc htc) (hname tc htc)] at hy
    cases hfile : PyDict.get? file tc.1 with
    | none => rw [hfile] at hy; cases hy
    | some rows =>
      rw [hfile] at hy
      simp only [jsonReadTable, Option.map_eq_some_iff] at hy
      obtain ⟨y, ⟨xs, hxs, rfl⟩, hy2⟩ := hy
      cases hy2
      exact ⟨rows, xs, rfl, hxs, rfl⟩
  have hsize : ∀ tc ∈ schema, ∀ x tab, PyDict.get? input tc.1 = some x → PyDict.get? tabs tc.1 = some tab →
      (x.size > tab.size ↔ tc.2.pks ≠ [] ∧ PyDict.get? rtn tc.1 ≠ none) := by
    intro tc htc x tab hx htab
    obtain ⟨rows, xs, hfile, hxs, rfl⟩ := hread tc htc x hx
    obtain ⟨tab', htab', hcase⟩ := hot tc htc
    rw [htab] at htab'
    cases htab'
    rcases hcase with ⟨hc, _⟩ | ⟨x', hc, hinit⟩
    · rw [hx] at hc; cases hc
    rw [hx] at hc
    cases hc
    by_cases hpk : tc.2.pks = []
    · have := (initTable_size tc.2 (.seq xs) tab (hf tc htc) (fun d hd => by cases hd) hinit)
      rw [this]
      simp [hpk]
    · obtain ⟨R, tab2, h5, h6, h7, h8, h9⟩ := h2 tc htc hpk
      rw [postRead_get, htab, Option.map_some] at h6
      cases h6
      have h10 := h9 (hsame tc htc hpk R h5)
      rw [postReadTab_size] at h10
      have h11 : R.length = xs.length := by
        rw [mapM_length_eq _ _ _ h5, mapM_length_eq _ _ _ hxs]
        have := pairwise2_length (hK tc htc hpk).2
        rw [hfile] at this
        exact this.symm
      have h12 := surplus_pos _ _ _ h7
      simp only [TableIn.size, ne_eq, hpk, not_false_eq_true, true_and]
      rw [← h12]
      omega
  have hall : input.all (fun p => decide (p.1 ∈ schema.map Prod.fst)) = true := by
    rw [List.all_eq_true]
    intro p hp
    exact decide_eq_true (hoin p.1 (List.mem_map.mpr ⟨p, hp, rfl⟩))
  unfold initDat at h4 ⊢
  rw [if_pos hall] at h4 ⊢
  cases hm : schema.mapM (initEntry input) with
  | none => rw [hm] at h4; cases h4
  | some tabs' =>
    rw [hm] at h4
    simp only [reduceCtorEq, decide_false, Bool.false_and, Bool.false_eq_true, if_false, Option.some.injEq] at h4
    subst h4
    simp only [decide_true, Bool.true_and]
    have hiff : (input.any (fun p => decide (p.2.size > ((PyDict.get? tabs' p.1).map TabVal.size).getD 0))) = true ↔
        ∃ tc ∈ schema, tc.2.pks ≠ [] ∧ PyDict.get? rtn tc.1 ≠ none := by
      rw [List.any_eq_true]
      constructor
      · rintro ⟨p, hp, hsz⟩
        have hsz := of_decide_eq_true hsz
        obtain ⟨tc, htc, he⟩ := List.mem_map.mp (hoin p.1 (List.mem_map.mpr ⟨p, hp, rfl⟩))
        obtain ⟨tab, htab, _⟩ := hot tc htc
        rw [← he, htab] at hsz
        have hg : PyDict.get? input tc.1 = some p.2 := by rw [he]; exact PyDict.get?_of_mem hgk hp
        exact ⟨tc, htc, (hsize tc htc p.2 tab hg htab).1 hsz⟩
      · rintro ⟨tc, htc, hpk, hrep⟩
        obtain ⟨tab, htab, hcase⟩ := hot tc htc
        rcases hcase with ⟨hc, hempty⟩ | ⟨x, hc, _⟩
        · exfalso
          obtain ⟨R, tab2, h5, h6, h7, h8, h9⟩ := h2 tc htc hpk
          obtain ⟨y, hy, hg⟩ := hgg tc htc
          rw [hc] at hg
          subst hg
          rw [jsonFind_exact env cenv cf file hk tc (hb tc htc) (hname tc htc)] at hy
          have hK' := (hK tc htc hpk).2
          cases hfile : PyDict.get? file tc.1 with
          | none =>
            rw [hfile] at hK'
            generalize K tc.1 = l at hK' h7
            cases hK'
            exact hrep (h7.1.2 (fun k => by simp [keyCount]))
          | some rows =>
            rw [hfile] at hy
            simp only [jsonReadTable, Option.map_eq_some_iff] at hy
            obtain ⟨_, _, hy2⟩ := hy
            cases hy2
        · refine ⟨(tc.1, x), PyDict.get?_mem hc, decide_eq_true ?_⟩
          rw [htab]
          exact (hsize tc htc x tab hc htab).2 ⟨hpk, hrep⟩
    rw [← hiff]
    split
    · rename_i hc; simp [hc]
    · rename_i hc; simp [hc]

end Ticdat

import Verif.Props.FindDupsFiles
import Verif.Props.Implied
import Verif.Props.Mdb
import Verif.Props.Pg
/-!
# C67: `find_duplicates` of SQLite, Access and PostgreSQL
-/
namespace Ticdat
open Spec
set_option linter.unusedSimpArgs false

theorem recordKey_eq_iff (n : Nat) (a b : List Cell) : recordKey n a = recordKey n b ↔ a.take n = b.take n := by
  constructor
  · unfold recordKey
    generalize a.take n = x
    generalize b.take n = y
    intro h
    match x, y with
    | [], [] => rfl
    | [], [v] => cases h
    | [], v :: w :: l => cases h
    | [u], [] => cases h
    | [u], [v] => cases h; rfl
    | [u], v :: w :: l => cases h
    | u :: u' :: l', [] => cases h
    | u :: u' :: l', [v] => cases h
    | u :: u' :: l', v :: w :: l => cases h; rfl
  · intro h
    unfold recordKey
    rw [h]

/-- If the first components determine the second ones, there are no more different second components. -/
theorem distinct_le {A B : Type} [DecidableEq A] [DecidableEq B] (Z : List (A × B))
    (hfun : ∀ p ∈ Z, ∀ q ∈ Z, p.1 = q.1 → p.2 = q.2) (DA : List A) (hDA : DA.Nodup) (hA : ∀ a, a ∈ DA ↔ a ∈ Z.map Prod.fst)
    (DB : List B) (hDB : DB.Nodup) (hB : ∀ b, b ∈ DB ↔ b ∈ Z.map Prod.snd) : DB.length ≤ DA.length := by
  have hlen : (PyDict.keys (PyDict.ofList Z)).length ≤ DA.length := by
    apply nodup_length_le _ _ (PyDict.ofList_keys_nodup Z)
    intro a ha
    rw [hA]
    exact (PyDict.keys_ofList_mem Z a).1 ha
  have hsub : DB.length ≤ ((PyDict.ofList Z).map Prod.snd).length := by
    apply nodup_length_le _ _ hDB
    intro b hb
    rw [hB] at hb
    obtain ⟨p, hp, rfl⟩ := List.mem_map.mp hb
    have hk : p.1 ∈ PyDict.keys (PyDict.ofList Z) := (PyDict.keys_ofList_mem Z p.1).2 (List.mem_map.mpr ⟨p, hp, rfl⟩)
    obtain ⟨v, hv⟩ := Option.isSome_iff_exists.mp (Option.isSome_iff_ne_none.mpr
        (fun e => (PyDict.get?_eq_none (PyDict.ofList Z) p.1).mp e hk))
    have hq := hv
    rw [get?_ofList_reverse, Option.map_eq_some_iff] at hq
    obtain ⟨q, hq, rfl⟩ := hq
    have h1 := List.mem_of_find?_eq_some hq
    have h2 := List.find?_some hq
    have h2 := of_decide_eq_true h2
    rw [hfun p hp q (List.mem_reverse.mp h1) h2.symm]
    exact List.mem_map.mpr ⟨(p.1, q.2), PyDict.get?_mem hv, rfl⟩
  have : ((PyDict.ofList Z).map Prod.snd).length = (PyDict.keys (PyDict.ofList Z)).length := by simp [PyDict.keys]
  omega

/-- Lists of records of the same length as pairs of keys. -/
theorem zip_keys_facts (n : Nat) (K R : List (List Cell)) (hlen : K.length = R.length) :
    ((K.zip R).map (fun p => (recordKey n p.1, recordKey n p.2))).map Prod.fst = K.map (recordKey n) ∧
    ((K.zip R).map (fun p => (recordKey n p.1, recordKey n p.2))).map Prod.snd = R.map (recordKey n) := by
  constructor
  · rw [List.map_map]
    have : (Prod.fst ∘ fun p : List Cell × List Cell => (recordKey n p.1, recordKey n p.2)) = recordKey n ∘ Prod.fst := rfl
    rw [this, ← List.map_map, List.map_fst_zip (by omega)]
  · rw [List.map_map]
    have : (Prod.snd ∘ fun p : List Cell × List Cell => (recordKey n p.1, recordKey n p.2)) = recordKey n ∘ Prod.snd := rfl
    rw [this, ← List.map_map, List.map_snd_zip (by omega)]

theorem mem_zip_swap {A B : Type} (l : List A) (l' : List B) (p : A × B) (h : p ∈ l.zip l') : (p.2, p.1) ∈ l'.zip l := by
  induction l generalizing l' with
  | nil => simp at h
  | cons a l ih =>
    cases l' with
    | nil => simp at h
    | cons b l' =>
      rw [List.zip_cons_cons] at h ⊢
      rcases List.mem_cons.mp h with rfl | h
      · exact List.mem_cons_self
      · exact List.mem_cons_of_mem _ (ih l' h)

/-- **C67, two readings.**  If `find_duplicates` and the reader read the keys of the records differently, then the number of
records lost is at least the reported one if records that are the same to `find_duplicates` are the same to the reader, and
it is the reported one if the two readings tell the same records apart. -/
theorem size_two_readings (c : TabClass) (hpk : c.pks ≠ []) (K R : List (List Cell)) (hlen : K.length = R.length)
    (hl : ∀ r ∈ R, c.pks.length ≤ r.length) (rep : Option (PyDict (PKey Cell) Nat))
    (hrep : ReportsTable c.pks.length K rep) (tab : TabVal) (ht : HoldsLast c R tab) :
    ((∀ p ∈ K.zip R, ∀ q ∈ K.zip R, p.1.take c.pks.length = q.1.take c.pks.length →
      p.2.take c.pks.length = q.2.take c.pks.length) → tab.size + surplus rep ≤ R.length) ∧
    (SameKeys c.pks.length K R → tab.size + surplus rep = R.length) := by
  obtain ⟨DR, hDR, hsize, hmR⟩ := holds_keys c hpk R hl tab ht
  have hDK := PyDict.ofList_keys_nodup (K.map (fun r => (recordKey c.pks.length r, ())))
  have hmK : ∀ k, k ∈ PyDict.keys (PyDict.ofList (K.map (fun r => (recordKey c.pks.length r, ())))) ↔
      k ∈ K.map (recordKey c.pks.length) := by
    intro k
    rw [PyDict.keys_ofList_mem, List.map_map]
    rfl
  generalize PyDict.keys (PyDict.ofList (K.map (fun r => (recordKey c.pks.length r, ())))) = DK at hDK hmK
  have hsum := report_surplus _ K rep hrep DK hDK hmK
  obtain ⟨hz1, hz2⟩ := zip_keys_facts c.pks.length K R hlen
  have hone : (∀ p ∈ K.zip R, ∀ q ∈ K.zip R, p.1.take c.pks.length = q.1.take c.pks.length →
      p.2.take c.pks.length = q.2.take c.pks.length) → DR.length ≤ DK.length := by
    intro h
    refine distinct_le ((K.zip R).map (fun p => (recordKey c.pks.length p.1, recordKey c.pks.length p.2))) ?_ DK hDK
      (by rw [hz1]; exact hmK) DR hDR (by rw [hz2]; exact hmR)
    intro p hp q hq e
    obtain ⟨p', hp', rfl⟩ := List.mem_map.mp hp
    obtain ⟨q', hq', rfl⟩ := List.mem_map.mp hq
    exact (recordKey_eq_iff _ _ _).2 (h p' hp' q' hq' ((recordKey_eq_iff _ _ _).1 e))
  constructor
  · intro h
    have := hone h
    omega
  · intro h
    have h1 := hone (fun p hp q hq => (h p hp q hq).1)
    have h2 : DK.length ≤ DR.length := by
      obtain ⟨hy1, hy2⟩ := zip_keys_facts c.pks.length R K hlen.symm
      refine distinct_le ((R.zip K).map (fun p => (recordKey c.pks.length p.1, recordKey c.pks.length p.2))) ?_ DR hDR
        (by rw [hy1]; exact hmR) DK hDK (by rw [hy2]; exact hmK)
      intro p hp q hq e
      obtain ⟨p', hp', rfl⟩ := List.mem_map.mp hp
      obtain ⟨q', hq', rfl⟩ := List.mem_map.mp hq
      have hswap : ∀ p ∈ R.zip K, (p.2, p.1) ∈ K.zip R := by
        intro p hp
        exact mem_zip_swap R K p hp
      exact (recordKey_eq_iff _ _ _).2 ((h _ (hswap p' hp') _ (hswap q' hq')).2 ((recordKey_eq_iff _ _ _).1 e))
    omega

/-! ### The duplicate focused factory -/

theorem init_seq_plain (dfs : List String) (hn : dfs.Nodup) (ks : List (List Cell)) (hl : ∀ r ∈ ks, r.length = dfs.length) :
    initTable { pks := [], dfs := dfs, defaults := [] } (.seq (ks.map .seq)) = some (.plain (ks.map (fun r => dfs.zip r))) := by
  have h := init_of_flat { pks := [], dfs := dfs, defaults := [] } hn (.plain (ks.map (fun r => dfs.zip r))) (by
    refine ⟨rfl, ?_⟩
    intro r hr
    obtain ⟨k, hk, rfl⟩ := List.mem_map.mp hr
    show ((dfs.zip k).map Prod.fst) = dfs
    exact List.map_fst_zip (by rw [hl k hk]; exact Nat.le_refl _)) (ks.map .seq) (by
    have : tabRows (.plain (ks.map (fun r => dfs.zip r))) = ks := by
      simp only [tabRows, List.map_map]
      have : ∀ k ∈ ks, ((fun r : RowVal => r.map Prod.snd) ∘ fun r => dfs.zip r) k = id k := by
        intro k hk
        show (dfs.zip k).map Prod.snd = k
        exact List.map_snd_zip (by rw [hl k hk]; exact Nat.le_refl _)
      rw [List.map_congr_left this, List.map_id]
    rw [this]
    exact pairwise2_refl_map _ (fun _ _ => rfl))
  exact h

/-- **C67, databases.**  `find_duplicates` of a database reports exactly the repeated keys among the rows of each table, where
the key cells are read by a factory without data types, parameters and infinity flag. -/
theorem db_dups_reports (env : TextEnv) (schema : List (String × TabClass)) (hn : (schema.map Prod.fst).Nodup)
    (hf : ∀ tc ∈ schema, tc.2.fields.Nodup) (stored : String → Option (Option (List (List Cell)))) (plain : Cell → Cell)
    (hst : ∀ tc ∈ keyedOnly schema, ∃ x, stored tc.1 = some x ∧ ∀ r ∈ x.getD [], tc.2.pks.length ≤ r.length)
    (find0 : String × TabClass → Option (Option TableIn))
    (hfind0 : ∀ tc ∈ dupSchema schema, ∀ x, stored tc.1 = some x → (∀ r ∈ x.getD [], tc.2.dfs.length ≤ r.length) →
      find0 tc = some (x.map (fun rows => .seq (rows.map (fun r => .seq ((r.take tc.2.dfs.length).map plain)))))) :
    ∃ rtn, dbDups schema (fun s => readAll env [] .assert s find0) = some rtn ∧
      ∀ tc ∈ keyedOnly schema, ∃ x, stored tc.1 = some x ∧
        ReportsTable tc.2.pks.length ((x.getD []).map (fun r => r.map plain)) (PyDict.get? rtn tc.1) := by
  unfold dbDups
  by_cases hk : keyedOnly schema = []
  · rw [if_pos hk]
    exact ⟨[], rfl, by rw [hk]; simp⟩
  rw [if_neg hk]
  have hkn := keyedOnly_names schema hn
  have hin : ∀ tc ∈ keyedOnly schema, tc ∈ schema := fun tc h => ((mem_keyedOnly schema tc).1 h).1
  have hpkn : ∀ tc ∈ keyedOnly schema, tc.2.pks.Nodup := fun tc h => (List.nodup_append.mp (hf tc (hin tc h))).1
  have hdn : ((dupSchema schema).map Prod.fst).Nodup := by
    have : (dupSchema schema).map Prod.fst = (keyedOnly schema).map Prod.fst := by simp [dupSchema, Function.comp_def]
    rw [this]; exact hkn
  let keys : String × TabClass → List (List Cell) := fun tc =>
    (((stored tc.1).getD none).getD []).map (fun r => (r.take tc.2.pks.length).map plain)
  let tab : String × TabClass → TabVal := fun tc => .plain ((keys tc).map (fun r => tc.2.pks.zip r))
  let dat : PyDict String TabVal := (keyedOnly schema).map (fun tc => (tc.1, tab tc))
  have hdk : PyDict.keys dat = (keyedOnly schema).map Prod.fst := by simp [dat, PyDict.keys, Function.comp_def]
  have hdat : ∀ tc ∈ keyedOnly schema, PyDict.get? dat tc.1 = some (tab tc) := by
    intro tc htc
    exact PyDict.get?_of_mem (by rw [hdk]; exact hkn) (List.mem_map.mpr ⟨tc, htc, rfl⟩)
  have hwidth : ∀ tc ∈ keyedOnly schema, ∀ r ∈ keys tc, r.length = tc.2.pks.length := by
    intro tc htc r hr
    obtain ⟨x, hx, hw⟩ := hst tc htc
    simp only [keys, hx, Option.getD_some] at hr
    obtain ⟨r', hr', rfl⟩ := List.mem_map.mp hr
    rw [List.length_map, List.length_take]
    have := hw r' hr'
    omega
  obtain ⟨input, h5, h6, h7, h8⟩ := gather_tables find0 dat (dupSchema schema) hdn (by
    intro tc htc
    obtain ⟨tc0, htc0, rfl⟩ := List.mem_map.mp htc
    obtain ⟨x, hx, hw⟩ := hst tc0 htc0
    refine ⟨_, tab tc0, hfind0 _ htc x hx hw, hdat tc0 htc0, ?_⟩
    have hkeys : keys tc0 = (x.getD []).map (fun r => (r.take tc0.2.pks.length).map plain) := by
      simp only [keys, hx, Option.getD_some]
    cases x with
    | none =>
      left
      refine ⟨rfl, ?_⟩
      simp only [tab, hkeys]
      rfl
    | some rows =>
      right
      refine ⟨_, rfl, ?_, ?_⟩
      · have h := init_seq_plain tc0.2.pks (hpkn tc0 htc0) (keys tc0) (hwidth tc0 htc0)
        rw [hkeys, List.map_map] at h
        simp only [tab]
        rw [hkeys]
        exact h
      · simp only [tab, hkeys, TableIn.size, TabVal.size, List.length_map, Option.getD_some])
  have hread : readAll env [] .assert (dupSchema schema) find0 = some dat := by
    unfold readAll
    rw [h5, Option.bind_some, initDat_of .assert (dupSchema schema) hdn input dat h7 h6 (by
      rw [hdk]; simp [dupSchema, Function.comp_def]) h8, Option.map_some]
    rfl
  simp only [hread, Option.bind_some]
  obtain ⟨rf, hrf⟩ := recs_by_name (keyedOnly schema) hkn (fun tc => (keys tc).map (recFun (tc.2.pks ++ [])))
  have hrows : ∀ tc ∈ keyedOnly schema, plainRowsOf dat tc.1 = (keys tc).map (fun r => (tc.2.pks ++ []).zip r) := by
    intro tc htc
    unfold plainRowsOf
    rw [hdat tc htc, List.append_nil]
  obtain ⟨rtn, h1, h2⟩ := find_duplicates_exact (pkFieldsOf schema) (by rw [pkFieldsOf_names]; exact hkn)
    (plainRowsOf dat) rf (by
      intro p hp
      obtain ⟨tc, htc, rfl⟩ := List.mem_map.mp hp
      simp only
      rw [hrows tc htc, hrf tc htc]
      exact records_have_cells _ _ (by rw [List.append_nil]; exact hpkn tc htc) _
        (fun r hr => by rw [hwidth tc htc r hr]; exact Nat.le_refl _))
  refine ⟨rtn, h1, fun tc htc => ?_⟩
  obtain ⟨x, hx, hw⟩ := hst tc htc
  refine ⟨x, hx, ?_⟩
  refine reports_of_exact _ rf rtn h2 tc.1 tc.2.pks (List.mem_map.mpr ⟨tc, htc, rfl⟩) _ _ (fun k => ?_)
  rw [hrf tc htc, occurrences_records _ _ (by rw [List.append_nil]; exact hpkn tc htc) _
    (fun r hr => by rw [hwidth tc htc r hr]; exact Nat.le_refl _)]
  rw [← keyCount_take _ ((x.getD []).map (fun r => r.map plain)), List.map_map]
  congr 1
  simp only [keys, hx, Option.getD_some]
  apply List.map_congr_left
  intro r _
  simp only [Function.comp_apply, List.map_take]

/-! ### The reader of a database -/

/-- A loop that selects the stored rows of a table and reads their cells. -/
def dbFind (stored : String → Option (Option (List (List Cell)))) (rd : String → String → Cell → Option Cell)
    (tc : String × TabClass) : Option (Option TableIn) :=
  (stored tc.1).bind (fun x =>
    match x with
    | none => some none
    | some rows => (rows.mapM (mapCells (rd tc.1) tc.2.fields)).map (fun R => some (readerTable tc.2 R)))

theorem db_reads (env : TextEnv) (params : Params) (policy : DupPolicy) (schema : List (String × TabClass))
    (hn : (schema.map Prod.fst).Nodup) (hf : ∀ tc ∈ schema, tc.2.fields.Nodup)
    (stored : String → Option (Option (List (List Cell)))) (rd : String → String → Cell → Option Cell)
    (hw : ∀ tc ∈ schema, ∀ rows, stored tc.1 = some (some rows) → ∀ r ∈ rows, r.length = tc.2.fields.length)
    (dat : PyDict String TabVal) (h : readAll env params policy schema (dbFind stored rd) = some dat)
    (tc : String × TabClass) (htc : tc ∈ schema) (hpk : tc.2.pks ≠ []) :
    ∃ x R tab, stored tc.1 = some x ∧ (x.getD []).mapM (mapCells (rd tc.1) tc.2.fields) = some R ∧
      (∀ r ∈ x.getD [], r.length = tc.2.fields.length) ∧ (∀ r ∈ R, r.length = tc.2.fields.length) ∧
      HoldsLast tc.2 R tab ∧ PyDict.get? dat tc.1 = some (postReadTab env params tc.1 tab) := by
  have hone := readAll_table env params policy schema hn _ dat h tc htc
  unfold dbFind at hone
  cases hs : stored tc.1 with
  | none => rw [hs] at hone; rcases hone with ⟨h1, _⟩ | ⟨_, _, h1, _⟩ <;> cases h1
  | some x =>
    rw [hs] at hone
    simp only [Option.bind_some] at hone
    cases x with
    | none =>
      refine ⟨none, [], emptyTable tc.2, rfl, rfl, by simp, by simp, empty_holds tc.2 hpk, ?_⟩
      rcases hone with ⟨_, h2⟩ | ⟨_, _, h1, _⟩
      · rw [h2]
        unfold postReadTab emptyTable
        simp only [if_pos hpk]
        split
        · rfl
        · split <;> rfl
      · cases h1
    | some rows =>
      simp only [Option.map_eq_some_iff] at hone
      rcases hone with ⟨⟨_, _, h1⟩, _⟩ | ⟨y, tab, ⟨R, h1, h2⟩, h3, h4⟩
      · cases h1
      · cases h2
        have hwr := hw tc htc rows hs
        have hR : ∀ r ∈ R, r.length = tc.2.fields.length := by
          intro r hr
          obtain ⟨a, ha, he⟩ := mapM_mem _ _ _ h1 r hr
          exact mapCells_length _ _ _ _ (hwr a ha) he
        obtain ⟨tab', h5, h6⟩ := reader_holds tc.2 hpk (hf tc htc) R hR
        rw [h5] at h3
        cases h3
        exact ⟨some rows, R, tab, rfl, h1, hwr, hR, h6, h4⟩

/-- **C67, databases.**  If the database can be read, its duplicates can be looked for.  The report is exact for the stored
rows with their key cells read plainly.  The table read has the last record of each key, and if the two readings of the key
cells tell the same rows apart, it has lost as many records as the report says. -/
theorem db_find_duplicates (env : TextEnv) (params : Params) (policy : DupPolicy) (schema : List (String × TabClass))
    (hn : (schema.map Prod.fst).Nodup) (hf : ∀ tc ∈ schema, tc.2.fields.Nodup)
    (stored : String → Option (Option (List (List Cell)))) (rd rd0 : String → String → Cell → Option Cell)
    (plain : Cell → Cell) (hrd0 : ∀ t f x, rd0 t f x = some (plain x))
    (hw : ∀ tc ∈ schema, ∀ rows, stored tc.1 = some (some rows) → ∀ r ∈ rows, r.length = tc.2.fields.length)
    (dat : PyDict String TabVal) (h : readAll env params policy schema (dbFind stored rd) = some dat) :
    ∃ rtn, dbDups schema (fun s => readAll env [] .assert s (dbFind stored rd0)) = some rtn ∧
      ∀ tc ∈ schema, tc.2.pks ≠ [] → ∃ x R tab, stored tc.1 = some x ∧
        (x.getD []).mapM (mapCells (rd tc.1) tc.2.fields) = some R ∧ PyDict.get? dat tc.1 = some tab ∧
        ReportsTable tc.2.pks.length ((x.getD []).map (fun r => r.map plain)) (PyDict.get? rtn tc.1) ∧
        ((params = [] ∨ tc.1 ≠ "parameters") → HoldsLast tc.2 R tab) ∧
        ((∀ p ∈ ((x.getD []).map (fun r => r.map plain)).zip R, ∀ q ∈ ((x.getD []).map (fun r => r.map plain)).zip R,
          p.1.take tc.2.pks.length = q.1.take tc.2.pks.length → p.2.take tc.2.pks.length = q.2.take tc.2.pks.length) →
          tab.size + surplus (PyDict.get? rtn tc.1) ≤ R.length) ∧
        (SameKeys tc.2.pks.length ((x.getD []).map (fun r => r.map plain)) R →
          tab.size + surplus (PyDict.get? rtn tc.1) = R.length) := by
  have hreads := db_reads env params policy schema hn hf stored rd hw dat h
  have hfl : ∀ c : TabClass, c.pks.length ≤ c.fields.length := fun c => by simp [TabClass.fields]
  obtain ⟨rtn, h1, h2⟩ := db_dups_reports env schema hn hf stored plain (by
    intro tc htc
    obtain ⟨hin, hpk⟩ := (mem_keyedOnly schema tc).1 htc
    obtain ⟨x, R, tab, hx, _, hwx, _⟩ := hreads tc hin hpk
    exact ⟨x, hx, fun r hr => by rw [hwx r hr]; exact hfl tc.2⟩) (dbFind stored rd0) (by
    intro tc htc x hx hwx
    unfold dbFind
    rw [hx, Option.bind_some]
    have hpks : tc.2.pks = [] := by
      obtain ⟨tc0, _, rfl⟩ := List.mem_map.mp htc
      rfl
    have hfields : tc.2.fields = tc.2.dfs := by unfold TabClass.fields; rw [hpks]; rfl
    cases x with
    | none => rfl
    | some rows =>
      simp only [Option.map_some]
      have hcells : ∀ (fs : List String) (r : List Cell), fs.length ≤ r.length →
          mapCells (rd0 tc.1) fs r = some ((r.take fs.length).map plain) := by
        intro fs
        induction fs with
        | nil => intro r _; simp [mapCells]
        | cons f fs ih =>
          intro r hl
          cases r with
          | nil => simp at hl
          | cons v r =>
            have := ih r (by simpa using hl)
            simp only [mapCells] at this
            rw [mapCells, List.zip_cons_cons, List.mapM_cons, this]
            simp [hrd0]
      have hm : rows.mapM (mapCells (rd0 tc.1) tc.2.fields) = some (rows.map (fun r => (r.take tc.2.dfs.length).map plain)) := by
        rw [hfields]
        have : ∀ l : List (List Cell), (∀ r ∈ l, tc.2.dfs.length ≤ r.length) →
            l.mapM (mapCells (rd0 tc.1) tc.2.dfs) = some (l.map (fun r => (r.take tc.2.dfs.length).map plain)) := by
          intro l
          induction l with
          | nil => intro _; rfl
          | cons r l ih =>
            intro hl
            rw [List.mapM_cons, hcells tc.2.dfs r (hl r List.mem_cons_self), ih (fun x hx => hl x (List.mem_cons_of_mem _ hx))]
            rfl
        exact this rows hwx
      rw [hm, Option.map_some]
      unfold readerTable
      rw [if_neg (by rw [hpks]; simp), List.map_map]
      rfl)
  refine ⟨rtn, h1, fun tc htc hpk => ?_⟩
  obtain ⟨x, R, tab, hx, hR, hwx, hwR, hlast, hdat⟩ := hreads tc htc hpk
  obtain ⟨x', hx', hrep⟩ := h2 tc ((mem_keyedOnly schema tc).2 ⟨htc, hpk⟩)
  rw [hx] at hx'
  cases hx'
  have hlen : ((x.getD []).map (fun r => r.map plain)).length = R.length := by
    rw [List.length_map, mapM_length_eq _ _ _ hR]
  have h2r := size_two_readings tc.2 hpk ((x.getD []).map (fun r => r.map plain)) R hlen
    (fun r hr => by rw [hwR r hr]; exact hfl tc.2) _ hrep tab hlast
  refine ⟨x, R, _, hx, hR, hdat, hrep, ?_, ?_, ?_⟩
  · intro hp
    have : postReadTab env params tc.1 tab = tab := by
      unfold postReadTab
      by_cases hps : params = []
      · rw [if_pos hps]
      · rw [if_neg hps, if_neg (hp.resolve_left hps)]
    rw [this]
    exact hlast
  · rw [postReadTab_size]; exact h2r.1
  · rw [postReadTab_size]; exact h2r.2

/-! ### SQLite -/

/-- The rows of a table in a SQLite or Access database; `some none` if the table is missing, `none` if its name is
ambiguous. -/
def storedIn (cenv : CaseEnv) (db : SqlDb) (t : String) : Option (Option (List (List Cell))) :=
  (sqlTableName cenv db t).bind (fun name =>
    match name with
    | none => some none
    | some n => (sqlSelect cenv db n).map some)

theorem sqlFind_stored (env : TextEnv) (cenv : CaseEnv) (cf : IOConf) (db : SqlDb) :
    sqlFind env cenv cf db = dbFind (storedIn cenv db) (sqlReadCell env cenv cf) := by
  funext tc
  unfold sqlFind dbFind storedIn
  cases sqlTableName cenv db tc.1 with
  | none => rfl
  | some name =>
    cases name with
    | none => rfl
    | some n =>
      simp only [Option.bind_some]
      cases sqlSelect cenv db n <;> rfl

/-- How a cell of a SQLite database is read by a factory without data types, parameters and infinity flag. -/
def sqlPlain (cenv : CaseEnv) : Cell → Cell
  | .str s =>
    let l := cenv.lower s.toList
    if l = "inf".toList then .num .pinf
    else if l = "-inf".toList then .num .ninf
    else if l = "true".toList then .bool true
    else if l = "false".toList then .bool false
    else .str s
  | x => x

theorem readCell_new (env : TextEnv) (t f : String) (x : Cell) : readCell env plainConf t f x = some x := by
  unfold readCell plainConf
  by_cases ht : t = "parameters"
  · rw [if_pos ht]
  · rw [if_neg ht]
    simp [DataTypes.at, PyDict.get?]

theorem sqlReadCell_plain (env : TextEnv) (cenv : CaseEnv) (t f : String) (x : Cell) :
    sqlReadCell env cenv plainConf t f x = some (sqlPlain cenv x) := by
  cases x with
  | str s =>
    unfold sqlReadCell sqlPlain
    simp only [readCell_new]
    by_cases h1 : cenv.lower s.toList = "inf".toList
    · simp [h1, plainConf]
    · by_cases h2 : cenv.lower s.toList = "-inf".toList
      · simp [h2, plainConf]
      · by_cases h3 : cenv.lower s.toList = "true".toList
        · simp [h3]
        · by_cases h4 : cenv.lower s.toList = "false".toList
          · simp [h4]
          · rw [if_neg (fun h => h.1.elim h1 h2), if_neg h3, if_neg h4, if_neg h1, if_neg h2, if_neg h3, if_neg h4]
  | _ => exact readCell_new env t f _

/-- **C67, SQLite.** -/
theorem sql_find_duplicates (env : TextEnv) (cenv : CaseEnv) (cf : IOConf) (policy : DupPolicy)
    (schema : List (String × TabClass)) (hn : (schema.map Prod.fst).Nodup) (hf : ∀ tc ∈ schema, tc.2.fields.Nodup)
    (db : SqlDb)
    (hw : ∀ tc ∈ schema, ∀ rows, storedIn cenv db tc.1 = some (some rows) → ∀ r ∈ rows, r.length = tc.2.fields.length)
    (dat : PyDict String TabVal) (h : sqlCreate env cenv cf policy schema db = some dat) :
    ∃ rtn, sqlDups env cenv schema db = some rtn ∧
      ∀ tc ∈ schema, tc.2.pks ≠ [] → ∃ x R tab, storedIn cenv db tc.1 = some x ∧
        (x.getD []).mapM (mapCells (sqlReadCell env cenv cf tc.1) tc.2.fields) = some R ∧
        PyDict.get? dat tc.1 = some tab ∧
        ReportsTable tc.2.pks.length ((x.getD []).map (fun r => r.map (sqlPlain cenv))) (PyDict.get? rtn tc.1) ∧
        ((cf.params = [] ∨ tc.1 ≠ "parameters") → HoldsLast tc.2 R tab) ∧
        (SameKeys tc.2.pks.length ((x.getD []).map (fun r => r.map (sqlPlain cenv))) R →
          tab.size + surplus (PyDict.get? rtn tc.1) = R.length) := by
  have h' : readAll env cf.params policy schema (dbFind (storedIn cenv db) (sqlReadCell env cenv cf)) = some dat := by
    rw [← sqlFind_stored]; exact h
  obtain ⟨rtn, h1, h2⟩ := db_find_duplicates env cf.params policy schema hn hf (storedIn cenv db) (sqlReadCell env cenv cf)
    (sqlReadCell env cenv plainConf) (sqlPlain cenv) (sqlReadCell_plain env cenv) hw dat h'
  refine ⟨rtn, ?_, fun tc htc hpk => ?_⟩
  · rw [← sqlFind_stored] at h1
    exact h1
  · obtain ⟨x, R, tab, a, b, c, d, e, _, g⟩ := h2 tc htc hpk
    exact ⟨x, R, tab, a, b, c, d, e, g⟩

/-! ### Access -/

theorem mdbNames_at (cenv : CaseEnv) (db : SqlDb) (schema : List (String × TabClass)) (hn : (schema.map Prod.fst).Nodup)
    (names : PyDict String String) (h : mdbNames cenv db schema = some names) :
    (∀ t ∈ PyDict.keys names, t ∈ schema.map Prod.fst) ∧
    ∀ tc ∈ schema, sqlTableName cenv db tc.1 = some (PyDict.get? names tc.1) := by
  induction schema generalizing names with
  | nil => cases h; exact ⟨by simp [PyDict.keys], by simp⟩
  | cons tc rest ih =>
    rw [List.map_cons, List.nodup_cons] at hn
    unfold mdbNames at h
    simp only [Option.bind_eq_some_iff, Option.map_eq_some_iff] at h
    obtain ⟨x, hx, r, hr, he⟩ := h
    obtain ⟨h1, h2⟩ := ih hn.2 r hr
    have hnot : tc.1 ∉ PyDict.keys r := fun hh => hn.1 (h1 _ hh)
    cases x with
    | none =>
      subst he
      refine ⟨fun t ht => List.mem_cons_of_mem _ (h1 t ht), ?_⟩
      intro tc' htc'
      rcases List.mem_cons.mp htc' with rfl | htc'
      · rw [hx, (PyDict.get?_eq_none _ _).mpr hnot]
      · exact h2 tc' htc'
    | some n =>
      subst he
      refine ⟨?_, ?_⟩
      · intro t ht
        simp only [PyDict.keys, List.map_cons, List.mem_cons] at ht ⊢
        exact ht.imp id (h1 t)
      · intro tc' htc'
        rcases List.mem_cons.mp htc' with rfl | htc'
        · rw [hx]; simp [PyDict.get?]
        · have hne : ¬ tc.1 = tc'.1 := fun e => hn.1 (List.mem_map.mpr ⟨tc', htc', e.symm⟩)
          rw [h2 tc' htc']
          simp [PyDict.get?, hne]

theorem mdbNames_some (cenv : CaseEnv) (db : SqlDb) (schema : List (String × TabClass))
    (h : ∀ tc ∈ schema, sqlTableName cenv db tc.1 ≠ none) : ∃ names, mdbNames cenv db schema = some names := by
  induction schema with
  | nil => exact ⟨[], rfl⟩
  | cons tc rest ih =>
    obtain ⟨r, hr⟩ := ih (fun tc' h' => h tc' (List.mem_cons_of_mem _ h'))
    cases hx : sqlTableName cenv db tc.1 with
    | none => exact absurd hx (h tc List.mem_cons_self)
    | some x => exact ⟨_, by rw [mdbNames, hx, Option.bind_some, hr]; rfl⟩

theorem mdbCreate_stored (env : TextEnv) (cenv : CaseEnv) (cf : IOConf) (policy : DupPolicy)
    (schema : List (String × TabClass)) (hn : (schema.map Prod.fst).Nodup) (db : SqlDb) :
    mdbCreate env cenv cf policy schema db =
      if ∀ tc ∈ schema, sqlTableName cenv db tc.1 ≠ none then
        readAll env cf.params policy schema (dbFind (storedIn cenv db) (fun t f x => readCell env cf t f x))
      else none := by
  unfold mdbCreate
  by_cases hs : ∀ tc ∈ schema, sqlTableName cenv db tc.1 ≠ none
  · rw [if_pos hs]
    obtain ⟨names, hnm⟩ := mdbNames_some cenv db schema hs
    rw [hnm, Option.bind_some]
    unfold readAll
    rw [gather_congr _ (dbFind (storedIn cenv db) (fun t f x => readCell env cf t f x)) schema]
    intro tc htc
    unfold mdbFind dbFind storedIn
    rw [(mdbNames_at cenv db schema hn names hnm).2 tc htc, Option.bind_some]
    cases PyDict.get? names tc.1 with
    | none => rfl
    | some n =>
      simp only
      cases sqlSelect cenv db n <;> rfl
  · rw [if_neg hs]
    cases hnm : mdbNames cenv db schema with
    | none => rfl
    | some names =>
      exfalso
      apply hs
      intro tc htc
      rw [(mdbNames_at cenv db schema hn names hnm).2 tc htc]
      simp

/-- The reading of key cells by a function of the cell. -/
theorem take_determined (rd : String → Cell → Option Cell) (c : TabClass) (rows R : List (List Cell))
    (hw : ∀ r ∈ rows, r.length = c.fields.length) (hR : rows.mapM (mapCells rd c.fields) = some R) :
    ∀ p ∈ (rows.map (fun r => r.map id)).zip R, ∀ q ∈ (rows.map (fun r => r.map id)).zip R,
      p.1.take c.pks.length = q.1.take c.pks.length → p.2.take c.pks.length = q.2.take c.pks.length := by
  have hpair : ∀ p ∈ rows.zip R, mapCells rd c.pks (p.1.take c.pks.length) = some (p.2.take c.pks.length) := by
    have : ∀ (rows R : List (List Cell)), (∀ r ∈ rows, r.length = c.fields.length) →
        rows.mapM (mapCells rd c.fields) = some R →
        ∀ p ∈ rows.zip R, mapCells rd c.pks (p.1.take c.pks.length) = some (p.2.take c.pks.length) := by
      intro rows
      induction rows with
      | nil => intro R _ _ p hp; simp at hp
      | cons r rows ih =>
        intro R hw hR p hp
        simp only [List.mapM_cons, Option.pure_def, Option.bind_eq_bind, Option.bind_eq_some_iff, Option.some.injEq] at hR
        obtain ⟨b, hb, bs, hbs, rfl⟩ := hR
        rw [List.zip_cons_cons] at hp
        rcases List.mem_cons.mp hp with rfl | hp
        · have h1 := mapCells_prefix rd c.pks c.dfs r b (hw r List.mem_cons_self) hb
          have h2 : mapCells rd c.pks (r.take c.pks.length) = mapCells rd c.pks r := by
            unfold mapCells
            congr 1
            have : ∀ (fs : List String) (r : List Cell), fs.zip (r.take fs.length) = fs.zip r := by
              intro fs
              induction fs with
              | nil => intro r; simp
              | cons f fs ih =>
                intro r
                cases r with
                | nil => simp
                | cons v r => simp [ih r]
            exact this _ _
          simp only
          rw [h2, h1]
        · exact ih bs (fun x hx => hw x (List.mem_cons_of_mem _ hx)) hbs p hp
    exact this rows R hw hR
  have hid : rows.map (fun r => r.map id) = rows := by simp
  rw [hid]
  intro p hp q hq e
  have h1 := hpair p hp
  have h2 := hpair q hq
  rw [e, h2] at h1
  exact (Option.some.inj h1).symm

/-- **C67, Access.**  No record is reported that the reader keeps. -/
theorem mdb_find_duplicates (env : TextEnv) (cenv : CaseEnv) (cf : IOConf) (policy : DupPolicy)
    (schema : List (String × TabClass)) (hn : (schema.map Prod.fst).Nodup) (hf : ∀ tc ∈ schema, tc.2.fields.Nodup)
    (db : SqlDb)
    (hw : ∀ tc ∈ schema, ∀ rows, storedIn cenv db tc.1 = some (some rows) → ∀ r ∈ rows, r.length = tc.2.fields.length)
    (dat : PyDict String TabVal) (h : mdbCreate env cenv cf policy schema db = some dat) :
    ∃ rtn, mdbDups env cenv schema db = some rtn ∧
      ∀ tc ∈ schema, tc.2.pks ≠ [] → ∃ x R tab, storedIn cenv db tc.1 = some x ∧
        (x.getD []).mapM (mapCells (readCell env cf tc.1) tc.2.fields) = some R ∧
        PyDict.get? dat tc.1 = some tab ∧
        ReportsTable tc.2.pks.length (x.getD []) (PyDict.get? rtn tc.1) ∧
        ((cf.params = [] ∨ tc.1 ≠ "parameters") → HoldsLast tc.2 R tab) ∧
        tab.size + surplus (PyDict.get? rtn tc.1) ≤ R.length ∧
        (SameKeys tc.2.pks.length (x.getD []) R → tab.size + surplus (PyDict.get? rtn tc.1) = R.length) := by
  rw [mdbCreate_stored env cenv cf policy schema hn db] at h
  by_cases hs : ∀ tc ∈ schema, sqlTableName cenv db tc.1 ≠ none
  case neg => rw [if_neg hs] at h; cases h
  rw [if_pos hs] at h
  obtain ⟨rtn, h1, h2⟩ := db_find_duplicates env cf.params policy schema hn hf (storedIn cenv db)
    (fun t f x => readCell env cf t f x) (fun t f x => readCell env plainConf t f x) id (readCell_new env) hw dat h
  refine ⟨rtn, ?_, fun tc htc hpk => ?_⟩
  · unfold mdbDups
    unfold dbDups at h1 ⊢
    by_cases hk : keyedOnly schema = []
    · rw [if_pos hk] at h1 ⊢; exact h1
    · rw [if_neg hk] at h1 ⊢
      simp only at h1 ⊢
      rw [mdbCreate_stored env cenv plainConf .assert (dupSchema schema) (by
        have : (dupSchema schema).map Prod.fst = (keyedOnly schema).map Prod.fst := by simp [dupSchema, Function.comp_def]
        rw [this]; exact keyedOnly_names schema hn) db, if_pos (by
          intro tc htc
          obtain ⟨tc0, htc0, rfl⟩ := List.mem_map.mp htc
          exact hs tc0 ((mem_keyedOnly schema tc0).1 htc0).1)]
      exact h1
  · obtain ⟨x, R, tab, a, b, c, d, e, f, g⟩ := h2 tc htc hpk
    have hwx : ∀ r ∈ x.getD [], r.length = tc.2.fields.length := by
      cases x with
      | none => intro r hr; simp at hr
      | some rows => exact hw tc htc rows a
    have hid : (x.getD []).map (fun r => r.map id) = x.getD [] := by simp
    refine ⟨x, R, tab, a, b, c, ?_, e, f (take_determined _ tc.2 _ R hwx b), ?_⟩
    · rw [hid] at d; exact d
    · rw [hid] at g; exact g

/-! ### PostgreSQL -/

/-- The rows of a table that a PostgreSQL reader selects. -/
def pgSelected (useActive : Bool) (db : PgDb) (t : String) : Option (Option (List (List Cell))) :=
  some ((PyDict.get? db t).map (fun tab => (tab.rows.filter (fun r => !(useActive && tab.active) || r.1)).map Prod.snd))

theorem pgFind_selected (env : TextEnv) (cf : IOConf) (useActive : Bool) (db : PgDb) :
    pgFind env cf useActive db = dbFind (pgSelected useActive db) (fun t f x => readCell env cf t f x) := by
  funext tc
  unfold pgFind dbFind pgSelected
  cases PyDict.get? db tc.1 <;> rfl

theorem pgCompatible_keys (cenv : CaseEnv) (reserved : List (List Char)) (t : List Char) (pks dfs : List String)
    (h : pgCompatible cenv reserved t ((pks ++ dfs).map String.toList) = true) :
    pgCompatible cenv reserved t (pks.map String.toList) = true := by
  unfold pgCompatible at h ⊢
  simp only [Bool.and_eq_true, decide_eq_true_eq, Bool.not_eq_true', List.map_append, List.any_append, Bool.or_eq_false_iff] at h ⊢
  exact ⟨⟨h.1.1, (List.nodup_append.mp h.1.2).1⟩, h.2.1⟩

/-- **C67, PostgreSQL.**  No record is reported that the reader keeps. -/
theorem pg_find_duplicates (env : TextEnv) (cenv : CaseEnv) (reserved : List (List Char)) (cf : IOConf) (policy : DupPolicy)
    (useActive : Bool) (schema : List (String × TabClass)) (hn : (schema.map Prod.fst).Nodup)
    (hf : ∀ tc ∈ schema, tc.2.fields.Nodup) (db : PgDb)
    (hw : ∀ tc ∈ schema, ∀ rows, pgSelected useActive db tc.1 = some (some rows) → ∀ r ∈ rows, r.length = tc.2.fields.length)
    (dat : PyDict String TabVal) (h : pgCreate env cenv reserved cf policy useActive schema db = some dat) :
    ∃ rtn, pgDups env cenv reserved useActive schema db = some rtn ∧
      ∀ tc ∈ schema, tc.2.pks ≠ [] → ∃ x R tab, pgSelected useActive db tc.1 = some x ∧
        (x.getD []).mapM (mapCells (readCell env cf tc.1) tc.2.fields) = some R ∧
        PyDict.get? dat tc.1 = some tab ∧
        ReportsTable tc.2.pks.length (x.getD []) (PyDict.get? rtn tc.1) ∧
        ((cf.params = [] ∨ tc.1 ≠ "parameters") → HoldsLast tc.2 R tab) ∧
        tab.size + surplus (PyDict.get? rtn tc.1) ≤ R.length ∧
        (SameKeys tc.2.pks.length (x.getD []) R → tab.size + surplus (PyDict.get? rtn tc.1) = R.length) := by
  unfold pgCreate at h
  by_cases hc : schema.all (fun tc => pgCompatible cenv reserved tc.1.toList (tc.2.fields.map String.toList)) = true
  case neg => rw [if_neg hc] at h; cases h
  rw [if_pos hc, pgFind_selected] at h
  obtain ⟨rtn, h1, h2⟩ := db_find_duplicates env cf.params policy schema hn hf (pgSelected useActive db)
    (fun t f x => readCell env cf t f x) (fun t f x => readCell env plainConf t f x) id (readCell_new env) hw dat h
  refine ⟨rtn, ?_, fun tc htc hpk => ?_⟩
  · unfold pgDups
    rw [if_pos hc]
    unfold dbDups at h1 ⊢
    by_cases hk : keyedOnly schema = []
    · rw [if_pos hk] at h1 ⊢; exact h1
    · rw [if_neg hk] at h1 ⊢
      have hc' : (dupSchema schema).all (fun tc => pgCompatible cenv reserved tc.1.toList (tc.2.fields.map String.toList)) = true := by
        rw [List.all_eq_true] at hc ⊢
        intro tc htc
        obtain ⟨tc0, htc0, rfl⟩ := List.mem_map.mp htc
        exact pgCompatible_keys cenv reserved _ _ _ (hc tc0 ((mem_keyedOnly schema tc0).1 htc0).1)
      simp only at h1 ⊢
      unfold pgCreate
      rw [if_pos hc', pgFind_selected]
      exact h1
  · obtain ⟨x, R, tab, a, b, c, d, e, f, g⟩ := h2 tc htc hpk
    have hwx : ∀ r ∈ x.getD [], r.length = tc.2.fields.length := by
      cases x with
      | none => intro r hr; simp at hr
      | some rows => exact hw tc htc rows a
    have hid : (x.getD []).map (fun r => r.map id) = x.getD [] := by simp
    refine ⟨x, R, tab, a, b, c, ?_, e, f (take_determined _ tc.2 _ R hwx b), ?_⟩
    · rw [hid] at d; exact d
    · rw [hid] at g; exact g

end Ticdat

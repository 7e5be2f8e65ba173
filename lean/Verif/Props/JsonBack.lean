import Verif.Props.JsonCells
import Verif.Props.JsonFile
/-!
# Which data objects come back from json
-/
namespace Ticdat
open Spec
set_option linter.unusedSimpArgs false

theorem set_length_le {K V : Type} [DecidableEq K] (d : PyDict K V) (k : K) (v : V) :
    (PyDict.set d k v).length ≤ d.length + 1 ∧ ((PyDict.set d k v).length = d.length + 1 → k ∉ PyDict.keys d) := by
  induction d with
  | nil => simp [PyDict.set, PyDict.keys]
  | cons p d ih =>
    unfold PyDict.set
    by_cases h : p.1 = k
    · simp [h]
    · simp only [h, if_false, List.length_cons]
      refine ⟨by omega, fun e hm => ?_⟩
      rcases List.mem_cons.mp hm with e' | hm
      · exact h e'.symm
      · exact ih.2 (by omega) hm

theorem foldl_set_length {K V : Type} [DecidableEq K] (l : List (K × V)) (d : PyDict K V) :
    (l.foldl (fun d p => PyDict.set d p.1 p.2) d).length ≤ d.length + l.length ∧
    ((l.foldl (fun d p => PyDict.set d p.1 p.2) d).length = d.length + l.length →
      (l.map Prod.fst).Nodup ∧ ∀ k ∈ l.map Prod.fst, k ∉ PyDict.keys d) := by
  induction l generalizing d with
  | nil => simp
  | cons p l ih =>
    obtain ⟨h1, h2⟩ := ih (PyDict.set d p.1 p.2)
    obtain ⟨h3, h4⟩ := set_length_le d p.1 p.2
    rw [List.foldl_cons, List.length_cons]
    refine ⟨by omega, fun e => ?_⟩
    obtain ⟨h5, h6⟩ := h2 (by omega)
    have h7 := h4 (by omega)
    refine ⟨?_, ?_⟩
    · rw [List.map_cons, List.nodup_cons]
      exact ⟨fun hm => h6 _ hm ((PyDict.keys_set_mem d p.1 p.1 p.2).mpr (.inl rfl)), h5⟩
    · intro k hk
      rw [List.map_cons] at hk
      rcases List.mem_cons.mp hk with e' | hm
      · rw [e']; exact h7
      · exact fun hkd => h6 k hm ((PyDict.keys_set_mem d p.1 k p.2).mpr (.inr hkd))

/-- A dictionary made of a list has as many entries as the list only if the keys are distinct. -/
theorem ofList_full {K V : Type} [DecidableEq K] (l : List (K × V)) (h : (PyDict.ofList l).length = l.length) :
    PyDict.ofList l = l := by
  apply PyDict.ofList_of_nodup
  exact ((foldl_set_length l []).2 (by simpa [PyDict.ofList] using h)).1

theorem keyCells_splitKey (n : Nat) (hn : n ≠ 0) (r : List Cell) (hl : n ≤ r.length) :
    keyCells (splitKey n (.seq r)) = r.take n := by
  simp only [splitKey]
  by_cases h : n = 1
  · rw [if_pos h]
    subst h
    cases r with
    | nil => simp at hl
    | cons x r => simp [keyCells]
  · rw [if_neg h]
    rfl

/-- Rows that stand for `rs`, of which a table of the same size is made: the rows of the table are `rs`. -/
theorem init_rows_inv (c : TabClass) (hn : c.fields.Nodup) (rs : List (List Cell)) (hl : ∀ r ∈ rs, r.length = c.fields.length)
    (xs : List RowIn) (hx : Pairwise2 (RowOf c.fields) rs xs) (tab : TabVal) (hi : initTable c (.seq xs) = some tab)
    (hs : tab.size = rs.length) : tabRows tab = rs := by
  have hdn : c.dfs.Nodup := (List.nodup_append.mp hn).2.1
  have hlen : c.fields.length = c.pks.length + c.dfs.length := by simp [TabClass.fields]
  have hrow : ∀ vs row, initRow c (.seq vs) = some row → vs.length = c.dfs.length → row.map Prod.snd = vs := by
    intro vs row h e
    rw [initRow_iff c hdn _ (show DictRow (.seq _) from trivial)] at h
    have h2 : row = c.dfs.zip vs := h.2
    rw [h2, List.map_snd_zip (by omega)]
  unfold initTable at hi
  cases hgood : goodTableForInit c (.seq xs)
  · rw [hgood] at hi; cases hi
  · rw [hgood, if_pos rfl] at hi
    clear hgood
    by_cases hpk : c.pks ≠ []
    · rw [if_pos hpk] at hi
      simp only [Option.map_eq_some_iff] at hi
      obtain ⟨l, h1, rfl⟩ := hi
      have h2 : l.map flatOf = rs := by
        clear hs
        rw [mapM_eq_some_iff] at h1
        induction hx generalizing l with
        | nil =>
          have : l = [] := by simpa using h1.symm
          rw [this]; rfl
        | @cons r x rs xs hr _ ih =>
          cases l with
          | nil => simp at h1
          | cons p l =>
            simp only [List.map_cons, List.cons.injEq] at h1
            rw [List.map_cons, ih (fun r h => hl r (List.mem_cons_of_mem _ h)) l h1.2]
            congr 1
            have hlr := hl r List.mem_cons_self
            have h3 := h1.1
            unfold initListRow at h3
            rw [show c.pks ++ c.dfs = c.fields from rfl, handle_rowOf c.fields hn r hlr x hr] at h3
            simp only [Option.map_eq_some_iff] at h3
            obtain ⟨row, h4, rfl⟩ := h3
            have h5 := hrow _ _ h4 (by simp; omega)
            unfold flatOf
            simp only
            rw [h5, keyCells_splitKey _ (by simpa using hpk) r (by omega), List.take_append_drop]
      have h3 : PyDict.ofList l = l := by
        apply ofList_full
        rw [← h2, List.length_map] at hs
        exact hs
      rw [h3, ← h2]
      rfl
    · rw [if_neg hpk] at hi
      have hpk : c.pks = [] := by simpa using hpk
      simp only [Option.map_eq_some_iff] at hi
      obtain ⟨l, h1, rfl⟩ := hi
      show l.map (fun row => row.map Prod.snd) = rs
      clear hs
      rw [mapM_eq_some_iff] at h1
      induction hx generalizing l with
      | nil =>
        have : l = [] := by simpa using h1.symm
        rw [this]; rfl
      | @cons r x rs xs hr _ ih =>
        cases l with
        | nil => simp at h1
        | cons p l =>
          simp only [List.map_cons, List.cons.injEq] at h1
          rw [List.map_cons, ih (fun r h => hl r (List.mem_cons_of_mem _ h)) l h1.2]
          congr 1
          have hlr := hl r List.mem_cons_self
          have hfl : c.fields = c.dfs := by simp [TabClass.fields, hpk]
          have hkeys : PyDict.keys (c.dfs.zip r) = c.dfs := by
            unfold PyDict.keys
            rw [List.map_fst_zip (by rw [← hfl]; omega)]
          have hval : (c.dfs.zip r).map Prod.snd = r := List.map_snd_zip (by rw [← hfl]; omega)
          have h6 := initRow_rowOf c hpk hdn (c.dfs.zip r) hkeys x (by rw [hval]; exact hr)
          rw [h1.1] at h6
          cases h6
          exact hval

theorem mapCells_at {g : String → Cell → Option Cell} {fields : List String} {row ws : List Cell}
    (h : mapCells g fields row = some ws) (i : Nat) {f : String} {x : Cell} (hf : fields[i]? = some f) (hx : row[i]? = some x) :
    ∃ w, ws[i]? = some w ∧ g f x = some w := by
  unfold mapCells at h
  rw [mapM_eq_some_iff] at h
  have h1 := congrArg (fun l => l[i]?) h
  simp only [List.getElem?_map] at h1
  have h2 : (fields.zip row)[i]? = some (f, x) := List.getElem?_zip_eq_some.mpr ⟨hf, hx⟩
  rw [h2] at h1
  cases hw : ws[i]? with
  | none => rw [hw] at h1; cases h1
  | some w =>
    rw [hw] at h1
    exact ⟨w, rfl, by simpa using h1⟩

/-- A row that is written and read: what is read stands for a row whose cells are the images of the cells. -/
theorem json_row_inv (env : TextEnv) (cf : IOConf) (t : String) (fields : List String) (hn : fields.Nodup) (verbose : Bool)
    (r : List Cell) (w y : RowIn) (h1 : jsonMakeRow env cf t fields verbose r = some w)
    (h2 : jsonReadRow env cf t fields w = some y) :
    ∃ r', RowRel fields (JsonCell env cf t) r r' ∧ RowOf fields r' y := by
  unfold jsonMakeRow at h1
  split at h1
  case isFalse => cases h1
  rename_i hl
  rw [Option.bind_eq_some_iff] at h1
  obtain ⟨ws, h3, h4⟩ := h1
  split at h4
  case isFalse => cases h4
  rename_i hj
  have hlw := mapCells_length _ _ _ _ hl h3
  have key : ∀ r', mapCells (readCell env cf t) fields ws = some r' → RowRel fields (JsonCell env cf t) r r' := by
    intro r' h5
    refine ⟨hl, mapCells_length _ _ _ _ hlw h5, fun i f x y hf hx hy => ?_⟩
    obtain ⟨w1, h6, h7⟩ := mapCells_at h3 i hf hx
    obtain ⟨y1, h8, h9⟩ := mapCells_at h5 i hf h6
    rw [hy] at h8
    cases h8
    exact ⟨w1, h7, List.all_eq_true.mp hj w1 (List.mem_of_getElem? h6), h9⟩
  cases verbose with
  | false =>
    simp only [Bool.false_eq_true, if_false, Option.some.injEq] at h4
    subst h4
    simp only [jsonReadRow, Option.map_eq_some_iff] at h2
    obtain ⟨r', h5, rfl⟩ := h2
    exact ⟨r', key r' h5, rfl⟩
  | true =>
    have hz : ((fields.zip ws).map Prod.fst).Nodup := by rw [List.map_fst_zip (by omega)]; exact hn
    simp only [if_true, Option.some.injEq] at h4
    rw [PyDict.ofList_of_nodup _ hz] at h4
    subst h4
    simp only [jsonReadRow, Option.map_eq_some_iff] at h2
    obtain ⟨e, h5, rfl⟩ := h2
    rw [mapM_eq_some_iff] at h5
    have hk : e.map Prod.fst = fields := by
      have h6 := congrArg (List.map (fun o : Option (String × Cell) => (o.map Prod.fst).getD "")) h5
      rw [List.map_map, List.map_map] at h6
      have h7 : (fields.zip ws).map Prod.fst = e.map Prod.fst := by
        refine Eq.trans ?_ (h6.trans ?_)
        · apply List.map_congr_left
          intro p hp
          have : ((readCell env cf t p.1 p.2).map (fun v => (p.1, v))) ∈ e.map some := by
            rw [← h5]; exact List.mem_map.mpr ⟨p, hp, rfl⟩
          obtain ⟨q, _, hq⟩ := List.mem_map.mp this
          simp only [Function.comp_apply]
          rw [← hq]
          cases hr : readCell env cf t p.1 p.2 with
          | none => rw [hr] at hq; cases hq
          | some v => rw [hr] at hq; cases hq; rfl
        · apply List.map_congr_left; intro p _; rfl
      rw [← h7, List.map_fst_zip (by omega)]
    have hv : mapCells (readCell env cf t) fields ws = some (e.map Prod.snd) := by
      unfold mapCells
      rw [mapM_eq_some_iff]
      have h6 := congrArg (List.map (fun o : Option (String × Cell) => o.map Prod.snd)) h5
      rw [List.map_map, List.map_map] at h6
      rw [List.map_map]
      refine Eq.trans ?_ (h6.trans ?_)
      · apply List.map_congr_left
        intro p _
        simp only [Function.comp_apply]
        cases readCell env cf t p.1 p.2 <;> rfl
      · apply List.map_congr_left; intro p _; rfl
    refine ⟨e.map Prod.snd, key _ hv, ?_⟩
    show List.Perm e _
    rw [← hk, zip_keys_values]

/-- If a table of the same size is read then its cells are those that the cells written are read as. -/
theorem json_table_rel (env : TextEnv) (cf : IOConf) (t : String) (c : TabClass) (hn : c.fields.Nodup) (verbose : Bool)
    (tab tab' : TabVal) (h : WellShaped c tab) (rows : List RowIn) (h1 : jsonTable env cf verbose t c tab = some rows) (x : TableIn)
    (h2 : jsonReadTable env cf t c rows = some x) (h3 : initTable c x = some tab') (hs : tab'.size = tab.size) :
    Pairwise2 (RowRel c.fields (JsonCell env cf t)) (tabRows tab) (tabRows tab') := by
  have hdn : c.dfs.Nodup := (List.nodup_append.mp hn).2.1
  unfold jsonTable at h1
  rw [flatRows_eq c hdn tab h, Option.bind_some, mapM_eq_some_iff] at h1
  unfold jsonReadTable at h2
  simp only [Option.map_eq_some_iff] at h2
  obtain ⟨xs, h4, rfl⟩ := h2
  rw [mapM_eq_some_iff] at h4
  have key : ∀ (rs : List (List Cell)) (rows xs : List RowIn),
      rs.map (jsonMakeRow env cf t c.fields verbose) = rows.map some →
      rows.map (jsonReadRow env cf t c.fields) = xs.map some →
      ∃ rs', Pairwise2 (RowRel c.fields (JsonCell env cf t)) rs rs' ∧ Pairwise2 (RowOf c.fields) rs' xs := by
    intro rs
    induction rs with
    | nil =>
      intro rows xs h1 h2
      have : rows = [] := by simpa using h1.symm
      subst this
      have : xs = [] := by simpa using h2.symm
      subst this
      exact ⟨[], .nil, .nil⟩
    | cons r rs ih =>
      intro rows xs h1 h2
      cases rows with
      | nil => simp at h1
      | cons w rows =>
        cases xs with
        | nil => simp at h2
        | cons y xs =>
          simp only [List.map_cons, List.cons.injEq] at h1 h2
          obtain ⟨r', h5, h6⟩ := json_row_inv env cf t c.fields hn verbose r w y h1.1 h2.1
          obtain ⟨rs', h7, h8⟩ := ih rows xs h1.2 h2.2
          exact ⟨r' :: rs', .cons h5 h7, .cons h6 h8⟩
  obtain ⟨rs', h5, h6⟩ := key _ _ _ h1 h4
  have h7 : tabRows tab' = rs' := by
    refine init_rows_inv c hn rs' ?_ xs h6 tab' h3 ?_
    · intro r hr
      obtain ⟨_, _, h8⟩ := pairwise2_mem h5 r hr
      exact h8.2.1
    · rw [pairwise2_length h5, tabRows_size, hs]
  rw [← h7] at h5
  exact h5

/-- **C20, one table, the other direction.**  If a table comes back then so does each of its cells. -/
theorem json_table_inv (env : TextEnv) (cf : IOConf) (t : String) (c : TabClass) (hn : c.fields.Nodup) (verbose : Bool)
    (tab : TabVal) (h : WellShaped c tab) (rows : List RowIn) (h1 : jsonTable env cf verbose t c tab = some rows) (x : TableIn)
    (h2 : jsonReadTable env cf t c rows = some x) (h3 : initTable c x = some tab) (f : String) (v : Cell)
    (hv : HasCell c tab f v) : JsonCell env cf t f v v := by
  have h5 := json_table_rel env cf t c hn verbose tab tab h rows h1 x h2 h3 rfl
  obtain ⟨r, hr, hm⟩ := hasCell_row c hn tab h hv
  have h8 : RowRel c.fields (JsonCell env cf t) r r := by
    have : ∀ l : List (List Cell), Pairwise2 (RowRel c.fields (JsonCell env cf t)) l l → ∀ r ∈ l,
        RowRel c.fields (JsonCell env cf t) r r := by
      intro l hl
      induction l with
      | nil => intro r hr; cases hr
      | cons a l ih =>
        cases hl with
        | cons ha hl =>
          intro r hr
          rcases List.mem_cons.mp hr with e | hr
          · rw [e]; exact ha
          · exact ih hl r hr
    exact this _ h5 r hr
  obtain ⟨i, hi⟩ := List.mem_iff_getElem?.mp hm
  have ⟨h9, h10⟩ := List.getElem?_zip_eq_some.mp hi
  exact h8.2.2 i f v v h9 h10 h10

theorem sameJson_refl (file : PyDict String (List RowIn)) : SameJson file file := by
  refine ⟨.refl _, fun t rows h => ⟨rows, h, ?_⟩⟩
  clear h
  induction rows with
  | nil => exact .nil
  | cons r rows ih =>
    refine .cons ?_ ih
    cases r with
    | dict d => exact List.Perm.refl _
    | seq vs => rfl
    | scalar v => rfl

theorem jsonTables_inv (env : TextEnv) (cenv : CaseEnv) (cf : IOConf) (names : List String)
    (hg : goodTableNames cenv (names.map String.toList) = true) (file : PyDict String (List RowIn))
    (hp : List.Perm (PyDict.keys file) names) (s : List (String × TabClass)) (hs : ∀ tc ∈ s, tc.1 ∈ names)
    (hnd : (s.map Prod.fst).Nodup) (input : PyDict String TableIn) (h : jsonTables env cenv cf file s = some input) :
    ∀ tc ∈ s, ∃ rows x, PyDict.get? file tc.1 = some rows ∧ jsonReadTable env cf tc.1 tc.2 rows = some x ∧
      PyDict.get? input tc.1 = some x := by
  induction s generalizing input with
  | nil => intro tc htc; cases htc
  | cons a s ih =>
    rw [List.map_cons, List.nodup_cons] at hnd
    rw [jsonTables, json_key_found cenv names hg _ hp a.1 (hs a List.mem_cons_self)] at h
    simp only [Option.bind_some, Option.bind_eq_some_iff, Option.map_eq_some_iff] at h
    obtain ⟨rows, h1, x, h2, r, h3, rfl⟩ := h
    intro tc htc
    rcases List.mem_cons.mp htc with e | htc
    · rw [e]
      exact ⟨rows, x, h1, h2, by simp [PyDict.get?]⟩
    · obtain ⟨rows', x', h4, h5, h6⟩ := ih (fun tc h => hs tc (List.mem_cons_of_mem _ h)) hnd.2 r h3 tc htc
      refine ⟨rows', x', h4, h5, ?_⟩
      have hne : ¬ a.1 = tc.1 := fun e => hnd.1 (List.mem_map.mpr ⟨tc, htc, e.symm⟩)
      simp [PyDict.get?, hne, h6]

/-- **C20.**  For schemas without parameters: a data object written to json, in either layout, comes back as it was if and only if
every cell of every table is one that json carries, as spelled out in `JsonKeeps`.  There is no other obstacle, and none of the
conditions can be dropped. -/
theorem json_round_trip_iff (env : TextEnv) (hT : ∀ d, env.date (.str (env.text (.dt d))) = some d) (cenv : CaseEnv)
    (cf : IOConf) (hq : ∀ q, cf.flag = .num q → 0 < q) (hnp : cf.params = []) (policy : DupPolicy) (verbose : Bool)
    (schema : List (String × TabClass))
    (hg : goodTableNames cenv (schema.map (fun tc => tc.1.toList)) = true) (hf : ∀ tc ∈ schema, tc.2.fields.Nodup)
    (dat : PyDict String TabVal) (hd : DatOK schema dat) :
    (∃ file, jsonWrite env cf verbose schema dat = some file ∧ ∀ file', SameJson file file' →
      jsonCreate env cenv cf policy schema file' = some dat) ↔
    ∀ tc ∈ schema, ∀ tab, PyDict.get? dat tc.1 = some tab → ∀ f x, HasCell tc.2 tab f x → JsonKeeps env cf tc.1 f x := by
  have hg' : goodTableNames cenv ((schema.map Prod.fst).map String.toList) = true := by
    rw [List.map_map]; exact hg
  have hnames : (schema.map Prod.fst).Nodup := nodup_of_map _ (nodup_of_map _ ((goodTableNames_iff cenv _).mp hg').2.2)
  have hpar : ∀ t, ¬ IsParams cf.params t := fun t h => h.1 hnp
  have hdn : (PyDict.keys dat).Nodup := by rw [hd.1]; exact hnames
  have hpost : ∀ d, postRead env cf.params d = d := by intro d; unfold postRead; rw [if_pos hnp]
  have hget : ∀ tc ∈ schema, ∃ tab, PyDict.get? dat tc.1 = some tab := by
    intro tc htc
    cases h : PyDict.get? dat tc.1 with
    | some tab => exact ⟨tab, rfl⟩
    | none =>
      rw [PyDict.get?_eq_none, hd.1] at h
      exact absurd (List.mem_map.mpr ⟨tc, htc, rfl⟩) h
  constructor
  · rintro ⟨file, h1, h2⟩ tc htc tab htab f x hx
    rw [← json_cell_iff hT cf hq tc.1 f x (hpar _)]
    have h3 := h2 file (sameJson_refl file)
    unfold jsonCreate at h3
    simp only [Option.bind_eq_some_iff, Option.map_eq_some_iff, hpost] at h3
    obtain ⟨input, h4, dat2, h5, h5'⟩ := h3
    rw [h5'] at h5
    clear h5' dat2
    unfold jsonWrite at h1
    rw [mapM_eq_some_iff] at h1
    have hrow : ∀ tc ∈ schema, ∃ tab rows, PyDict.get? dat tc.1 = some tab ∧
        jsonTable env cf verbose tc.1 tc.2 tab = some rows ∧ (tc.1, rows) ∈ file := by
      intro tc htc
      obtain ⟨tab, h⟩ := hget tc htc
      have : ((PyDict.get? dat tc.1).bind (fun tab =>
          (jsonTable env cf verbose tc.1 tc.2 tab).map (fun rows => (tc.1, rows)))) ∈ file.map some := by
        rw [← h1]; exact List.mem_map.mpr ⟨tc, htc, rfl⟩
      obtain ⟨q, h6, h7⟩ := List.mem_map.mp this
      rw [h, Option.bind_some, eq_comm, Option.map_eq_some_iff] at h7
      obtain ⟨rows, h8, rfl⟩ := h7
      exact ⟨tab, rows, h, h8, h6⟩
    have hkeys : PyDict.keys file = schema.map Prod.fst := by
      have h3 := congrArg (List.map (fun o : Option (String × List RowIn) => o.map Prod.fst)) h1
      rw [List.map_map, List.map_map] at h3
      have h4 : (schema.map Prod.fst).map some = (PyDict.keys file).map some := by
        unfold PyDict.keys
        rw [List.map_map, List.map_map]
        refine Eq.trans ?_ h3
        apply List.map_congr_left
        intro tc htc
        obtain ⟨tab, rows, hr, hj, _⟩ := hrow tc htc
        simp only [Function.comp_apply, hr, hj, Option.bind_some, Option.map_some]
      exact ((List.map_inj_right (fun _ _ => Option.some.inj)).mp h4).symm
    have hfn : (PyDict.keys file).Nodup := by rw [hkeys]; exact hnames
    obtain ⟨tab', rows, h6, h7, h8⟩ := hrow tc htc
    rw [htab] at h6
    cases h6
    obtain ⟨rows', y, h9, h10, h11⟩ := jsonTables_inv env cenv cf _ hg' file (by rw [hkeys]) schema
      (fun tc h => List.mem_map.mpr ⟨tc, h, rfl⟩) hnames input h4 tc htc
    rw [PyDict.get?_of_mem hfn h8] at h9
    cases h9
    unfold initDat at h5
    split at h5
    case isFalse => cases h5
    cases hm : schema.mapM (initEntry input) with
    | none => rw [hm] at h5; cases h5
    | some tabs =>
      rw [hm] at h5
      simp only at h5
      split at h5
      case isTrue => cases h5
      cases h5
      rw [mapM_eq_some_iff] at hm
      have : initEntry input tc ∈ dat.map some := by rw [← hm]; exact List.mem_map.mpr ⟨tc, htc, rfl⟩
      obtain ⟨q, h12, h13⟩ := List.mem_map.mp this
      have h13 := h13.symm
      unfold initEntry at h13
      rw [h11] at h13
      simp only [Option.map_eq_some_iff] at h13
      obtain ⟨tab2, h14, rfl⟩ := h13
      have h15 := PyDict.get?_of_mem hdn h12
      rw [htab] at h15
      cases h15
      exact json_table_inv env cf tc.1 tc.2 (hf tc htc) verbose tab (hd.2 tc htc tab htab) rows h7 y h10 h14 f x hx
  · intro h
    obtain ⟨file, h1, h2⟩ := json_read_back env cenv cf policy verbose schema hg hf dat dat hd.1 (fun tc htc => by
      obtain ⟨tab, ht⟩ := hget tc htc
      have hws := hd.2 tc htc tab ht
      exact ⟨tab, tab, ht, ht, hws, hws, tabRel_refl tc.2 (hf tc htc) tab hws _ (fun f x hx =>
        (json_cell_iff hT cf hq tc.1 f x (hpar _)).mpr (h tc htc tab ht f x hx))⟩)
    refine ⟨file, h1, fun file' hs => ?_⟩
    rw [h2 file' hs, hpost]

/-- The example object of C20 with a number as infinity flag: it comes back if the flag is above its numbers, and does not if the flag
is one of them. -/
theorem json_example_flag (verbose : Bool) (q : Rat) (hq : 0 < q) :
    (∃ file, jsonWrite unaryText ⟨[], .num q, false, []⟩ verbose jsonEx_schema exampleDat = some file ∧ ∀ file', SameJson file file' →
      jsonCreate unaryText asciiEnv ⟨[], .num q, false, []⟩ .assert jsonEx_schema file' = some exampleDat) ↔ 2 < q := by
  rw [json_round_trip_iff unaryText unaryText_ok.dt asciiEnv ⟨[], .num q, false, []⟩ (by intro r h; cases h; exact hq) rfl .assert
    verbose jsonEx_schema (by decide +kernel) (by decide +kernel) exampleDat jsonEx_dat]
  constructor
  · intro h
    have h1 := h ("foods", ⟨["name"], ["cost", "kind"], []⟩) (by simp [jsonEx_schema]) (.keyed [(.one (.str "milk"),
      [("cost", .num (.fin 2)), ("kind", .none)]), (.one (.str "egg"), [("cost", .bool true), ("kind", .str "a")])]) (by rfl)
      "cost" (.num (.fin 2)) ⟨(.one (.str "milk"), [("cost", .num (.fin 2)), ("kind", .none)]), (by simp), .inr (by rfl)⟩
    simp only [JsonKeeps] at h1
    have h2 := h1.2 _ rfl
    rw [if_neg (by decide)] at h2
    rcases h2 with h2 | h2 | ⟨a, e, _, h3⟩
    · cases h2
    · cases h2
    · cases e; exact h3
  · intro h tc htc tab htab f x hx
    have htc : tc = ("foods", ⟨["name"], ["cost", "kind"], []⟩) := by simpa [jsonEx_schema] using htc
    subst htc
    have hval : x = .none ∨ (∃ s, x = .str s) ∨ (∃ b, x = .bool b) ∨ x = .num (.fin 2) := by
      simp [exampleDat, PyDict.get?] at htab
      subst htab
      simp only [HasCell, List.mem_cons, List.not_mem_nil, or_false] at hx
      obtain ⟨p, hp, h⟩ := hx
      rcases hp with hp | hp <;> subst hp <;> rcases h with ⟨i, _, hi⟩ | h
      all_goals first
        | (rcases i with _ | i <;> simp [keyCells] at hi; subst hi; simp)
        | (simp only [PyDict.get?] at h; repeat' split at h
           all_goals first
             | (cases h; done)
             | (cases h; simp; done))
    have h1 : ¬ ReadAsDate unaryText ⟨[], .num q, false, []⟩ "foods" f x := by
      rintro ⟨⟨td, e, _⟩, _⟩; cases e
    have h2 : ¬ ReadAsNumber unaryText ⟨[], .num q, false, []⟩ "foods" f x := by
      rintro ⟨e, _⟩; cases e
    rcases hval with rfl | ⟨s, rfl⟩ | ⟨b, rfl⟩ | rfl
    · exact ⟨fun _ => ⟨h1, h2⟩, fun y e => by cases e⟩
    · exact ⟨fun _ => ⟨h1, h2⟩, fun y e => by cases e⟩
    · exact ⟨fun _ => ⟨h1, h2⟩, fun y e => by cases e⟩
    · refine ⟨fun _ => ⟨h1, h2⟩, fun y e => ?_⟩
      cases e
      rw [if_neg (by decide)]
      exact .inr (.inr ⟨2, rfl, by grind, h⟩)

end Ticdat

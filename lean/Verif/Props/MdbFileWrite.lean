import Verif.Props.MdbFile
/-!
# C89: writing into Access databases with a schema of their own

What the schema sees of such a database changes exactly as a database of `write_schema` changes (`Mdb`), so what is proved of those
holds of these.
-/
set_option linter.unusedSectionVars false
set_option linter.unusedSimpArgs false
namespace Ticdat
open Spec

theorem mapCells_bind (a b : String → Cell → Option Cell) : ∀ (fields : List String) (row : List Cell),
    mapCells (fun f x => (a f x).bind (b f)) fields row = (mapCells a fields row).bind (mapCells b fields)
  | [], _ => rfl
  | _ :: _, [] => rfl
  | f :: fields, x :: row => by
    have ih := mapCells_bind a b fields row
    unfold mapCells at ih ⊢
    rw [List.zip_cons_cons, List.mapM_cons, List.mapM_cons, ih]
    cases ha : a f x with
    | none => simp [ha]
    | some w =>
      cases List.mapM (fun p : String × Cell => a p.1 p.2) (fields.zip row) with
      | none => simp
      | some ws => simp [List.mapM_cons, ha]

theorem mdbRow_spec (cenv : CaseEnv) (store : Store) (t : String) (tab : SqlTab) (fields : List String)
    (ws vs : List Cell) (hfn : (fields.map (fun f => cenv.lower f.toList)).Nodup)
    (hfields : ∀ f ∈ fields, ∃ c ∈ tab.cols, SqlSame cenv c.name f)
    (hothers : ∀ c ∈ tab.cols, (∀ f ∈ fields, ¬ SqlSame cenv c.name f) → ∃ x, c.dflt = some x)
    (hlw : ws.length = fields.length) (hlv : vs.length = fields.length)
    (hst : ∀ (j : Nat) f w v, fields[j]? = some f → ws[j]? = some w → vs[j]? = some v → store t f w = some v) :
    ∃ row, tab.mdbRow cenv store t fields ws = some row ∧ row.length = tab.cols.length ∧
      (∀ (j : Nat) f x, fields[j]? = some f → vs[j]? = some x → CellAt cenv tab row f x) ∧ DefaultsIn cenv tab fields row := by
  have hcase : ∀ c ∈ tab.cols, (∃ (j : Nat) (f : String) (w v : Cell), fields[j]? = some f ∧ ws[j]? = some w ∧ vs[j]? = some v ∧
      SqlSame cenv c.name f) ∨ ∀ f ∈ fields, ¬ SqlSame cenv c.name f := by
    intro c hc
    by_cases h : ∃ f ∈ fields, SqlSame cenv c.name f
    · obtain ⟨f, hf, hs⟩ := h
      obtain ⟨j, hj⟩ := List.getElem?_of_mem hf
      obtain ⟨hlt, _⟩ := List.getElem?_eq_some_iff.mp hj
      exact .inl ⟨j, f, ws[j], vs[j], hj, List.getElem?_eq_getElem (by omega), List.getElem?_eq_getElem (by omega), hs⟩
    · exact .inr (fun f hf hs => h ⟨f, hf, hs⟩)
  have hnone : ∀ c ∈ tab.cols, (∀ f ∈ fields, ¬ SqlSame cenv c.name f) →
      (fields.zip ws).find? (fun p => decide (cenv.lower p.1.toList = cenv.lower c.name.toList)) = none := by
    intro c _ h
    rw [List.find?_eq_none]
    intro p hp hd
    exact h p.1 (List.of_mem_zip hp).1 (show cenv.lower _ = cenv.lower _ from (of_decide_eq_true hd).symm)
  obtain ⟨row, hrow⟩ := mapM_some_of_forall (fun c : SqlCol =>
      match (fields.zip ws).find? (fun p => decide (cenv.lower p.1.toList = cenv.lower c.name.toList)) with
      | some p => store t p.1 p.2
      | none => c.dflt) tab.cols (by
    intro c hc
    rw [Option.isSome_iff_exists]
    rcases hcase c hc with ⟨j, f, w, v, h1, h2, h3, h4⟩ | h
    · rw [zip_find cenv fields ws hfn j f w h1 h2 c.name h4]
      exact ⟨v, hst j f w v h1 h2 h3⟩
    · rw [hnone c hc h]
      exact hothers c hc h)
  have hm := (mapM_eq_some_iff _ _ _).mp hrow
  have hget : ∀ (i : Nat) c, tab.cols[i]? = some c → row[i]? =
      match (fields.zip ws).find? (fun p => decide (cenv.lower p.1.toList = cenv.lower c.name.toList)) with
      | some p => store t p.1 p.2
      | none => c.dflt := by
    intro i c hi
    have h1 := congrArg (fun l => l[i]?) hm
    simp only [List.getElem?_map, hi, Option.map_some] at h1
    cases hr : row[i]? with
    | none => rw [hr] at h1; cases h1
    | some x =>
      rw [hr, Option.map_some, Option.some.injEq] at h1
      exact h1.symm
  refine ⟨row, hrow, ?_, ?_, ?_⟩
  · have := congrArg List.length hm
    simpa using this.symm
  · intro j f x hf hx
    obtain ⟨c, hc, hs⟩ := hfields f (List.mem_of_getElem? hf)
    obtain ⟨i, hi⟩ := List.getElem?_of_mem hc
    obtain ⟨hlt, _⟩ := List.getElem?_eq_some_iff.mp hf
    have hw := List.getElem?_eq_getElem (l := ws) (i := j) (by omega)
    refine ⟨i, c, hi, hs, ?_⟩
    rw [hget i c hi, zip_find cenv fields ws hfn j f _ hf hw c.name hs]
    exact hst j f _ x hf hw hx
  · intro i c hi hno
    rw [hget i c hi, hnone c (List.mem_of_getElem? hi) hno]

/-- A cell that is refused makes the INSERT fail. -/
theorem mdbRow_none (cenv : CaseEnv) (store : Store) (t : String) (tab : SqlTab) (fields : List String)
    (ws : List Cell) (hfn : (fields.map (fun f => cenv.lower f.toList)).Nodup)
    (hfields : ∀ f ∈ fields, ∃ c ∈ tab.cols, SqlSame cenv c.name f)
    (h : mapCells (store t) fields ws = none) : tab.mdbRow cenv store t fields ws = none := by
  have hex : ∃ p ∈ fields.zip ws, store t p.1 p.2 = none := by
    apply Classical.byContradiction
    intro hno
    obtain ⟨vs, hvs⟩ := mapM_some_of_forall (fun p : String × Cell => store t p.1 p.2) (fields.zip ws) (by
      intro p hp
      cases hs : store t p.1 p.2 with
      | none => exact absurd ⟨p, hp, hs⟩ hno
      | some v => rfl)
    unfold mapCells at h
    rw [h] at hvs
    cases hvs
  obtain ⟨p, hp, hnone⟩ := hex
  obtain ⟨j, hj⟩ := List.getElem?_of_mem hp
  obtain ⟨h1, h2⟩ := List.getElem?_zip_eq_some.mp hj
  obtain ⟨c, hc, hs⟩ := hfields p.1 (List.mem_of_getElem? h1)
  unfold SqlTab.mdbRow
  refine mapM_none_of hc ?_
  rw [zip_find cenv fields ws hfn j p.1 p.2 h1 h2 c.name hs]
  exact hnone

/-- An INSERT, as the schema sees it. -/
theorem mdbInsert_seen (cenv : CaseEnv) (store : Store) (t : String) (c : TabClass) (tab : SqlTab)
    (hn : (tab.cols.map (fun c => cenv.lower c.name.toList)).Nodup) (ht : MdbTakes cenv c tab)
    (hfn : (c.fields.map (fun f => cenv.lower f.toList)).Nodup) (ixs : List Nat)
    (hix : c.fields.mapM (tab.col cenv) = some ixs) (ws : List Cell) (hl : ws.length = c.fields.length) :
    (tab.mdbInsert cenv store t c.fields ws).map (fun tab' => tab'.rows.map (pick ixs)) =
      (mapCells (store t) c.fields ws).bind (dbInsert c.pks.length (tab.rows.map (pick ixs))) ∧
    ∀ tab', tab.mdbInsert cenv store t c.fields ws = some tab' → tab'.cols = tab.cols ∧ tab'.key = tab.key := by
  constructor
  · cases hst : mapCells (store t) c.fields ws with
    | none =>
      unfold SqlTab.mdbInsert
      rw [mdbRow_none cenv store t tab c.fields ws hfn ht.fields hst]
      rfl
    | some vs =>
      obtain ⟨hlv, hstj⟩ := mapCells_get _ _ _ _ hl hst
      obtain ⟨row, h1, h2, h3, h4⟩ := mdbRow_spec cenv store t tab c.fields ws vs hfn ht.fields ht.others hl hlv hstj
      have hpick := pick_cells cenv tab hn c.fields ixs hix row vs hlv h3
      obtain ⟨kix, hkix⟩ := cols_some cenv tab hn tab.key (by
        intro k hk
        obtain ⟨f, hf, hs⟩ := ht.keySup k hk
        obtain ⟨col, hcol, hs'⟩ := ht.fields f (List.mem_append_left _ hf)
        exact ⟨col, hcol, (show cenv.lower _ = cenv.lower _ from hs').trans (show cenv.lower _ = cenv.lower _ from hs).symm⟩)
      have hko : ∀ r, tab.keyOf cenv r = pick kix r := fun r => by unfold SqlTab.keyOf; rw [hkix]; rfl
      have hixm := (mapM_eq_some_iff _ _ _).mp hix
      have hkixm := (mapM_eq_some_iff _ _ _).mp hkix
      have hlen : ixs.length = c.fields.length := by
        have := congrArg List.length hixm
        simpa using this.symm
      have hpix : ∀ i, i ∈ ixs.take c.pks.length ↔ ∃ f ∈ c.pks, tab.col cenv f = some i := by
        have hpm : c.pks.map (tab.col cenv) = (ixs.take c.pks.length).map some := by
          have h := congrArg (List.take c.pks.length) hixm
          rw [← List.map_take, ← List.map_take] at h
          rw [← h]
          unfold TabClass.fields
          rw [List.take_append_of_le_length (Nat.le_refl _), List.take_length]
        intro i
        constructor
        · intro hi
          have : some i ∈ c.pks.map (tab.col cenv) := by rw [hpm]; exact List.mem_map.mpr ⟨i, hi, rfl⟩
          obtain ⟨f, hf, e⟩ := List.mem_map.mp this
          exact ⟨f, hf, e⟩
        · rintro ⟨f, hf, e⟩
          have : some i ∈ (ixs.take c.pks.length).map some := by rw [← hpm]; exact List.mem_map.mpr ⟨f, hf, e⟩
          obtain ⟨i', hi', e'⟩ := List.mem_map.mp this
          cases e'
          exact hi'
      have hkx : ∀ i, i ∈ kix ↔ ∃ k ∈ tab.key, tab.col cenv k = some i := by
        intro i
        constructor
        · intro hi
          have : some i ∈ tab.key.map (tab.col cenv) := by rw [hkixm]; exact List.mem_map.mpr ⟨i, hi, rfl⟩
          obtain ⟨f, hf, e⟩ := List.mem_map.mp this
          exact ⟨f, hf, e⟩
        · rintro ⟨f, hf, e⟩
          have : some i ∈ kix.map some := by rw [← hkixm]; exact List.mem_map.mpr ⟨f, hf, e⟩
          obtain ⟨i', hi', e'⟩ := List.mem_map.mp this
          cases e'
          exact hi'
      have hcolsame : ∀ a b, SqlSame cenv a b → tab.col cenv a = tab.col cenv b := by
        intro a b h
        unfold SqlTab.col
        rw [show cenv.lower a.toList = cenv.lower b.toList from h]
      have hsets : ∀ i, i ∈ ixs.take c.pks.length ↔ i ∈ kix := by
        intro i
        rw [hpix, hkx]
        constructor
        · rintro ⟨f, hf, e⟩
          obtain ⟨k, hk, hs⟩ := ht.keySub f hf
          exact ⟨k, hk, by rw [hcolsame k f hs, e]⟩
        · rintro ⟨k, hk, e⟩
          obtain ⟨f, hf, hs⟩ := ht.keySup k hk
          exact ⟨f, hf, by rw [← hcolsame k f hs, e]⟩
      have hkeyeq : ∀ r, tab.keyOf cenv r = tab.keyOf cenv row ↔
          (pick ixs r).take c.pks.length = vs.take c.pks.length := by
        intro r
        rw [hko, hko, ← hpick]
        unfold pick
        rw [← List.map_take, ← List.map_take, List.map_inj_left, List.map_inj_left]
        exact ⟨fun h i hi => h i ((hsets i).1 hi), fun h i hi => h i ((hsets i).2 hi)⟩
      have hkne : tab.key ≠ [] ↔ c.pks.length ≠ 0 := by
        constructor
        · intro h h0
          cases hk : tab.key with
          | nil => exact h hk
          | cons k _ =>
            obtain ⟨f, hf, _⟩ := ht.keySup k (by rw [hk]; exact List.mem_cons_self)
            rw [List.eq_nil_of_length_eq_zero h0] at hf
            cases hf
        · intro h h0
          cases hp : c.pks with
          | nil => exact h (by rw [hp]; rfl)
          | cons f _ =>
            obtain ⟨k, hk, _⟩ := ht.keySub f (by rw [hp]; exact List.mem_cons_self)
            rw [h0] at hk
            cases hk
      have hcond : (tab.key ≠ [] ∧ tab.rows.any (fun r => decide (tab.keyOf cenv r = tab.keyOf cenv row)) = true) ↔
          (c.pks.length ≠ 0 ∧ (tab.rows.map (pick ixs)).any (fun r' => decide (r'.take c.pks.length = vs.take c.pks.length)) = true) := by
        rw [hkne, List.any_map]
        refine and_congr_right (fun _ => ?_)
        rw [List.any_eq_true, List.any_eq_true]
        constructor
        · rintro ⟨r, hr, e⟩
          exact ⟨r, hr, decide_eq_true ((hkeyeq r).1 (of_decide_eq_true e))⟩
        · rintro ⟨r, hr, e⟩
          exact ⟨r, hr, decide_eq_true ((hkeyeq r).2 (of_decide_eq_true e))⟩
      unfold SqlTab.mdbInsert dbInsert
      rw [h1, Option.bind_some, Option.bind_some]
      by_cases hc : tab.key ≠ [] ∧ tab.rows.any (fun r => decide (tab.keyOf cenv r = tab.keyOf cenv row)) = true
      · rw [if_pos hc, if_pos (hcond.1 hc)]
        rfl
      · rw [if_neg hc, if_neg (fun h => hc (hcond.2 h))]
        simp [hpick]
  · intro tab' h
    unfold SqlTab.mdbInsert at h
    rw [Option.bind_eq_some_iff] at h
    obtain ⟨row, _, h⟩ := h
    split at h
    · cases h
    · cases h
      exact ⟨rfl, rfl⟩

/-- A database that can take the rows of the tables of the schema. -/
structure MdbReady (cenv : CaseEnv) (schema : List (String × TabClass)) (file : SqlFile) : Prop where
  names : ((PyDict.keys file).map (fun k => cenv.lower k.toList)).Nodup
  tabs : ∀ tc ∈ schema, ∃ tab, file.find cenv tc.1 = some tab ∧ (tab.cols.map (fun c => cenv.lower c.name.toList)).Nodup ∧
    MdbTakes cenv tc.2 tab

theorem seen_get (cenv : CaseEnv) (schema : List (String × TabClass)) (hn : (schema.map Prod.fst).Nodup) (file : SqlFile)
    (tc : String × TabClass) (htc : tc ∈ schema) (tab : SqlTab) (hf : file.find cenv tc.1 = some tab) (ixs : List Nat)
    (hix : tc.2.fields.mapM (tab.col cenv) = some ixs) :
    PyDict.get? (seen cenv schema file) tc.1 = some (tab.rows.map (pick ixs)) := by
  have hk : (PyDict.keys (seen cenv schema file)).Nodup := by
    unfold seen PyDict.keys
    rw [List.map_map]
    exact hn
  refine PyDict.get?_of_mem hk (List.mem_map.mpr ⟨tc, htc, ?_⟩)
  rw [hf]
  simp [SqlTab.select, hix]

theorem set_map_schema (g : String × TabClass → List (List Cell)) (v : List (List Cell)) : ∀ (schema : List (String × TabClass)),
    (schema.map Prod.fst).Nodup → ∀ tc ∈ schema, PyDict.set (schema.map (fun tc => (tc.1, g tc))) tc.1 v =
      schema.map (fun tc' => (tc'.1, if tc'.1 = tc.1 then v else g tc'))
  | [], _, tc, h => by cases h
  | a :: rest, hn, tc, h => by
    rw [List.map_cons, List.nodup_cons] at hn
    by_cases e : a.1 = tc.1
    · have : rest.map (fun tc' => (tc'.1, if tc'.1 = tc.1 then v else g tc')) = rest.map (fun tc => (tc.1, g tc)) := by
        apply List.map_congr_left
        intro x hx
        rw [if_neg (fun hh => hn.1 (List.mem_map.mpr ⟨x, hx, hh.trans e.symm⟩))]
      rw [List.map_cons, List.map_cons, this]
      simp [PyDict.set, e]
    · rcases List.mem_cons.mp h with rfl | h
      · exact absurd rfl e
      · have ih := set_map_schema g v rest hn.2 tc h
        rw [List.map_cons, List.map_cons, if_neg e]
        simp only [PyDict.set, e, if_false]
        rw [← ih]

/-- A change of the rows of one table, as the schema sees it. -/
theorem seen_update (cenv : CaseEnv) (schema : List (String × TabClass))
    (hg : (schema.map (fun tc => cenv.lower tc.1.toList)).Nodup) (file : SqlFile) (hr : MdbReady cenv schema file)
    (tc : String × TabClass) (htc : tc ∈ schema) (g : SqlTab → Option SqlTab) (tab : SqlTab) (hf : file.find cenv tc.1 = some tab)
    (ixs : List Nat) (hix : tc.2.fields.mapM (tab.col cenv) = some ixs) (tab' : SqlTab) (hgt : g tab = some tab')
    (hcols : tab'.cols = tab.cols) (hkey : tab'.key = tab.key) :
    ∃ file', file.update cenv tc.1 g = some file' ∧ MdbReady cenv schema file' ∧
      file'.find cenv tc.1 = some tab' ∧
      seen cenv schema file' = PyDict.set (seen cenv schema file) tc.1 (tab'.rows.map (pick ixs)) := by
  have hn : (schema.map Prod.fst).Nodup := by
    have : schema.map (fun tc => cenv.lower tc.1.toList) = (schema.map Prod.fst).map (fun t => cenv.lower t.toList) := by
      rw [List.map_map]; rfl
    rw [this] at hg
    exact nodup_of_map _ hg
  have hcol : ∀ f, tab'.col cenv f = tab.col cenv f := by intro f; unfold SqlTab.col; rw [hcols]
  obtain ⟨file', h1, h2, h3, h4⟩ := update_found cenv tc.1 g file hr.names tab tab' hf hgt
  have hother : ∀ tc' ∈ schema, tc'.1 ≠ tc.1 → file'.find cenv tc'.1 = file.find cenv tc'.1 := by
    intro tc' htc' hne
    apply h4
    intro hs
    have := inj_of_nodup_map (fun tc : String × TabClass => cenv.lower tc.1.toList) hg htc' htc hs
    exact hne (by rw [this])
  have hsame : ∀ tc' ∈ schema, tc'.1 = tc.1 → tc' = tc := fun tc' htc' e => inj_of_nodup_map Prod.fst hn htc' htc e
  refine ⟨file', h1, ⟨by rw [h2]; exact hr.names, ?_⟩, h3, ?_⟩
  · intro tc' htc'
    by_cases e : tc'.1 = tc.1
    · rw [hsame tc' htc' e]
      obtain ⟨tab0, k1, k2, k3⟩ := hr.tabs tc htc
      rw [hf] at k1
      cases k1
      refine ⟨tab', h3, by rw [hcols]; exact k2, ?_⟩
      exact ⟨by rw [hcols]; exact k3.fields, by rw [hcols]; exact k3.others, by rw [hkey]; exact k3.keySub,
        by rw [hkey]; exact k3.keySup⟩
    · rw [hother tc' htc' e]
      exact hr.tabs tc' htc'
  · unfold seen
    rw [set_map_schema _ _ schema hn tc htc]
    apply List.map_congr_left
    intro tc' htc'
    by_cases e : tc'.1 = tc.1
    · rw [if_pos e, hsame tc' htc' e, h3]
      have : tc.2.fields.mapM (tab'.col cenv) = some ixs := by rw [← hix]; congr 1; funext f; exact hcol f
      simp [SqlTab.select, this]
    · rw [if_neg e, hother tc' htc' e]

theorem update_refused (cenv : CaseEnv) (t : String) (g : SqlTab → Option SqlTab) (file : SqlFile) (tab : SqlTab)
    (hf : file.find cenv t = some tab) (hg : g tab = none) : file.update cenv t g = none := by
  induction file with
  | nil => rfl
  | cons p rest ih =>
    unfold SqlFile.update
    unfold SqlFile.find at hf
    rw [List.find?_cons] at hf
    by_cases hp : cenv.lower p.1.toList = cenv.lower t.toList
    · simp only [hp, decide_true, Option.map_some, Option.some.injEq] at hf
      rw [if_pos hp, hf, hg]
      rfl
    · simp only [hp, decide_false] at hf
      rw [if_neg hp, ih hf]
      rfl

/-! ### The refinement -/

/-- What the schema sees of the two views of a connection. -/
structure MdbSim (cenv : CaseEnv) (schema : List (String × TabClass)) (s : MdbConn) (s' : MdbState) : Prop where
  live : MdbReady cenv schema s.live
  saved : MdbReady cenv schema s.saved
  eqLive : s'.live = seen cenv schema s.live
  eqSaved : s'.saved = seen cenv schema s.saved

section
variable (env : TextEnv) (cenv : CaseEnv) (cf : IOConf) (store : Store) (schema : List (String × TabClass))
  (hg : (schema.map (fun tc => cenv.lower tc.1.toList)).Nodup)
  (hf : ∀ tc ∈ schema, (tc.2.fields.map (fun f => cenv.lower f.toList)).Nodup)
include hg hf

theorem sim_names_nodup : (schema.map Prod.fst).Nodup := by
  have : schema.map (fun tc => cenv.lower tc.1.toList) = (schema.map Prod.fst).map (fun t => cenv.lower t.toList) := by
    rw [List.map_map]; rfl
  rw [this] at hg
  exact nodup_of_map _ hg

theorem sim_row (keyed : Bool) (tc : String × TabClass) (htc : tc ∈ schema) (row : List Cell)
    (hl : row.length = tc.2.fields.length) (s : MdbConn) (s' : MdbState) (hs : MdbSim cenv schema s s') :
    (mdbFileRow env cenv cf store keyed tc row s = none ∧ mdbInsertRow env cf store keyed tc row s' = none) ∨
      ∃ u u', mdbFileRow env cenv cf store keyed tc row s = some u ∧ mdbInsertRow env cf store keyed tc row s' = some u' ∧
        MdbSim cenv schema u u' := by
  unfold mdbFileRow mdbInsertRow
  have hcell : mapCells (mdbCell env cf store keyed tc.1) tc.2.fields row =
      (mapCells (mdbWriteCell env cf keyed tc.1) tc.2.fields row).bind (mapCells (store tc.1) tc.2.fields) :=
    mapCells_bind _ _ _ _
  rw [hcell]
  cases hws : mapCells (mdbWriteCell env cf keyed tc.1) tc.2.fields row with
  | none => exact .inl ⟨rfl, rfl⟩
  | some ws =>
    simp only [Option.bind_some]
    have hlw := mapCells_length _ _ _ _ hl hws
    obtain ⟨tab, h1, h2, h3⟩ := hs.live.tabs tc htc
    obtain ⟨ixs, hix⟩ := cols_some cenv tab h2 tc.2.fields h3.fields
    obtain ⟨hins, hsame⟩ := mdbInsert_seen cenv store tc.1 tc.2 tab h2 h3 (hf tc htc) ixs hix ws hlw
    rw [hs.eqLive, seen_get cenv schema (sim_names_nodup cenv schema hg hf) s.live tc htc tab h1 ixs hix]
    simp only [Option.bind_some]
    cases hi : tab.mdbInsert cenv store tc.1 tc.2.fields ws with
    | none =>
      rw [hi, Option.map_none] at hins
      refine .inl ⟨by rw [update_refused cenv tc.1 _ s.live tab h1 hi]; rfl, ?_⟩
      cases hv : mapCells (store tc.1) tc.2.fields ws with
      | none => rfl
      | some vs =>
        rw [hv, Option.bind_some] at hins
        rw [Option.bind_some, ← hins]
        rfl
    | some tab' =>
      rw [hi, Option.map_some] at hins
      obtain ⟨hc, hk⟩ := hsame tab' hi
      obtain ⟨live, g1, g2, g3, g4⟩ := seen_update cenv schema hg s.live hs.live tc htc _ tab h1 ixs hix tab' hi hc hk
      cases hv : mapCells (store tc.1) tc.2.fields ws with
      | none => rw [hv] at hins; cases hins
      | some vs =>
        rw [hv, Option.bind_some] at hins
        rw [g1, Option.map_some, Option.bind_some, ← hins, Option.map_some]
        refine .inr ⟨_, _, rfl, rfl, ?_⟩
        cases keyed with
        | true => exact ⟨g2, g2, g4.symm, g4.symm⟩
        | false => exact ⟨g2, hs.saved, g4.symm, hs.eqSaved⟩

theorem sim_rows (keyed : Bool) (tc : String × TabClass) (htc : tc ∈ schema) (rows : List (List Cell))
    (hl : ∀ r ∈ rows, r.length = tc.2.fields.length) (s : MdbConn) (s' : MdbState) (hs : MdbSim cenv schema s s') :
    (runSteps (mdbFileRow env cenv cf store keyed tc) rows s).2 = (runSteps (mdbInsertRow env cf store keyed tc) rows s').2 ∧
      MdbSim cenv schema (runSteps (mdbFileRow env cenv cf store keyed tc) rows s).1
        (runSteps (mdbInsertRow env cf store keyed tc) rows s').1 := by
  induction rows generalizing s s' with
  | nil => exact ⟨rfl, hs⟩
  | cons row rest ih =>
    unfold runSteps
    rcases sim_row env cenv cf store schema hg hf keyed tc htc row (hl _ List.mem_cons_self) s s' hs with
      ⟨h1, h2⟩ | ⟨u, u', h1, h2, h3⟩
    · rw [h1, h2]
      exact ⟨rfl, hs⟩
    · rw [h1, h2]
      exact ih (fun r hr => hl r (List.mem_cons_of_mem _ hr)) u u' h3

theorem sim_table (allow : Bool) (names : PyDict String String) (dat : PyDict String TabVal) (tc : String × TabClass)
    (htc : tc ∈ schema) (hw : ∃ tab, PyDict.get? dat tc.1 = some tab ∧ WellShaped tc.2 tab)
    (s : MdbConn) (s' : MdbState) (hs : MdbSim cenv schema s s') :
    (mdbFileTable env cenv cf store allow names dat tc s).2 = (mdbWriteTable env cf store allow names dat tc s').2 ∧
      MdbSim cenv schema (mdbFileTable env cenv cf store allow names dat tc s).1
        (mdbWriteTable env cf store allow names dat tc s').1 := by
  obtain ⟨dtab, hd, hsh⟩ := hw
  have hdn : tc.2.dfs.Nodup := by
    have := nodup_of_map _ (hf tc htc)
    unfold TabClass.fields at this
    exact (List.nodup_append.mp this).2.1
  unfold mdbFileTable mdbWriteTable
  by_cases hname : PyDict.get? names tc.1 ≠ some tc.1
  · rw [if_pos hname, if_pos hname]
    exact ⟨rfl, hs⟩
  rw [if_neg hname, if_neg hname]
  obtain ⟨tab, h1, h2, h3⟩ := hs.live.tabs tc htc
  obtain ⟨ixs, hix⟩ := cols_some cenv tab h2 tc.2.fields h3.fields
  have hget := seen_get cenv schema (sim_names_nodup cenv schema hg hf) s.live tc htc tab h1 ixs hix
  rw [← hs.eqLive] at hget
  have hempty : ((s.live.find cenv tc.1).map SqlTab.rows ≠ some []) ↔ PyDict.get? s'.live tc.1 ≠ some [] := by
    rw [h1, hget]
    simp
  by_cases hover : allow = false ∧ (s.live.find cenv tc.1).map SqlTab.rows ≠ some []
  · rw [if_pos hover, if_pos ⟨hover.1, hempty.1 hover.2⟩]
    exact ⟨rfl, hs⟩
  rw [if_neg hover, if_neg (fun h => hover ⟨h.1, hempty.2 h.2⟩)]
  rw [hd, Option.bind_some, flatRows_eq tc.2 hdn dtab hsh]
  unfold mdbFileEmpty
  cases allow with
  | false =>
    simp only [Bool.false_eq_true, if_false]
    exact sim_rows env cenv cf store schema hg hf dtab.isKeyed tc htc _ (tabRows_length tc.2 dtab hsh) s s' hs
  | true =>
    obtain ⟨live, g1, g2, g3, g4⟩ := seen_update cenv schema hg s.live hs.live tc htc
      (fun tab => some { tab with rows := [] }) tab h1 ixs hix { tab with rows := [] } rfl rfl rfl
    rw [g1]
    simp only [if_true, Option.map_some]
    refine sim_rows env cenv cf store schema hg hf dtab.isKeyed tc htc _ (tabRows_length tc.2 dtab hsh) ⟨live, live⟩ _ ?_
    have e : PyDict.set s'.live tc.1 [] = seen cenv schema live := by rw [g4, hs.eqLive]; rfl
    exact ⟨g2, g2, e, e⟩

theorem sim_tables (allow : Bool) (names : PyDict String String) (dat : PyDict String TabVal)
    (hw : ∀ tc ∈ schema, ∃ tab, PyDict.get? dat tc.1 = some tab ∧ WellShaped tc.2 tab)
    (rest : List (String × TabClass)) (hsub : ∀ tc ∈ rest, tc ∈ schema)
    (s : MdbConn) (s' : MdbState) (hs : MdbSim cenv schema s s') :
    (mdbFileTables env cenv cf store allow names dat rest s).2 = (mdbWriteTables env cf store allow names dat rest s').2 ∧
      MdbSim cenv schema (mdbFileTables env cenv cf store allow names dat rest s).1
        (mdbWriteTables env cf store allow names dat rest s').1 := by
  induction rest generalizing s s' with
  | nil => exact ⟨rfl, hs⟩
  | cons tc rest ih =>
    have htc := hsub tc List.mem_cons_self
    obtain ⟨h1, h2⟩ := sim_table env cenv cf store schema hg hf allow names dat tc htc (hw tc htc) s s' hs
    unfold mdbFileTables mdbWriteTables
    generalize mdbFileTable env cenv cf store allow names dat tc s = a at h1 h2
    generalize mdbWriteTable env cf store allow names dat tc s' = b at h1 h2
    obtain ⟨a1, a2⟩ := a
    obtain ⟨b1, b2⟩ := b
    simp only at h1 h2
    subst h1
    cases a2 with
    | true => exact ⟨rfl, h2⟩
    | false => exact ih (fun tc' h' => hsub tc' (List.mem_cons_of_mem _ h')) a1 b1 h2

end

theorem good_lower_nodup (cenv : CaseEnv) (schema : List (String × TabClass))
    (hg : goodTableNames cenv (schema.map (fun tc => tc.1.toList)) = true) :
    (schema.map (fun tc => cenv.lower tc.1.toList)).Nodup := by
  have := ((goodTableNames_iff cenv _).mp hg).2.2
  rw [List.map_map] at this
  exact this

theorem ready_of (cenv : CaseEnv) (schema : List (String × TabClass)) (file : SqlFile) (hwf : SqlFileWF cenv file)
    (ht : ∀ tc ∈ schema, ∃ tab, HasTable cenv file tc.1 tab ∧ MdbTakes cenv tc.2 tab) : MdbReady cenv schema file := by
  refine ⟨hwf.names, fun tc htc => ?_⟩
  obtain ⟨tab, ⟨⟨k, hk, hs⟩, _⟩, h2⟩ := ht tc htc
  exact ⟨tab, find_of_mem cenv file hwf.names k tab hk tc.1 hs, hwf.cols _ hk, h2⟩

theorem seen_keys (cenv : CaseEnv) (schema : List (String × TabClass)) (file : SqlFile) :
    PyDict.keys (seen cenv schema file) = schema.map Prod.fst := by
  unfold seen PyDict.keys
  rw [List.map_map]
  rfl

theorem seen_other (cenv : CaseEnv) (laws : CaseLaws cenv) (schema : List (String × TabClass))
    (hg : goodTableNames cenv (schema.map (fun tc => tc.1.toList)) = true) (file : SqlFile) :
    ∀ k ∈ PyDict.keys (seen cenv schema file), ∀ tc ∈ schema, unblank (cenv.lower k.toList) = cenv.lower tc.1.toList → k = tc.1 := by
  intro k hk tc htc h
  rw [seen_keys] at hk
  obtain ⟨tc', htc', rfl⟩ := List.mem_map.mp hk
  rw [unblank_of_no_blank _ (schema_lower_no_blank cenv laws schema hg tc' htc')] at h
  rw [inj_of_nodup_map (fun tc : String × TabClass => cenv.lower tc.1.toList) (good_lower_nodup cenv schema hg) htc' htc h]

/-- **C89, writing is as into a database of `write_schema`.**  If each table of the schema is in the database, with columns for its
fields, default values in its other columns and its primary key, in any order and spelling, then `write_file` raises just when it
does for a database that has only the tables and columns of the schema with the same contents, and what the schema sees of the
database afterwards is what is in that database afterwards. -/
theorem mdb_existing_refines (env : TextEnv) (cenv : CaseEnv) (laws : CaseLaws cenv) (cf : IOConf) (store : Store)
    (allowOverwrite : Bool) (schema : List (String × TabClass))
    (hg : goodTableNames cenv (schema.map (fun tc => tc.1.toList)) = true)
    (hf : ∀ tc ∈ schema, (tc.2.fields.map (fun f => cenv.lower f.toList)).Nodup)
    (dat : PyDict String TabVal) (hw : ∀ tc ∈ schema, ∃ tab, PyDict.get? dat tc.1 = some tab ∧ WellShaped tc.2 tab)
    (file : SqlFile) (hwf : SqlFileWF cenv file)
    (ht : ∀ tc ∈ schema, ∃ tab, HasTable cenv file tc.1 tab ∧ MdbTakes cenv tc.2 tab) :
    ∃ file' raised, mdbFileWrite env cenv cf store allowOverwrite schema dat file = (file', raised) ∧
      mdbWrite env cenv cf store allowOverwrite schema dat (seen cenv schema file) = (seen cenv schema file', raised) ∧
      MdbReady cenv schema file' := by
  have hb : ∀ tc ∈ schema, ' ' ∉ tc.1.toList := fun tc htc =>
    ((goodTableNames_iff cenv _).mp hg).2.1 _ (List.mem_map.mpr ⟨tc, htc, rfl⟩)
  have hr := ready_of cenv schema file hwf ht
  unfold mdbFileWrite mdbWrite
  rw [checkFields_ok cenv laws file hwf schema hb (fun tc htc => by
      obtain ⟨tab, h1, h2⟩ := ht tc htc
      exact ⟨tab, h1, h2.fields⟩),
    mdbNames_found cenv (seen cenv schema file) schema (fun tc htc =>
      sql_table_found cenv laws schema hg _ (seen_other cenv laws schema hg file) tc htc (by
        rw [seen_keys]; exact List.mem_map.mpr ⟨tc, htc, rfl⟩))]
  simp only
  obtain ⟨h1, h2⟩ := sim_tables env cenv cf store schema (good_lower_nodup cenv schema hg) hf allowOverwrite
    (schema.map (fun tc => (tc.1, tc.1))) dat hw schema (fun _ h => h) ⟨file, file⟩ ⟨seen cenv schema file, seen cenv schema file⟩
    ⟨hr, hr, rfl, rfl⟩
  generalize mdbFileTables env cenv cf store allowOverwrite (schema.map (fun tc => (tc.1, tc.1))) dat schema ⟨file, file⟩ = a at h1 h2
  generalize mdbWriteTables env cf store allowOverwrite (schema.map (fun tc => (tc.1, tc.1))) dat schema
    ⟨seen cenv schema file, seen cenv schema file⟩ = b at h1 h2
  obtain ⟨a1, a2⟩ := a
  obtain ⟨b1, b2⟩ := b
  simp only at h1 h2
  subst h1
  cases a2 with
  | true => exact ⟨a1.saved, true, rfl, by show (b1.saved, true) = _; rw [h2.eqSaved], h2.saved⟩
  | false => exact ⟨a1.live, false, rfl, by show (b1.live, false) = _; rw [h2.eqLive], h2.live⟩

/-! ### What a write never touches -/

theorem writtenOver_refl (cenv : CaseEnv) (schema : List (String × TabClass)) (file : SqlFile) : WrittenOver cenv schema file file := by
  unfold WrittenOver
  induction file with
  | nil => exact .nil
  | cons p rest ih => exact .cons ⟨rfl, rfl, rfl, fun _ => rfl, fun row h => .inl h⟩ ih

theorem writtenOver_trans (cenv : CaseEnv) (schema : List (String × TabClass)) (a b c : SqlFile)
    (h1 : WrittenOver cenv schema a b) (h2 : WrittenOver cenv schema b c) : WrittenOver cenv schema a c := by
  unfold WrittenOver at *
  induction h1 generalizing c with
  | nil => cases h2; exact .nil
  | cons hab _ ih =>
    cases h2 with
    | cons hbc hrest =>
      obtain ⟨a1, a2, a3, a4, a5⟩ := hab
      obtain ⟨b1, b2, b3, b4, b5⟩ := hbc
      refine .cons ⟨b1.trans a1, b2.trans a2, b3.trans a3, fun h => ?_, fun row hr => ?_⟩ (ih _ hrest)
      · rw [b4 (by rw [a1]; exact h), a4 h]
      · rcases b5 row hr with h | ⟨tc, htc, h3, h4, h5⟩
        · exact a5 row h
        · refine .inr ⟨tc, htc, by rw [← a1]; exact h3, by rw [← a2]; exact h4, ?_⟩
          unfold DefaultsIn at h5 ⊢
          rw [← a2]
          exact h5

theorem writtenOver_update (cenv : CaseEnv) (schema : List (String × TabClass)) (tc : String × TabClass) (htc : tc ∈ schema)
    (g : SqlTab → Option SqlTab)
    (hgt : ∀ tab tab', g tab = some tab' → tab'.cols = tab.cols ∧ tab'.key = tab.key ∧ ∀ row ∈ tab'.rows, row ∈ tab.rows ∨
      (row.length = tab.cols.length ∧ DefaultsIn cenv tab tc.2.fields row))
    (file file' : SqlFile) (h : file.update cenv tc.1 g = some file') : WrittenOver cenv schema file file' := by
  induction file generalizing file' with
  | nil => cases h
  | cons p rest ih =>
    unfold SqlFile.update at h
    split at h
    · rename_i hp
      rw [Option.map_eq_some_iff] at h
      obtain ⟨tab', h1, rfl⟩ := h
      obtain ⟨c1, c2, c3⟩ := hgt _ _ h1
      refine Pairwise2.cons ⟨rfl, c1, c2, fun hno => absurd hp (hno tc htc), fun row hr => ?_⟩ (writtenOver_refl cenv schema rest)
      rcases c3 row hr with h | ⟨h, h'⟩
      · exact .inl h
      · exact .inr ⟨tc, htc, hp, h, h'⟩
    · rw [Option.map_eq_some_iff] at h
      obtain ⟨r, h1, rfl⟩ := h
      exact Pairwise2.cons ⟨rfl, rfl, rfl, fun _ => rfl, fun row h => .inl h⟩ (ih r h1)

theorem mdbRow_defaults (cenv : CaseEnv) (store : Store) (t : String) (tab : SqlTab) (fields : List String) (ws row : List Cell)
    (h : tab.mdbRow cenv store t fields ws = some row) : row.length = tab.cols.length ∧ DefaultsIn cenv tab fields row := by
  unfold SqlTab.mdbRow at h
  have hm := (mapM_eq_some_iff _ _ _).mp h
  constructor
  · have := congrArg List.length hm
    simpa using this.symm
  · intro i c hi hno
    have hnone : (fields.zip ws).find? (fun p => decide (cenv.lower p.1.toList = cenv.lower c.name.toList)) = none := by
      rw [List.find?_eq_none]
      intro p hp hd
      exact hno p.1 (List.of_mem_zip hp).1 (show cenv.lower _ = cenv.lower _ from (of_decide_eq_true hd).symm)
    have h1 := congrArg (fun l => l[i]?) hm
    simp only [List.getElem?_map, hi, Option.map_some, hnone] at h1
    cases hr : row[i]? with
    | none => rw [hr] at h1; cases h1
    | some x =>
      rw [hr, Option.map_some, Option.some.injEq] at h1
      exact h1.symm

section
variable (env : TextEnv) (cenv : CaseEnv) (cf : IOConf) (store : Store) (schema : List (String × TabClass)) (file : SqlFile)

theorem local_rows (keyed : Bool) (tc : String × TabClass) (htc : tc ∈ schema) (rows : List (List Cell)) (s : MdbConn)
    (h1 : WrittenOver cenv schema file s.live) (h2 : WrittenOver cenv schema file s.saved) :
    WrittenOver cenv schema file (runSteps (mdbFileRow env cenv cf store keyed tc) rows s).1.live ∧
      WrittenOver cenv schema file (runSteps (mdbFileRow env cenv cf store keyed tc) rows s).1.saved := by
  induction rows generalizing s with
  | nil => exact ⟨h1, h2⟩
  | cons row rest ih =>
    unfold runSteps
    cases hr : mdbFileRow env cenv cf store keyed tc row s with
    | none => exact ⟨h1, h2⟩
    | some u =>
      unfold mdbFileRow at hr
      simp only [Option.bind_eq_some_iff, Option.map_eq_some_iff] at hr
      obtain ⟨ws, _, live, h3, h4⟩ := hr
      have hl := writtenOver_trans cenv schema _ _ _ h1 (writtenOver_update cenv schema tc htc _ (by
        intro tab tab' ht
        unfold SqlTab.mdbInsert at ht
        rw [Option.bind_eq_some_iff] at ht
        obtain ⟨row, h5, ht⟩ := ht
        split at ht
        · cases ht
        · cases ht
          refine ⟨rfl, rfl, fun r hr => ?_⟩
          rcases List.mem_append.mp hr with h | h
          · exact .inl h
          · rw [List.mem_singleton.mp h]
            exact .inr (mdbRow_defaults cenv store tc.1 tab tc.2.fields ws row h5)) _ _ h3)
      simp only
      subst h4
      cases keyed with
      | true => exact ih ⟨live, live⟩ hl hl
      | false => exact ih ⟨live, s.saved⟩ hl h2

theorem local_table (allow : Bool) (names : PyDict String String) (dat : PyDict String TabVal) (tc : String × TabClass)
    (htc : tc ∈ schema) (s : MdbConn)
    (h1 : WrittenOver cenv schema file s.live) (h2 : WrittenOver cenv schema file s.saved) :
    WrittenOver cenv schema file (mdbFileTable env cenv cf store allow names dat tc s).1.live ∧
      WrittenOver cenv schema file (mdbFileTable env cenv cf store allow names dat tc s).1.saved := by
  unfold mdbFileTable
  split
  · exact ⟨h1, h2⟩
  split
  · exact ⟨h1, h2⟩
  split
  · exact ⟨h1, h2⟩
  rename_i u hu
  have hboth : WrittenOver cenv schema file u.live ∧ WrittenOver cenv schema file u.saved := by
    unfold mdbFileEmpty at hu
    split at hu
    · rw [Option.map_eq_some_iff] at hu
      obtain ⟨live, h3, rfl⟩ := hu
      have hl := writtenOver_trans cenv schema _ _ _ h1 (writtenOver_update cenv schema tc htc _ (by
        intro tab tab' ht
        cases ht
        exact ⟨rfl, rfl, fun r hr => by cases hr⟩) _ _ h3)
      exact ⟨hl, hl⟩
    · cases hu
      exact ⟨h1, h2⟩
  split
  · exact hboth
  · exact local_rows env cenv cf store schema file _ tc htc _ u hboth.1 hboth.2

theorem local_tables (allow : Bool) (names : PyDict String String) (dat : PyDict String TabVal) (rest : List (String × TabClass))
    (hsub : ∀ tc ∈ rest, tc ∈ schema) (s : MdbConn)
    (h1 : WrittenOver cenv schema file s.live) (h2 : WrittenOver cenv schema file s.saved) :
    WrittenOver cenv schema file (mdbFileTables env cenv cf store allow names dat rest s).1.live ∧
      WrittenOver cenv schema file (mdbFileTables env cenv cf store allow names dat rest s).1.saved := by
  induction rest generalizing s with
  | nil => exact ⟨h1, h2⟩
  | cons tc rest ih =>
    have h := local_table env cenv cf store schema file allow names dat tc (hsub tc List.mem_cons_self) s h1 h2
    unfold mdbFileTables
    generalize mdbFileTable env cenv cf store allow names dat tc s = a at h
    obtain ⟨a1, a2⟩ := a
    cases a2 with
    | true => exact h
    | false => exact ih (fun tc' h' => hsub tc' (List.mem_cons_of_mem _ h')) a1 h.1 h.2

end

/-- **C89, what a write never touches.**  Whatever the database and the data, and whether it raises or not: `write_file` leaves all
tables there with their columns and keys, tables that are not in the schema with their rows, and puts default values into the
columns that are no fields of rows it adds. -/
theorem mdb_existing_local (env : TextEnv) (cenv : CaseEnv) (cf : IOConf) (store : Store) (allowOverwrite : Bool)
    (schema : List (String × TabClass)) (dat : PyDict String TabVal) (file : SqlFile) :
    WrittenOver cenv schema file (mdbFileWrite env cenv cf store allowOverwrite schema dat file).1 := by
  unfold mdbFileWrite
  cases file.checkFields cenv schema with
  | none => exact writtenOver_refl cenv schema file
  | some names =>
    simp only
    have h := local_tables env cenv cf store schema file allowOverwrite names dat schema (fun _ h => h) ⟨file, file⟩
      (writtenOver_refl cenv schema file) (writtenOver_refl cenv schema file)
    generalize mdbFileTables env cenv cf store allowOverwrite names dat schema ⟨file, file⟩ = a at h
    obtain ⟨a1, a2⟩ := a
    cases a2 with
    | true => exact h.2
    | false => exact h.1

/-! ### Reading what was written -/

theorem writtenOver_keys (cenv : CaseEnv) (schema : List (String × TabClass)) (a b : SqlFile) (h : WrittenOver cenv schema a b) :
    PyDict.keys b = PyDict.keys a := by
  unfold WrittenOver at h
  induction h with
  | nil => rfl
  | cons hp _ ih =>
    simp only [PyDict.keys, List.map_cons] at ih ⊢
    rw [hp.1, ih]

theorem tableName_keys (cenv : CaseEnv) (a b : SqlFile) (h : PyDict.keys b = PyDict.keys a) (t : String) :
    b.tableName cenv t = a.tableName cenv t := by
  have : ∀ f : SqlFile, f.map (fun p => (p.1, ([] : List (List Cell)))) = (PyDict.keys f).map (fun k => (k, [])) := by
    intro f
    unfold PyDict.keys
    rw [List.map_map]
    rfl
  unfold SqlFile.tableName
  rw [this, this, h]

theorem sqlSelect_seen (cenv : CaseEnv) (schema : List (String × TabClass))
    (hg : (schema.map (fun tc => cenv.lower tc.1.toList)).Nodup) (file : SqlFile)
    (tc : String × TabClass) (htc : tc ∈ schema) :
    sqlSelect cenv (seen cenv schema file) tc.1 =
      some (((file.find cenv tc.1).bind (fun tab => tab.select cenv tc.2.fields)).getD []) := by
  unfold sqlSelect seen
  generalize (fun tc : String × TabClass => ((file.find cenv tc.1).bind (fun tab => tab.select cenv tc.2.fields)).getD []) = g
  induction schema with
  | nil => cases htc
  | cons a rest ih =>
    rw [List.map_cons, List.nodup_cons] at hg
    rw [List.map_cons, List.find?_cons]
    by_cases e : cenv.lower a.1.toList = cenv.lower tc.1.toList
    · have : a = tc := by
        rcases List.mem_cons.mp htc with h | h
        · exact h.symm
        · exact absurd (List.mem_map.mpr ⟨tc, h, e.symm⟩) hg.1
      simp [this]
    · simp only [e, decide_false]
      rcases List.mem_cons.mp htc with h | h
      · rw [h] at e; exact absurd rfl e
      · exact ih hg.2 h

/-- Reading a database with a schema of its own is reading what the schema sees of it. -/
theorem mdbFileCreate_seen (env : TextEnv) (cenv : CaseEnv) (laws : CaseLaws cenv) (cf : IOConf) (policy : DupPolicy)
    (schema : List (String × TabClass)) (hg : goodTableNames cenv (schema.map (fun tc => tc.1.toList)) = true) (file : SqlFile)
    (hr : MdbReady cenv schema file) (hname : ∀ tc ∈ schema, file.tableName cenv tc.1 = some (some tc.1)) :
    mdbFileCreate env cenv cf policy schema file = mdbCreate env cenv cf policy schema (seen cenv schema file) := by
  rw [mdbFileCreate_eq env cenv cf policy schema (good_names_nodup cenv schema hg)]
  unfold readAll mdbCreate
  rw [mdbNames_found cenv (seen cenv schema file) schema (fun tc htc =>
      sql_table_found cenv laws schema hg _ (seen_other cenv laws schema hg file) tc htc (by
        rw [seen_keys]; exact List.mem_map.mpr ⟨tc, htc, rfl⟩)), Option.bind_some]
  rw [gather_congr _ (mdbFind env cenv cf (seen cenv schema file) (schema.map (fun tc => (tc.1, tc.1)))) schema]
  intro tc htc
  obtain ⟨tab, h1, h2, h3⟩ := hr.tabs tc htc
  obtain ⟨ixs, hix⟩ := cols_some cenv tab h2 tc.2.fields h3.fields
  unfold mdbFileFind mdbFind
  rw [hname tc htc, Option.bind_some, get?_self_names schema tc htc]
  simp only
  rw [sqlSelect_seen cenv schema (good_lower_nodup cenv schema hg) file tc htc]
  unfold mdbTabRows
  rw [h1]
  simp only [Option.bind_some]
  have hsel : tab.select cenv tc.2.fields = some (tab.rows.map (pick ixs)) := by simp [SqlTab.select, hix]
  rw [hsel]
  simp only [Option.bind_some, Option.getD_some, Option.map_map]
  rfl

theorem ready_same (cenv : CaseEnv) (schema : List (String × TabClass)) (a b : SqlFile) (hr : MdbReady cenv schema a)
    (h : SameSqlFile a b) : MdbReady cenv schema b := by
  refine ⟨by rw [same_keys a b h]; exact hr.names, fun tc htc => ?_⟩
  obtain ⟨tab, h1, h2, h3⟩ := hr.tabs tc htc
  obtain ⟨tab', g1, g2, g3, _⟩ := find_same cenv a b h tc.1 tab h1
  exact ⟨tab', g1, by rw [g2]; exact h2, ⟨by rw [g2]; exact h3.fields, by rw [g2]; exact h3.others, by rw [g3]; exact h3.keySub,
    by rw [g3]; exact h3.keySup⟩⟩

theorem seen_same (cenv : CaseEnv) (schema : List (String × TabClass)) (hn : (schema.map Prod.fst).Nodup) (a b : SqlFile)
    (hr : MdbReady cenv schema a) (h : SameSqlFile a b) : SameDb (seen cenv schema a) (seen cenv schema b) := by
  refine ⟨by rw [seen_keys, seen_keys], fun t rows ht => ?_⟩
  have hk : t ∈ PyDict.keys (seen cenv schema a) := by
    apply Classical.byContradiction
    intro hno
    rw [(PyDict.get?_eq_none _ _).mpr hno] at ht
    cases ht
  rw [seen_keys] at hk
  obtain ⟨tc, htc, rfl⟩ := List.mem_map.mp hk
  obtain ⟨tab, h1, h2, h3⟩ := hr.tabs tc htc
  obtain ⟨ixs, hix⟩ := cols_some cenv tab h2 tc.2.fields h3.fields
  obtain ⟨tab', g1, g2, _, g4⟩ := find_same cenv a b h tc.1 tab h1
  have hix' : tc.2.fields.mapM (tab'.col cenv) = some ixs := by
    rw [← hix]
    congr 1
    funext f
    unfold SqlTab.col
    rw [g2]
  rw [seen_get cenv schema hn a tc htc tab h1 ixs hix] at ht
  cases ht
  exact ⟨_, seen_get cenv schema hn b tc htc tab' g1 ixs hix', g4.map _⟩

/-- **C89, round trip.**  A data object written into an Access database with a schema of its own, and read from it, is the same up to
the order of the rows; provided that each table of the schema is there, with columns for its fields, default values in its other
columns and its primary key, and that the columns keep the cells. -/
theorem mdb_existing_round_trip (env : TextEnv) (hT : TextOK env) (cenv : CaseEnv) (laws : CaseLaws cenv) (cf : IOConf)
    (store : Store) (policy : DupPolicy) (allowOverwrite : Bool) (schema : List (String × TabClass))
    (hg : goodTableNames cenv (schema.map (fun tc => tc.1.toList)) = true)
    (hf : ∀ tc ∈ schema, (tc.2.fields.map (fun f => cenv.lower f.toList)).Nodup)
    (hbr : ∀ t f, typeOf cf.types t ("[" ++ f ++ "]") = none)
    (dat : PyDict String TabVal) (hk : PyDict.keys dat = schema.map Prod.fst)
    (hw : ∀ tc ∈ schema, ∀ tab, PyDict.get? dat tc.1 = some tab → WellShaped tc.2 tab)
    (hc : ∀ tc ∈ schema, ∀ tab, PyDict.get? dat tc.1 = some tab → ¬ IsParams cf.params tc.1 → ∀ f x,
      HasCell tc.2 tab f x → DbSafe env cf store (decide (tc.2.pks = [])) tc.1 f x)
    (hp : ∀ tab, PyDict.get? dat "parameters" = some tab → cf.params ≠ [] →
      ParamEntries (DbParam env cf.params store) tab)
    (file : SqlFile) (hwf : SqlFileWF cenv file)
    (ht : ∀ tc ∈ schema, ∃ tab, HasTable cenv file tc.1 tab ∧ MdbTakes cenv tc.2 tab ∧ (allowOverwrite = true ∨ tab.rows = [])) :
    ∃ file', mdbFileWrite env cenv cf store allowOverwrite schema dat file = (file', false) ∧
      ∀ file'', SameSqlFile file' file'' → ∃ dat2, mdbFileCreate env cenv cf policy schema file'' = some dat2 ∧
        SameUpToOrder dat dat2 := by
  have hn := good_names_nodup cenv schema hg
  have hb : ∀ tc ∈ schema, ' ' ∉ tc.1.toList := fun tc htc =>
    ((goodTableNames_iff cenv _).mp hg).2.1 _ (List.mem_map.mpr ⟨tc, htc, rfl⟩)
  have ht' : ∀ tc ∈ schema, ∃ tab, HasTable cenv file tc.1 tab ∧ MdbTakes cenv tc.2 tab := fun tc htc => by
    obtain ⟨tab, h1, h2, _⟩ := ht tc htc
    exact ⟨tab, h1, h2⟩
  obtain ⟨db, h1, _, h2⟩ := mdb_round_trip env hT cenv laws cf store policy allowOverwrite schema hg hf hbr dat hk hw hc hp
    (some (seen cenv schema file)) (by
      intro db e
      cases e
      refine ⟨by rw [seen_keys]; exact hn, fun tc htc => ?_, seen_other cenv laws schema hg file⟩
      obtain ⟨tab, ⟨⟨k, hkk, hs⟩, _⟩, g2, g3⟩ := ht tc htc
      obtain ⟨ixs, hix⟩ := cols_some cenv tab (hwf.cols _ hkk) tc.2.fields g2.fields
      refine ⟨_, seen_get cenv schema hn file tc htc tab (find_of_mem cenv file hwf.names k tab hkk tc.1 hs) ixs hix, ?_⟩
      rcases g3 with h | h
      · exact .inl h
      · exact .inr (by rw [h]; rfl))
  obtain ⟨file', raised, g1, g2, g3⟩ := mdb_existing_refines env cenv laws cf store allowOverwrite schema hg hf dat (fun tc htc => by
      have hin : tc.1 ∈ PyDict.keys dat := by rw [hk]; exact List.mem_map.mpr ⟨tc, htc, rfl⟩
      cases hx : PyDict.get? dat tc.1 with
      | none => exact absurd hin ((PyDict.get?_eq_none _ _).mp hx)
      | some tab => exact ⟨tab, rfl, hw tc htc tab hx⟩) file hwf ht'
  have h1 : mdbWrite env cenv cf store allowOverwrite schema dat (seen cenv schema file) = (db, false) := Option.some.inj h1
  rw [g2] at h1
  obtain ⟨e1, e2⟩ := Prod.mk.injEq .. ▸ h1
  subst e2
  refine ⟨file', g1, fun file'' hsame => ?_⟩
  have hloc := mdb_existing_local env cenv cf store allowOverwrite schema dat file
  rw [g1] at hloc
  have hkeys : PyDict.keys file'' = PyDict.keys file :=
    (same_keys file' file'' hsame).trans (writtenOver_keys cenv schema file file' hloc)
  rw [mdbFileCreate_seen env cenv laws cf policy schema hg file'' (ready_same cenv schema file' file'' g3 hsame) (fun tc htc => by
    obtain ⟨tab, g, _⟩ := ht tc htc
    rw [tableName_keys cenv file file'' hkeys, tableName_found cenv laws file tc.1 (hb tc htc) tab g])]
  exact h2 _ (by rw [← e1]; exact seen_same cenv schema hn file' file'' g3 hsame)

/-- **C89, every outcome.**  Under the same conditions on the tables, whatever the columns accept: a table of the schema shows what
it showed, or, if `allow_overwrite` was given or it was empty, the first so many rows of the data object, as stored; if the write
succeeds, all of them. -/
theorem mdb_existing_outcome (env : TextEnv) (cenv : CaseEnv) (laws : CaseLaws cenv) (cf : IOConf) (store : Store)
    (allowOverwrite : Bool) (schema : List (String × TabClass))
    (hg : goodTableNames cenv (schema.map (fun tc => tc.1.toList)) = true)
    (hf : ∀ tc ∈ schema, (tc.2.fields.map (fun f => cenv.lower f.toList)).Nodup)
    (dat : PyDict String TabVal) (hw : ∀ tc ∈ schema, ∃ tab, PyDict.get? dat tc.1 = some tab ∧ WellShaped tc.2 tab)
    (file : SqlFile) (hwf : SqlFileWF cenv file)
    (ht : ∀ tc ∈ schema, ∃ tab, HasTable cenv file tc.1 tab ∧ MdbTakes cenv tc.2 tab) :
    ∃ file' raised, mdbFileWrite env cenv cf store allowOverwrite schema dat file = (file', raised) ∧
      (∀ tc ∈ schema, PyDict.get? (seen cenv schema file') tc.1 = PyDict.get? (seen cenv schema file) tc.1 ∨
        ((allowOverwrite = true ∨ PyDict.get? (seen cenv schema file) tc.1 = some []) ∧ ∃ tab rows j,
          PyDict.get? dat tc.1 = some tab ∧ PyDict.get? (seen cenv schema file') tc.1 = some rows ∧
          StoredRows (mdbCell env cf store tab.isKeyed tc.1) tc.2.fields ((tabRows tab).take j) rows)) ∧
      (raised = false → ∀ tc ∈ schema, ∃ tab rows, PyDict.get? dat tc.1 = some tab ∧
        PyDict.get? (seen cenv schema file') tc.1 = some rows ∧
        StoredRows (mdbCell env cf store tab.isKeyed tc.1) tc.2.fields (tabRows tab) rows ∧
        (allowOverwrite = true ∨ PyDict.get? (seen cenv schema file) tc.1 = some [])) := by
  obtain ⟨file', raised, g1, g2, _⟩ := mdb_existing_refines env cenv laws cf store allowOverwrite schema hg hf dat hw file hwf ht
  obtain ⟨db', r, h1, _, h3, h4, _⟩ := mdb_write_outcome env cenv laws cf store allowOverwrite schema hg
    (fun tc htc => nodup_of_map _ (hf tc htc)) dat hw (seen cenv schema file) (seen_other cenv laws schema hg file)
  rw [g2] at h1
  obtain ⟨e1, e2⟩ := Prod.mk.injEq .. ▸ h1
  subst e1
  subst e2
  exact ⟨file', raised, g1, h3, h4⟩

/-! ### Non-vacuity -/

theorem foreignFile_mdb : ∀ tc ∈ sqlExampleSchema, ∃ tab, HasTable asciiEnv foreignFile tc.1 tab ∧ MdbTakes asciiEnv tc.2 tab ∧
    (true = true ∨ tab.rows = []) := by
  intro tc htc
  simp only [sqlExampleSchema, List.mem_cons, List.not_mem_nil, or_false] at htc
  rcases htc with rfl | rfl
  · refine ⟨⟨[⟨"cost", true, none⟩, ⟨"stamp", false, some .none⟩, ⟨"NAME", true, none⟩], ["name"], []⟩,
      ⟨⟨"Food_List", by simp [foreignFile], by unfold SqlSame; decide +kernel⟩, by unfold SqlSame; decide +kernel⟩, ⟨?_, ?_, ?_, ?_⟩, .inl rfl⟩
    · unfold SqlSame; decide +kernel
    · intro col hcol hno
      simp only [List.mem_cons, List.not_mem_nil, or_false] at hcol
      rcases hcol with rfl | rfl | rfl
      · exact absurd (by unfold SqlSame; decide +kernel) (hno "cost" (by decide))
      · exact ⟨_, rfl⟩
      · exact absurd (by unfold SqlSame; decide +kernel) (hno "name" (by decide))
    · unfold SqlSame; decide +kernel
    · unfold SqlSame; decide +kernel
  · refine ⟨⟨[⟨"id", true, some (.num (.fin 7))⟩, ⟨"Note", true, none⟩], [], [[.num (.fin 1), .str "old"]]⟩,
      ⟨⟨"LOG", by simp [foreignFile], by unfold SqlSame; decide +kernel⟩, by unfold SqlSame; decide +kernel⟩, ⟨?_, ?_, ?_, ?_⟩, .inl rfl⟩
    · unfold SqlSame; decide +kernel
    · intro col hcol hno
      simp only [List.mem_cons, List.not_mem_nil, or_false] at hcol
      rcases hcol with rfl | rfl
      · exact ⟨_, rfl⟩
      · exact absurd (by unfold SqlSame; decide +kernel) (hno "note" (by decide))
    · intro f hf; cases hf
    · intro k hk; cases hk

example : ∃ file', mdbFileWrite unaryText asciiEnv ⟨[], .num 1000, false, []⟩ finiteStore true sqlExampleSchema sqlExampleDat
      foreignFile = (file', false) ∧ ∀ file'', SameSqlFile file' file'' → ∃ dat2,
        mdbFileCreate unaryText asciiEnv ⟨[], .num 1000, false, []⟩ .assert sqlExampleSchema file'' = some dat2 ∧
        SameUpToOrder sqlExampleDat dat2 :=
  mdb_existing_round_trip unaryText unaryText_ok asciiEnv asciiLaws ⟨[], .num 1000, false, []⟩ finiteStore .assert true
    sqlExampleSchema (by decide +kernel) (by decide +kernel) (fun _ _ => rfl) sqlExampleDat rfl sqlExample_shape
    (fun tc htc tab hg hn f x hx => finiteStore_keeps 1000 rfl (sqlExample_cells false tc htc tab hg hn f x hx).1) (by simp)
    foreignFile foreignFile_wf foreignFile_mdb

/-- What is in the database afterwards. -/
example : mdbFileWrite unaryText asciiEnv ⟨[], .num 1000, false, []⟩ finiteStore true sqlExampleSchema sqlExampleDat foreignFile =
    ([("other", ⟨[⟨"x", false, none⟩], [], [[.str "kept"]]⟩),
      ("LOG", ⟨[⟨"id", true, some (.num (.fin 7))⟩, ⟨"Note", true, none⟩], [], [[.num (.fin 7), .str "a"],
        [.num (.fin 7), .none]]⟩),
      ("Food_List", ⟨[⟨"cost", true, none⟩, ⟨"stamp", false, some .none⟩, ⟨"NAME", true, none⟩], ["name"],
        [[.num (.fin 1000), .none, .str "it's"], [.bool true, .none, .str "egg"]]⟩)], false) := by
  rfl

example : ∃ file' raised, mdbFileWrite unaryText asciiEnv ⟨[], .num 1000, false, []⟩ finiteStore false sqlExampleSchema sqlExampleDat
      foreignFile = (file', raised) ∧ ∀ tc ∈ sqlExampleSchema,
      PyDict.get? (seen asciiEnv sqlExampleSchema file') tc.1 = PyDict.get? (seen asciiEnv sqlExampleSchema foreignFile) tc.1 ∨
      PyDict.get? (seen asciiEnv sqlExampleSchema foreignFile) tc.1 = some [] := by
  obtain ⟨file', raised, h1, h2, _⟩ := mdb_existing_outcome unaryText asciiEnv asciiLaws ⟨[], .num 1000, false, []⟩ finiteStore false
    sqlExampleSchema (by decide +kernel) (by decide +kernel) sqlExampleDat sqlExample_tables foreignFile foreignFile_wf
    (fun tc htc => by
      obtain ⟨tab, h1, h2, _⟩ := foreignFile_mdb tc htc
      exact ⟨tab, h1, h2⟩)
  refine ⟨file', raised, h1, fun tc htc => ?_⟩
  rcases h2 tc htc with h | ⟨h | h, _⟩
  · exact .inl h
  · cases h
  · exact .inr h

/-- A refused write may have changed the database: here the first table was filled before the second was found not to be empty. -/
theorem mdb_existing_refused_changes :
    (mdbFileWrite unaryText asciiEnv ⟨[], .num 1000, false, []⟩ finiteStore false sqlExampleSchema sqlExampleDat foreignFile).2 = true ∧
    PyDict.get? (seen asciiEnv sqlExampleSchema (mdbFileWrite unaryText asciiEnv ⟨[], .num 1000, false, []⟩ finiteStore false
      sqlExampleSchema sqlExampleDat foreignFile).1) "food_list" = some [[.str "it's", .num (.fin 1000)], [.str "egg", .bool true]] := by
  decide +kernel

end Ticdat

import Verif.Props.DbIO
/-!
# C65: Access files
-/
set_option linter.unusedSectionVars false
set_option linter.unusedSimpArgs false
namespace Ticdat
open Spec

/-! ### Rows -/

theorem storedRows_iff (W : String → Cell → Option Cell) (fields : List String) (rows stored : List (List Cell))
    (hl : ∀ r ∈ rows, r.length = fields.length) :
    rows.mapM (mapCells W fields) = some stored ↔ StoredRows W fields rows stored := by
  have hrow : ∀ (fields : List String) (row ws : List Cell), row.length = fields.length →
      (mapCells W fields row = some ws ↔ row.length = fields.length ∧ ws.length = fields.length ∧
        ∀ (i : Nat) f x w, fields[i]? = some f → row[i]? = some x → ws[i]? = some w → W f x = some w) := by
    intro fields
    induction fields with
    | nil =>
      intro row ws hlen
      have : row = [] := List.eq_nil_of_length_eq_zero hlen
      subst this
      cases ws with
      | nil => simp [mapCells]
      | cons a b => simp [mapCells]
    | cons f fields ih =>
      intro row ws hlen
      cases row with
      | nil => simp at hlen
      | cons x row =>
        have hlen' : row.length = fields.length := by simpa using hlen
        cases ws with
        | nil =>
          constructor
          · intro h
            simp only [mapCells, List.zip_cons_cons] at h
            rw [mapM_eq_some_iff] at h
            simp at h
          · rintro ⟨_, h, _⟩; simp at h
        | cons w ws =>
          have := ih row ws hlen'
          unfold mapCells at this ⊢
          rw [mapM_eq_some_iff] at this ⊢
          simp only [List.zip_cons_cons, List.map_cons, List.cons.injEq, List.length_cons]
          rw [this]
          constructor
          · rintro ⟨h1, h2, h3, h4⟩
            refine ⟨by omega, by omega, ?_⟩
            intro i f' x' w' a b c
            cases i with
            | zero => simp at a b c; subst a b c; exact h1
            | succ i => exact h4 i f' x' w' (by simpa using a) (by simpa using b) (by simpa using c)
          · rintro ⟨h1, h2, h3⟩
            refine ⟨h3 0 f x w rfl rfl rfl, hlen', by omega, ?_⟩
            intro i f' x' w' a b c
            exact h3 (i + 1) f' x' w' (by simpa using a) (by simpa using b) (by simpa using c)
  unfold StoredRows
  rw [mapM_eq_some_iff]
  induction rows generalizing stored with
  | nil =>
    cases stored with
    | nil => simp; exact .nil
    | cons a b =>
      simp
      intro h; cases h
  | cons r rows ih =>
    cases stored with
    | nil =>
      simp
      intro h; cases h
    | cons a b =>
      simp only [List.map_cons, List.cons.injEq]
      have h1 := ih b (fun r' h => hl r' (List.mem_cons_of_mem _ h))
      have h2 := hrow fields r a (hl r List.mem_cons_self)
      constructor
      · rintro ⟨h3, h4⟩; exact .cons (h2.mp h3) (h1.mp h4)
      · intro h
        cases h with
        | cons h3 h4 => exact ⟨h2.mpr h3, h1.mpr h4⟩

/-- The INSERTs of one table, whatever happens. -/
theorem mdb_rows_run (env : TextEnv) (cf : IOConf) (store : Store) (keyed : Bool) (tc : String × TabClass)
    (rows : List (List Cell)) (s : MdbState) (base : List (List Cell)) (hb : PyDict.get? s.live tc.1 = some base) :
    ∃ s' r j stored, runSteps (mdbInsertRow env cf store keyed tc) rows s = (s', r) ∧ j ≤ rows.length ∧
      (rows.take j).mapM (mapCells (mdbCell env cf store keyed tc.1) tc.2.fields) = some stored ∧
      PyDict.get? s'.live tc.1 = some (base ++ stored) ∧
      (∀ k, k ≠ tc.1 → PyDict.get? s'.live k = PyDict.get? s.live k) ∧
      ((PyDict.keys s.live).Nodup → (PyDict.keys s'.live).Nodup) ∧
      s'.saved = (if keyed = true ∧ j ≠ 0 then s'.live else s.saved) ∧ (r = false → j = rows.length) ∧
      (j = 0 → s' = s) := by
  induction rows generalizing s base with
  | nil =>
    refine ⟨s, false, 0, [], rfl, by simp, by simp, by simp [hb], by simp, id, by simp, by simp, by simp⟩
  | cons row rest ih =>
    unfold runSteps
    cases hstep : mdbInsertRow env cf store keyed tc row s with
    | none =>
      refine ⟨s, true, 0, [], rfl, by simp, by simp, by simp [hb], by simp, id, by simp, by simp, by simp⟩
    | some s1 =>
      unfold mdbInsertRow at hstep
      simp only [Option.bind_eq_some_iff, Option.map_eq_some_iff] at hstep
      obtain ⟨ws, hws, rows0, h0, rows1, h1, hs1⟩ := hstep
      rw [hb] at h0
      cases h0
      have hr1 : rows1 = base ++ [ws] := by
        unfold dbInsert at h1
        split at h1
        · cases h1
        · exact (Option.some.inj h1).symm
      subst hr1
      have hlive : s1.live = PyDict.set s.live tc.1 (base ++ [ws]) := by
        rw [← hs1]
        cases keyed <;> rfl
      have hsaved : s1.saved = if keyed = true then s1.live else s.saved := by
        rw [← hs1]
        cases keyed <;> rfl
      obtain ⟨s', r, j, stored, e1, e2, e3, e4, e5, e6, e7, e8, e9⟩ := ih s1 (base ++ [ws]) (by
        rw [hlive, PyDict.get?_set]; simp)
      refine ⟨s', r, j + 1, ws :: stored, e1, by simpa using e2, ?_, ?_, ?_, ?_, ?_, ?_, by simp⟩
      · rw [List.take_succ_cons, List.mapM_cons, hws, e3]; rfl
      · rw [e4]; simp
      · intro k hk
        rw [e5 k hk, hlive, PyDict.get?_set, if_neg (Ne.symm hk)]
      · intro hn
        apply e6
        rw [hlive]
        exact PyDict.keys_set_nodup _ _ _ hn
      · rw [e7, hsaved]
        cases keyed with
        | false => simp
        | true =>
          simp only [true_and, if_true, ne_eq, Nat.add_eq_zero_iff, Nat.succ_ne_self, and_false, not_false_eq_true]
          by_cases hj : j = 0
          · subst hj
            rw [e9 rfl]
            simp
          · simp [hj]
      · intro hr
        rw [List.length_cons, e8 hr]

/-- The INSERTs of one table succeed if the cells are stored and the keys are distinct. -/
theorem mdb_rows_ok (env : TextEnv) (cf : IOConf) (store : Store) (keyed : Bool) (tc : String × TabClass)
    (rows : List (List Cell)) (s : MdbState) (base stored : List (List Cell)) (hb : PyDict.get? s.live tc.1 = some base)
    (hs : rows.mapM (mapCells (mdbCell env cf store keyed tc.1) tc.2.fields) = some stored)
    (hn : tc.2.pks ≠ [] → ((base ++ stored).map (List.take tc.2.pks.length)).Nodup) :
    (runSteps (mdbInsertRow env cf store keyed tc) rows s).2 = false := by
  induction rows generalizing s base stored with
  | nil => rfl
  | cons row rest ih =>
    rw [List.mapM_cons] at hs
    cases hw : mapCells (mdbCell env cf store keyed tc.1) tc.2.fields row with
    | none => rw [hw] at hs; cases hs
    | some ws =>
      cases hr : rest.mapM (mapCells (mdbCell env cf store keyed tc.1) tc.2.fields) with
      | none => rw [hw, hr] at hs; cases hs
      | some stored' =>
        rw [hw, hr] at hs
        have hs : ws :: stored' = stored := Option.some.inj hs
        subst hs
        have hins : dbInsert tc.2.pks.length base ws = some (base ++ [ws]) := by
          unfold dbInsert
          rw [if_neg]
          rintro ⟨h1, h2⟩
          have hne : tc.2.pks ≠ [] := fun e => h1 (by simp [e])
          have := hn hne
          rw [List.map_append, List.map_cons, List.nodup_append] at this
          rw [List.any_eq_true] at h2
          obtain ⟨r', hr', he⟩ := h2
          exact this.2.2 _ (List.mem_map.mpr ⟨r', hr', rfl⟩) _ List.mem_cons_self (of_decide_eq_true he)
        unfold runSteps
        have hstep : ∃ s1, mdbInsertRow env cf store keyed tc row s = some s1 ∧
            PyDict.get? s1.live tc.1 = some (base ++ [ws]) := by
          refine ⟨_, by unfold mdbInsertRow; rw [hw, Option.bind_some, hb, Option.bind_some, hins]; rfl, ?_⟩
          cases keyed <;> simp [MdbState.commit, PyDict.get?_set]
        obtain ⟨s1, e1, e2⟩ := hstep
        rw [e1]
        exact ih s1 (base ++ [ws]) stored' e2 hr (fun h => by simpa using hn h)

/-! ### One table -/

/-- The rows of a prefix of the table, as stored. -/
def MdbSome (env : TextEnv) (cf : IOConf) (store : Store) (tc : String × TabClass) (tab : TabVal)
    (rows : List (List Cell)) : Prop :=
  ∃ j, ((tabRows tab).take j).mapM (mapCells (mdbCell env cf store tab.isKeyed tc.1) tc.2.fields) = some rows

/-- All rows of the table, as stored. -/
def MdbFull (env : TextEnv) (cf : IOConf) (store : Store) (tc : String × TabClass) (tab : TabVal)
    (rows : List (List Cell)) : Prop :=
  (tabRows tab).mapM (mapCells (mdbCell env cf store tab.isKeyed tc.1) tc.2.fields) = some rows

theorem MdbFull.some {env : TextEnv} {cf : IOConf} {store : Store} {tc : String × TabClass} {tab : TabVal}
    {rows : List (List Cell)} (h : MdbFull env cf store tc tab rows) : MdbSome env cf store tc tab rows :=
  ⟨(tabRows tab).length, by rw [List.take_length]; exact h⟩

theorem mdb_table_run (env : TextEnv) (cf : IOConf) (store : Store) (allow : Bool) (names : PyDict String String)
    (dat : PyDict String TabVal) (tc : String × TabClass) (hf : tc.2.fields.Nodup) (tab : TabVal)
    (hd : PyDict.get? dat tc.1 = some tab) (hw : WellShaped tc.2 tab) (s : MdbState)
    (hex : PyDict.get? names tc.1 = some tc.1 → ∃ old, PyDict.get? s.live tc.1 = some old)
    (hsl : PyDict.get? s.saved tc.1 = PyDict.get? s.live tc.1) :
    ∃ s' r, mdbWriteTable env cf store allow names dat tc s = (s', r) ∧
      (∀ k, k ≠ tc.1 → PyDict.get? s'.live k = PyDict.get? s.live k) ∧
      ((PyDict.keys s.live).Nodup → (PyDict.keys s'.live).Nodup) ∧
      (r = false → ∃ rows, PyDict.get? s'.live tc.1 = some rows ∧ MdbFull env cf store tc tab rows ∧
        (allow = true ∨ PyDict.get? s.live tc.1 = some []) ∧
        (tab.isKeyed = true → PyDict.get? s'.saved tc.1 = some rows)) ∧
      (s'.saved = s.saved ∨ ((allow = true ∨ PyDict.get? s.live tc.1 = some []) ∧
        (∀ k, k ≠ tc.1 → PyDict.get? s'.saved k = PyDict.get? s.live k) ∧
        ∃ rows, PyDict.get? s'.saved tc.1 = some rows ∧ MdbSome env cf store tc tab rows)) := by
  unfold mdbWriteTable
  by_cases hnm : PyDict.get? names tc.1 ≠ some tc.1
  · rw [if_pos hnm]
    exact ⟨s, true, rfl, by simp, id, by simp, .inl rfl⟩
  rw [if_neg hnm]
  by_cases hov : allow = false ∧ PyDict.get? s.live tc.1 ≠ some []
  · rw [if_pos hov]
    exact ⟨s, true, rfl, by simp, id, by simp, .inl rfl⟩
  rw [if_neg hov]
  have hdn : tc.2.dfs.Nodup := (List.nodup_append.mp hf).2.1
  have hdata : (PyDict.get? dat tc.1).bind (fun tab => (flatRows tc.2 tab).map (fun rows => (tab.isKeyed, rows))) =
      some (tab.isKeyed, tabRows tab) := by
    rw [hd, Option.bind_some, flatRows_eq tc.2 hdn tab hw]; rfl
  simp only [hdata]
  have hok : allow = true ∨ PyDict.get? s.live tc.1 = some [] := by
    cases allow with
    | true => exact .inl rfl
    | false => exact .inr (Classical.byContradiction (fun h => hov ⟨rfl, h⟩))
  cases allow with
  | false =>
    have hemp : PyDict.get? s.live tc.1 = some [] := by
      rcases hok with h | h
      · cases h
      · exact h
    simp only [Bool.false_eq_true, if_false]
    obtain ⟨s', r, j, stored, e1, e2, e3, e4, e5, e6, e7, e8, e9⟩ :=
      mdb_rows_run env cf store tab.isKeyed tc (tabRows tab) s [] hemp
    rw [List.nil_append] at e4
    refine ⟨s', r, e1, e5, e6, ?_, ?_⟩
    · intro hr
      have hj := e8 hr
      rw [hj, List.take_length] at e3
      refine ⟨stored, e4, e3, .inr hemp, fun hk => ?_⟩
      rw [e7]
      by_cases hj0 : j = 0
      · simp only [hk, hj0, ne_eq, not_true_eq_false, and_false, if_false]
        rw [hsl, hemp]
        rw [e9 hj0, hemp] at e4
        exact e4
      · simp only [hk, hj0, ne_eq, not_false_eq_true, and_self, if_true]
        exact e4
    · rw [e7]
      split
      · exact .inr ⟨.inr hemp, e5, stored, e4, j, e3⟩
      · exact .inl rfl
  | true =>
    simp only [if_true]
    have hcl : PyDict.get? (MdbState.commit { s with live := PyDict.set s.live tc.1 [] }).live tc.1 = some [] := by
      simp [MdbState.commit, PyDict.get?_set]
    obtain ⟨s', r, j, stored, e1, e2, e3, e4, e5, e6, e7, e8, e9⟩ :=
      mdb_rows_run env cf store tab.isKeyed tc (tabRows tab) _ [] hcl
    rw [List.nil_append] at e4
    have e5' : ∀ k, k ≠ tc.1 → PyDict.get? s'.live k = PyDict.get? s.live k := by
      intro k hk
      rw [e5 k hk]
      simp only [MdbState.commit]
      rw [PyDict.get?_set, if_neg (Ne.symm hk)]
    refine ⟨s', r, e1, e5', fun hn => e6 (PyDict.keys_set_nodup _ _ _ hn), ?_, ?_⟩
    · intro hr
      have hj := e8 hr
      rw [hj, List.take_length] at e3
      refine ⟨stored, e4, e3, .inl trivial, fun hk => ?_⟩
      rw [e7]
      by_cases hj0 : j = 0
      · rw [if_neg (fun h => h.2 hj0)]
        rw [e9 hj0] at e4
        exact e4
      · rw [if_pos ⟨hk, hj0⟩]
        exact e4
    · right
      refine ⟨.inl trivial, ?_, ?_⟩
      · intro k hk
        rw [e7]
        split
        · exact e5' k hk
        · simp only [MdbState.commit]
          rw [PyDict.get?_set, if_neg (Ne.symm hk)]
      · rw [e7]
        split
        · exact ⟨stored, e4, j, e3⟩
        · exact ⟨[], hcl, 0, by simp⟩

/-! ### All tables -/

/-- What the loop over the tables has done when it ends or is broken off. -/
theorem mdb_tables_run (env : TextEnv) (cf : IOConf) (store : Store) (allow : Bool) (names : PyDict String String)
    (dat : PyDict String TabVal) (schema : List (String × TabClass)) (hn : (schema.map Prod.fst).Nodup)
    (hf : ∀ tc ∈ schema, tc.2.fields.Nodup)
    (hw : ∀ tc ∈ schema, ∃ tab, PyDict.get? dat tc.1 = some tab ∧ WellShaped tc.2 tab) (s : MdbState)
    (hex : ∀ tc ∈ schema, PyDict.get? names tc.1 = some tc.1 → ∃ old, PyDict.get? s.live tc.1 = some old)
    (hsl : ∀ tc ∈ schema, PyDict.get? s.saved tc.1 = PyDict.get? s.live tc.1) :
    ∃ s' r, mdbWriteTables env cf store allow names dat schema s = (s', r) ∧
      (∀ k, k ∉ schema.map Prod.fst → PyDict.get? s'.live k = PyDict.get? s.live k) ∧
      ((PyDict.keys s.live).Nodup → (PyDict.keys s'.live).Nodup) ∧
      (r = false → ∀ tc ∈ schema, ∃ tab rows, PyDict.get? dat tc.1 = some tab ∧ PyDict.get? s'.live tc.1 = some rows ∧
        MdbFull env cf store tc tab rows ∧ (allow = true ∨ PyDict.get? s.live tc.1 = some [])) ∧
      (∀ k, k ∉ schema.map Prod.fst → PyDict.get? s'.saved k = PyDict.get? s.saved k ∨
        PyDict.get? s'.saved k = PyDict.get? s.live k) ∧
      (∀ tc ∈ schema, PyDict.get? s'.saved tc.1 = PyDict.get? s.live tc.1 ∨
        ((allow = true ∨ PyDict.get? s.live tc.1 = some []) ∧ ∃ tab rows, PyDict.get? dat tc.1 = some tab ∧
          PyDict.get? s'.saved tc.1 = some rows ∧ MdbSome env cf store tc tab rows)) ∧
      (r = true → ∃ pre tc post, schema = pre ++ tc :: post ∧
        (∀ tc' ∈ pre, ∀ tab, PyDict.get? dat tc'.1 = some tab → tab.isKeyed = true →
          ∃ rows, PyDict.get? s'.saved tc'.1 = some rows ∧ MdbFull env cf store tc' tab rows) ∧
        ∀ tc' ∈ post, PyDict.get? s'.saved tc'.1 = PyDict.get? s.live tc'.1) := by
  induction schema generalizing s with
  | nil => exact ⟨s, false, rfl, by simp, id, by simp, by simp, by simp, by simp⟩
  | cons tc rest ih =>
    rw [List.map_cons, List.nodup_cons] at hn
    obtain ⟨tab, hd, hws⟩ := hw tc List.mem_cons_self
    obtain ⟨s1, r1, e1, e2, e3, e4, e5⟩ := mdb_table_run env cf store allow names dat tc (hf tc List.mem_cons_self) tab hd
      hws s (hex tc List.mem_cons_self) (hsl tc List.mem_cons_self)
    have hne : ∀ tc' ∈ rest, tc'.1 ≠ tc.1 := fun tc' h e => hn.1 (List.mem_map.mpr ⟨tc', h, e⟩)
    have hsaved1 : ∀ tc' ∈ rest, PyDict.get? s1.saved tc'.1 = PyDict.get? s.live tc'.1 := by
      intro tc' h
      rcases e5 with h5 | ⟨_, h5, _⟩
      · rw [h5]; exact hsl tc' (List.mem_cons_of_mem _ h)
      · exact h5 _ (hne tc' h)
    have hhere : PyDict.get? s1.saved tc.1 = PyDict.get? s.live tc.1 ∨
        ((allow = true ∨ PyDict.get? s.live tc.1 = some []) ∧ ∃ tab rows, PyDict.get? dat tc.1 = some tab ∧
          PyDict.get? s1.saved tc.1 = some rows ∧ MdbSome env cf store tc tab rows) := by
      rcases e5 with h5 | ⟨h5, _, rows, h6, h7⟩
      · rw [h5]; exact .inl (hsl tc List.mem_cons_self)
      · exact .inr ⟨h5, tab, rows, hd, h6, h7⟩
    unfold mdbWriteTables
    rw [e1]
    cases r1 with
    | true =>
      refine ⟨s1, true, rfl, ?_, e3, by simp, ?_, ?_, fun _ => ⟨[], tc, rest, rfl, by simp, hsaved1⟩⟩
      · intro k hk
        rw [List.map_cons, List.mem_cons] at hk
        exact e2 k (fun e => hk (.inl e))
      · intro k hk
        rw [List.map_cons, List.mem_cons] at hk
        rcases e5 with h5 | ⟨_, h5, _⟩
        · rw [h5]; exact .inl rfl
        · exact .inr (h5 k (fun e => hk (.inl e)))
      · intro tc' htc'
        rcases List.mem_cons.mp htc' with rfl | htc'
        · exact hhere
        · exact .inl (hsaved1 tc' htc')
    | false =>
      obtain ⟨rows, h6, h7, h8, h9⟩ := e4 rfl
      obtain ⟨s', r, f1, f2, f3, f4, f5, f6, f7⟩ := ih hn.2 (fun tc' h => hf tc' (List.mem_cons_of_mem _ h))
        (fun tc' h => hw tc' (List.mem_cons_of_mem _ h)) s1
        (fun tc' h hx => by
          rw [e2 _ (hne tc' h)]
          exact hex tc' (List.mem_cons_of_mem _ h) hx)
        (fun tc' h => by rw [e2 _ (hne tc' h)]; exact hsaved1 tc' h)
      have hsv : PyDict.get? s'.saved tc.1 = PyDict.get? s1.saved tc.1 ∨ PyDict.get? s'.saved tc.1 = some rows := by
        rcases f5 tc.1 hn.1 with h | h
        · exact .inl h
        · exact .inr (by rw [h, h6])
      refine ⟨s', r, f1, ?_, fun h => f3 (e3 h), ?_, ?_, ?_, ?_⟩
      · intro k hk
        rw [List.map_cons, List.mem_cons] at hk
        rw [f2 k (fun h => hk (.inr h)), e2 k (fun e => hk (.inl e))]
      · intro hr tc' htc'
        rcases List.mem_cons.mp htc' with rfl | htc'
        · exact ⟨tab, rows, hd, by rw [f2 _ hn.1, h6], h7, h8⟩
        · obtain ⟨tab', rows', g1, g2, g3, g4⟩ := f4 hr tc' htc'
          rw [e2 _ (hne tc' htc')] at g4
          exact ⟨tab', rows', g1, g2, g3, g4⟩
      · intro k hk
        rw [List.map_cons, List.mem_cons] at hk
        rcases f5 k (fun h => hk (.inr h)) with h | h
        · rcases e5 with h5 | ⟨_, h5, _⟩
          · rw [h, h5]; exact .inl rfl
          · rw [h]; exact .inr (h5 k (fun e => hk (.inl e)))
        · rw [h]; exact .inr (e2 k (fun e => hk (.inl e)))
      · intro tc' htc'
        rcases List.mem_cons.mp htc' with rfl | htc'
        · rcases hsv with h | h
          · rw [h]; exact hhere
          · exact .inr ⟨h8, tab, rows, hd, h, h7.some⟩
        · have := f6 tc' htc'
          rw [e2 _ (hne tc' htc')] at this
          exact this
      · intro hr
        obtain ⟨pre, tc0, post, g1, g2, g3⟩ := f7 hr
        refine ⟨tc :: pre, tc0, post, by rw [g1]; rfl, ?_, ?_⟩
        · intro tc' htc' tab' hd' hk'
          rcases List.mem_cons.mp htc' with rfl | htc'
          · rw [hd] at hd'
            cases hd'
            refine ⟨rows, ?_, h7⟩
            rcases hsv with h | h
            · rw [h]; exact h9 hk'
            · exact h
          · exact g2 tc' htc' tab' hd' hk'
        · intro tc' htc'
          rw [g3 tc' htc', e2 _ (hne tc' (by rw [g1]; simp [htc']))]

/-! ### Names -/

theorem mdbNames_get (cenv : CaseEnv) (db : SqlDb) (schema : List (String × TabClass)) (names : PyDict String String)
    (h : mdbNames cenv db schema = some names) (t n : String) (hg : PyDict.get? names t = some n) :
    sqlTableName cenv db t = some (some n) := by
  induction schema generalizing names with
  | nil => cases h; cases hg
  | cons tc rest ih =>
    unfold mdbNames at h
    simp only [Option.bind_eq_some_iff, Option.map_eq_some_iff] at h
    obtain ⟨o, h1, r, h2, h3⟩ := h
    cases o with
    | none => simp only at h3; subst h3; exact ih r h2 hg
    | some m =>
      simp only at h3
      subst h3
      by_cases e : tc.1 = t
      · simp [PyDict.get?, e] at hg
        rw [← e, h1, hg]
      · simp [PyDict.get?, e] at hg
        exact ih r h2 (by simpa [PyDict.get?] using hg)

theorem sqlTableName_key (cenv : CaseEnv) (db : SqlDb) (t n : String) (h : sqlTableName cenv db t = some (some n)) :
    ∃ k ∈ PyDict.keys db, cenv.lower k.toList = cenv.lower n.toList := by
  unfold sqlTableName at h
  split at h
  · cases h
  · rename_i m hm
    have h : String.ofList m = n := by simpa using h
    have h1 : m ∈ (underscoreReplacements t.toList).filter (fun n =>
      db.any (fun p => decide (cenv.lower p.1.toList = cenv.lower n))) := by rw [hm]; simp
    rw [List.mem_filter, List.any_eq_true] at h1
    obtain ⟨_, p, hp, he⟩ := h1
    refine ⟨p.1, List.mem_map.mpr ⟨p, hp, rfl⟩, ?_⟩
    rw [of_decide_eq_true he, ← h]
    simp
  · cases h

theorem mdbNames_found (cenv : CaseEnv) (db : SqlDb) (schema : List (String × TabClass))
    (h : ∀ tc ∈ schema, sqlTableName cenv db tc.1 = some (some tc.1)) :
    mdbNames cenv db schema = some (schema.map (fun tc => (tc.1, tc.1))) := by
  induction schema with
  | nil => rfl
  | cons tc rest ih =>
    unfold mdbNames
    rw [h tc List.mem_cons_self, Option.bind_some, ih (fun tc' h' => h tc' (List.mem_cons_of_mem _ h'))]
    rfl

theorem get?_self_names (schema : List (String × TabClass)) (tc : String × TabClass) (h : tc ∈ schema) :
    PyDict.get? (schema.map (fun tc => (tc.1, tc.1))) tc.1 = some tc.1 := by
  induction schema with
  | nil => cases h
  | cons a rest ih =>
    by_cases e : a.1 = tc.1
    · simp [PyDict.get?, e]
    · rcases List.mem_cons.mp h with rfl | h
      · exact absurd rfl e
      · have := ih h
        simpa [PyDict.get?, e] using this

/-- A name of the schema has no blank in lower case either. -/
theorem schema_lower_no_blank (cenv : CaseEnv) (laws : CaseLaws cenv) (schema : List (String × TabClass))
    (hg : goodTableNames cenv (schema.map (fun tc => tc.1.toList)) = true) : ∀ tc ∈ schema, ' ' ∉ cenv.lower tc.1.toList := by
  intro tc htc h
  unfold CaseEnv.lower at h
  rw [List.mem_flatMap] at h
  obtain ⟨c, hc, h⟩ := h
  have := laws.lo_no_blank c h
  rw [this] at hc
  exact ((goodTableNames_iff cenv _).mp hg).2.1 _ (List.mem_map.mpr ⟨tc, htc, rfl⟩) hc

theorem names_nodup_of_good (cenv : CaseEnv) (schema : List (String × TabClass))
    (hg : goodTableNames cenv (schema.map (fun tc => tc.1.toList)) = true) : (schema.map Prod.fst).Nodup := by
  have hg' : goodTableNames cenv ((schema.map Prod.fst).map String.toList) = true := by
    rw [List.map_map]; exact hg
  exact nodup_of_map _ (nodup_of_map _ ((goodTableNames_iff cenv _).mp hg').2.2)

/-! ### What a write leaves, whether it succeeds or fails -/

/-- **C65, every outcome of `write_file`.**  Whatever the database accepts and refuses: tables that are not in the schema are
untouched; a table of the schema is as it was, or, if `allow_overwrite` was given or it was empty, holds the first so many
rows of the data object, as stored; if the write succeeds this holds of each table with all its rows; if it fails, it fails at some table, tables
with primary key before it are complete and tables after it are as they were. -/
theorem mdb_write_outcome (env : TextEnv) (cenv : CaseEnv) (laws : CaseLaws cenv) (cf : IOConf) (store : Store)
    (allowOverwrite : Bool) (schema : List (String × TabClass))
    (hg : goodTableNames cenv (schema.map (fun tc => tc.1.toList)) = true) (hf : ∀ tc ∈ schema, tc.2.fields.Nodup)
    (dat : PyDict String TabVal)
    (hw : ∀ tc ∈ schema, ∃ tab, PyDict.get? dat tc.1 = some tab ∧ WellShaped tc.2 tab)
    (db : SqlDb)
    (hother : ∀ k ∈ PyDict.keys db, ∀ tc ∈ schema, unblank (cenv.lower k.toList) = cenv.lower tc.1.toList → k = tc.1) :
    ∃ db' raised, mdbWrite env cenv cf store allowOverwrite schema dat db = (db', raised) ∧
      (∀ k, k ∉ schema.map Prod.fst → PyDict.get? db' k = PyDict.get? db k) ∧
      (∀ tc ∈ schema, PyDict.get? db' tc.1 = PyDict.get? db tc.1 ∨
        ((allowOverwrite = true ∨ PyDict.get? db tc.1 = some []) ∧ ∃ tab rows j, PyDict.get? dat tc.1 = some tab ∧
          PyDict.get? db' tc.1 = some rows ∧
          StoredRows (mdbCell env cf store tab.isKeyed tc.1) tc.2.fields ((tabRows tab).take j) rows)) ∧
      (raised = false → ∀ tc ∈ schema, ∃ tab rows, PyDict.get? dat tc.1 = some tab ∧ PyDict.get? db' tc.1 = some rows ∧
        StoredRows (mdbCell env cf store tab.isKeyed tc.1) tc.2.fields (tabRows tab) rows ∧
        (allowOverwrite = true ∨ PyDict.get? db tc.1 = some [])) ∧
      (raised = true → ∃ pre tc post, schema = pre ++ tc :: post ∧
        (PyDict.get? db' = PyDict.get? db ∨ ∀ tc' ∈ pre, ∀ tab, PyDict.get? dat tc'.1 = some tab → tab.isKeyed = true →
          ∃ rows, PyDict.get? db' tc'.1 = some rows ∧
            StoredRows (mdbCell env cf store true tc'.1) tc'.2.fields (tabRows tab) rows) ∧
        ∀ tc' ∈ post, PyDict.get? db' tc'.1 = PyDict.get? db tc'.1) := by
  have hnames := names_nodup_of_good cenv schema hg
  unfold mdbWrite
  cases hn : mdbNames cenv db schema with
  | none =>
    refine ⟨db, true, rfl, by simp, fun tc _ => .inl rfl, by simp, fun _ => ?_⟩
    cases schema with
    | nil => cases hn
    | cons tc rest => exact ⟨[], tc, rest, rfl, .inl rfl, fun tc' _ => rfl⟩
  | some names =>
    simp only
    have hlen : ∀ tc ∈ schema, ∀ tab, PyDict.get? dat tc.1 = some tab → ∀ r ∈ tabRows tab,
        r.length = tc.2.fields.length := by
      intro tc htc tab hd r hr
      obtain ⟨tab', h1, h2⟩ := hw tc htc
      rw [hd] at h1
      cases h1
      exact tabRows_length tc.2 tab h2 r hr
    obtain ⟨s', r, e1, e2, e3, e4, e5, e6, e7⟩ := mdb_tables_run env cf store allowOverwrite names dat schema hnames hf hw
      ⟨db, db⟩ (by
        intro tc htc hget
        obtain ⟨k, hk, he⟩ := sqlTableName_key cenv db tc.1 tc.1 (mdbNames_get cenv db schema names hn _ _ hget)
        have := hother k hk tc htc (by rw [he, unblank_of_no_blank _ (schema_lower_no_blank cenv laws schema hg tc htc)])
        rw [this] at hk
        cases hx : PyDict.get? db tc.1 with
        | none => exact absurd hk ((PyDict.get?_eq_none _ _).mp hx)
        | some old => exact ⟨old, rfl⟩) (fun _ _ => rfl)
    rw [e1]
    cases r with
    | true =>
      refine ⟨s'.saved, true, rfl, ?_, ?_, by simp, fun _ => ?_⟩
      · intro k hk
        rcases e5 k hk with h | h <;> exact h
      · intro tc htc
        rcases e6 tc htc with h | ⟨h1, tab, rows, h2, h3, j, h4⟩
        · exact .inl h
        · refine .inr ⟨h1, tab, rows, j, h2, h3, ?_⟩
          exact (storedRows_iff _ _ _ _ (fun r hr => hlen tc htc tab h2 r (List.mem_of_mem_take hr))).mp h4
      · obtain ⟨pre, tc, post, g1, g2, g3⟩ := e7 rfl
        refine ⟨pre, tc, post, g1, .inr ?_, g3⟩
        intro tc' htc' tab hd hk
        obtain ⟨rows, h1, h2⟩ := g2 tc' htc' tab hd hk
        refine ⟨rows, h1, ?_⟩
        have h2 := (storedRows_iff _ _ _ _ (fun r hr => hlen tc' (by rw [g1]; simp [htc']) tab hd r hr)).mp h2
        rw [hk] at h2
        exact h2
    | false =>
      have hfull : ∀ tc ∈ schema, ∃ tab rows, PyDict.get? dat tc.1 = some tab ∧ PyDict.get? s'.live tc.1 = some rows ∧
          StoredRows (mdbCell env cf store tab.isKeyed tc.1) tc.2.fields (tabRows tab) rows ∧
          (allowOverwrite = true ∨ PyDict.get? db tc.1 = some []) := by
        intro tc htc
        obtain ⟨tab, rows, h1, h2, h3, h4⟩ := e4 rfl tc htc
        exact ⟨tab, rows, h1, h2, (storedRows_iff _ _ _ _ (hlen tc htc tab h1)).mp h3, h4⟩
      refine ⟨s'.live, false, rfl, e2, ?_, ?_, by simp⟩
      · intro tc htc
        obtain ⟨tab, rows, h1, h2, h3, h4⟩ := hfull tc htc
        exact .inr ⟨h4, tab, rows, (tabRows tab).length, h1, h2, by rw [List.take_length]; exact h3⟩
      · exact fun _ => hfull

/-- Without `allow_overwrite` no row is ever lost: a table with rows has exactly these rows after the write, which fails if
the table is in the schema. -/
theorem mdb_no_overwrite (env : TextEnv) (cenv : CaseEnv) (laws : CaseLaws cenv) (cf : IOConf) (store : Store)
    (schema : List (String × TabClass))
    (hg : goodTableNames cenv (schema.map (fun tc => tc.1.toList)) = true) (hf : ∀ tc ∈ schema, tc.2.fields.Nodup)
    (dat : PyDict String TabVal)
    (hw : ∀ tc ∈ schema, ∃ tab, PyDict.get? dat tc.1 = some tab ∧ WellShaped tc.2 tab)
    (db : SqlDb)
    (hother : ∀ k ∈ PyDict.keys db, ∀ tc ∈ schema, unblank (cenv.lower k.toList) = cenv.lower tc.1.toList → k = tc.1)
    (t : String) (rows : List (List Cell)) (ht : PyDict.get? db t = some rows) (hr : rows ≠ []) :
    PyDict.get? (mdbWrite env cenv cf store false schema dat db).1 t = some rows ∧
      (t ∈ schema.map Prod.fst → (mdbWrite env cenv cf store false schema dat db).2 = true) := by
  obtain ⟨db', raised, h1, h2, h3, h4, _⟩ := mdb_write_outcome env cenv laws cf store false schema hg hf dat hw db hother
  rw [h1]
  by_cases hin : t ∈ schema.map Prod.fst
  · obtain ⟨tc, htc, rfl⟩ := List.mem_map.mp hin
    have hkeep : PyDict.get? db' tc.1 = some rows := by
      rcases h3 tc htc with h | ⟨h | h, _⟩
      · rw [h, ht]
      · cases h
      · rw [ht] at h; exact absurd (Option.some.inj h) hr
    refine ⟨hkeep, fun _ => ?_⟩
    cases raised with
    | true => rfl
    | false =>
      obtain ⟨_, _, _, _, _, h | h⟩ := h4 rfl tc htc
      · cases h
      · rw [ht] at h; exact absurd (Option.some.inj h) hr
  · exact ⟨by rw [h2 t hin, ht], fun h => absurd h hin⟩

/-! ### Cells -/

theorem handed_byNone {env : TextEnv} {cf : IOConf} {t f : String} {x w : Cell} (b b' : Bool) (hf : cf.flag ≠ .none)
    (h : Handed env cf b t f x w) : Handed env cf b' t f x w := by
  unfold Handed at *
  cases hfl : cf.flag with
  | none => exact absurd hfl hf
  | na => rw [hfl] at h; exact h
  | num q => rw [hfl] at h; exact h

theorem mdb_cell_survives {env : TextEnv} (hT : ∀ d, env.date (.str (env.text (.dt d))) = some d) (cf : IOConf)
    (store : Store) (keyed : Bool) (t f : String) (x : Cell) (hnp : ¬ IsParams cf.params t)
    (hbr : typeOf cf.types t (brackets f) = none) (h : DbSafe env cf store (!keyed) t f x) :
    ∃ w, mdbCell env cf store keyed t f x = some w ∧ readCell env cf t f w = some x := by
  cases keyed with
  | false => exact db_cell_survives hT cf store t f x hnp h
  | true =>
    by_cases hf : cf.flag = .none
    · have hw : mdbWriteCell env cf true t f x = some x := by
        unfold mdbWriteCell writeCell
        rw [if_neg (fun hh => hnp ⟨hh.2, hh.1⟩), hf]
        simp [infBias, hf, at_eq_typeOf, hbr]
      obtain ⟨hj, hk⟩ := h
      have hh : Handed env cf false t f x x := by
        unfold Handed
        rw [hf]
        exact .inr ⟨by simp, rfl⟩
      have hself : (∀ d, x ≠ .dt d) → readCell env cf t f x = some x := by
        intro hd
        by_cases hnum : ∃ y, x = .num y
        · obtain ⟨y, rfl⟩ := hnum
          exact readCell_num_self y hj
        · obtain ⟨w, h1, _, h3⟩ := json_cell_survives hT cf t f x hnp hj
          have h1 : writeCell env cf t f x = some w := by
            cases x with
            | dt d => exact absurd rfl (hd d)
            | _ => exact h1
          rcases writeCell_cases hnp _ _ h1 with e | ⟨_, z, _, e⟩ | ⟨_, pos, e, _⟩
          · rw [e] at h3; exact h3
          · exact absurd ⟨z, e⟩ hnum
          · exact absurd ⟨_, e⟩ hnum
      unfold mdbCell
      rw [hw, Option.bind_some]
      rcases hk x hh with h4 | ⟨d, w', e, h4, h5⟩
      · by_cases hd : ∃ d, x = .dt d
        · obtain ⟨d, rfl⟩ := hd
          exact ⟨.dt d, h4, read_kept_dt d hj _ (.inl rfl)⟩
        · exact ⟨x, h4, hself (fun d e => hd ⟨d, e⟩)⟩
      · subst e
        exact ⟨w', h4, read_kept_dt d hj _ h5⟩
    · have heq : writeCell env cf t (brackets f) x = writeCell env cf t f x := by
        unfold writeCell
        cases hfl : cf.flag with
        | none => exact absurd hfl hf
        | na => rfl
        | num q => rfl
      have := db_cell_survives hT cf store t f x hnp ⟨h.1, fun w hw => h.2 w (handed_byNone _ _ hf hw)⟩
      unfold mdbCell mdbWriteCell
      simp only [if_true, heq]
      exact this

/-! ### Round trips -/

theorem mdb_tables_ok (env : TextEnv) (cf : IOConf) (store : Store) (allow : Bool) (names : PyDict String String)
    (dat : PyDict String TabVal) (schema : List (String × TabClass)) (hn : (schema.map Prod.fst).Nodup)
    (hf : ∀ tc ∈ schema, tc.2.fields.Nodup) (s : MdbState)
    (hnm : ∀ tc ∈ schema, PyDict.get? names tc.1 = some tc.1)
    (hold : ∀ tc ∈ schema, ∃ old, PyDict.get? s.live tc.1 = some old ∧ (allow = true ∨ old = []))
    (hrows : ∀ tc ∈ schema, ∃ tab rows, PyDict.get? dat tc.1 = some tab ∧ WellShaped tc.2 tab ∧
      MdbFull env cf store tc tab rows ∧ (tc.2.pks ≠ [] → (rows.map (List.take tc.2.pks.length)).Nodup)) :
    (mdbWriteTables env cf store allow names dat schema s).2 = false := by
  induction schema generalizing s with
  | nil => rfl
  | cons tc rest ih =>
    rw [List.map_cons, List.nodup_cons] at hn
    obtain ⟨tab, rows, hd, hws, hfull, hkeys⟩ := hrows tc List.mem_cons_self
    obtain ⟨old, ho, hal⟩ := hold tc List.mem_cons_self
    have hdn : tc.2.dfs.Nodup := (List.nodup_append.mp (hf tc List.mem_cons_self)).2.1
    have hdata : (PyDict.get? dat tc.1).bind (fun tab => (flatRows tc.2 tab).map (fun rows => (tab.isKeyed, rows))) =
        some (tab.isKeyed, tabRows tab) := by
      rw [hd, Option.bind_some, flatRows_eq tc.2 hdn tab hws]; rfl
    have hne : ∀ tc' ∈ rest, tc'.1 ≠ tc.1 := fun tc' h e => hn.1 (List.mem_map.mpr ⟨tc', h, e⟩)
    have hstep : ∃ s1, mdbWriteTable env cf store allow names dat tc s = (s1, false) ∧
        ∀ k, k ≠ tc.1 → PyDict.get? s1.live k = PyDict.get? s.live k := by
      have hbase : ∀ s0 : MdbState, PyDict.get? s0.live tc.1 = some [] →
          (∀ k, k ≠ tc.1 → PyDict.get? s0.live k = PyDict.get? s.live k) →
          ∃ s1, runSteps (mdbInsertRow env cf store tab.isKeyed tc) (tabRows tab) s0 = (s1, false) ∧
            ∀ k, k ≠ tc.1 → PyDict.get? s1.live k = PyDict.get? s.live k := by
        intro s0 h0 h1
        have h2 := mdb_rows_ok env cf store tab.isKeyed tc (tabRows tab) s0 [] rows h0 hfull (fun h => hkeys h)
        obtain ⟨s', r, j, stored, e1, _, _, _, e5, _⟩ := mdb_rows_run env cf store tab.isKeyed tc (tabRows tab) s0 [] h0
        rw [e1] at h2
        have h2 : r = false := h2
        subst h2
        exact ⟨s', e1, fun k hk => by rw [e5 k hk, h1 k hk]⟩
      unfold mdbWriteTable
      rw [if_neg (by rw [hnm tc List.mem_cons_self]; simp), if_neg (by
        rintro ⟨h1, h2⟩
        rcases hal with h | h
        · rw [h1] at h; cases h
        · rw [ho, h] at h2; exact h2 rfl)]
      simp only [hdata]
      cases allow with
      | true =>
        simp only [if_true]
        refine hbase _ (by simp [MdbState.commit, PyDict.get?_set]) (fun k hk => ?_)
        simp only [MdbState.commit]
        rw [PyDict.get?_set, if_neg (Ne.symm hk)]
      | false =>
        simp only [Bool.false_eq_true, if_false]
        refine hbase s ?_ (fun k hk => rfl)
        rcases hal with h | h
        · cases h
        · rw [ho, h]
    obtain ⟨s1, e1, e2⟩ := hstep
    unfold mdbWriteTables
    rw [e1]
    exact ih hn.2 (fun tc' h => hf tc' (List.mem_cons_of_mem _ h)) s1 (fun tc' h => hnm tc' (List.mem_cons_of_mem _ h))
      (fun tc' h => by
        obtain ⟨old', h1, h2⟩ := hold tc' (List.mem_cons_of_mem _ h)
        exact ⟨old', by rw [e2 _ (hne tc' h), h1], h2⟩)
      (fun tc' h => hrows tc' (List.mem_cons_of_mem _ h))

/-- **C65, round trip.**  A data object written to an Access file, a new one or one with the tables of the schema and perhaps
others, and read from it is the same up to the order of the rows; other tables stay as they are; provided that the file
keeps the cells, as spelled out in `DbSafe` (in a table with primary key, an infinity itself under the flag `None`) and
`DbParam`. -/
theorem mdb_round_trip (env : TextEnv) (hT : TextOK env) (cenv : CaseEnv) (laws : CaseLaws cenv) (cf : IOConf)
    (store : Store) (policy : DupPolicy) (allowOverwrite : Bool) (schema : List (String × TabClass))
    (hg : goodTableNames cenv (schema.map (fun tc => tc.1.toList)) = true)
    (hf : ∀ tc ∈ schema, (tc.2.fields.map (fun f => cenv.lower f.toList)).Nodup)
    (hbr : ∀ t f, typeOf cf.types t ("[" ++ f ++ "]") = none)
    (dat : PyDict String TabVal) (hk : PyDict.keys dat = schema.map Prod.fst)
    (hw : ∀ tc ∈ schema, ∀ tab, PyDict.get? dat tc.1 = some tab → WellShaped tc.2 tab)
    (hc : ∀ tc ∈ schema, ∀ tab, PyDict.get? dat tc.1 = some tab → ¬ IsParams cf.params tc.1 → ∀ f x,
      HasCell tc.2 tab f x → DbSafe env cf store (decide (tc.2.pks = [])) tc.1 f x)
    (hp : ∀ tab, PyDict.get? dat "parameters" = some tab → cf.params ≠ [] →
      ParamEntries (DbParam env cf.params store) tab)
    (old : Option SqlDb)
    (hold : ∀ db, old = some db → (PyDict.keys db).Nodup ∧
      (∀ tc ∈ schema, ∃ rows, PyDict.get? db tc.1 = some rows ∧ (allowOverwrite = true ∨ rows = [])) ∧
      ∀ k ∈ PyDict.keys db, ∀ tc ∈ schema, unblank (cenv.lower k.toList) = cenv.lower tc.1.toList → k = tc.1) :
    ∃ db, mdbWriteFile env cenv cf store allowOverwrite schema dat old = some (db, false) ∧
      (∀ db0, old = some db0 → ∀ k, (∀ tc ∈ schema, k ≠ tc.1) → PyDict.get? db k = PyDict.get? db0 k) ∧
      ∀ db', SameDb db db' → ∃ dat2, mdbCreate env cenv cf policy schema db' = some dat2 ∧ SameUpToOrder dat dat2 := by
  have hff : ∀ tc ∈ schema, tc.2.fields.Nodup := fun tc htc => nodup_of_map _ (hf tc htc)
  have hnames := names_nodup_of_good cenv schema hg
  have hb := schema_lower_no_blank cenv laws schema hg
  obtain ⟨db0, h1, h2, h3, h5, h6⟩ : ∃ db0, sqlOpen cenv schema old = some db0 ∧
      (PyDict.keys db0).Nodup ∧
      (∀ tc ∈ schema, ∃ rows, PyDict.get? db0 tc.1 = some rows ∧ (allowOverwrite = true ∨ rows = [])) ∧
      (∀ k ∈ PyDict.keys db0, ∀ tc ∈ schema, unblank (cenv.lower k.toList) = cenv.lower tc.1.toList → k = tc.1) ∧
      ∀ db, old = some db → db0 = db := by
    cases old with
    | none =>
      obtain ⟨db0, h1, h2, h3, _, h5⟩ := sql_new_db cenv laws schema hg hf
      exact ⟨db0, h1, h2, fun tc htc => ⟨[], h3 tc htc, .inr rfl⟩, h5, by simp⟩
    | some db =>
      obtain ⟨h1, h2, h3⟩ := hold db rfl
      exact ⟨db, rfl, h1, h2, h3, fun db' e => Option.some.inj e⟩
  have hkeyed : ∀ tc ∈ schema, keyedIn schema tc.1 = decide (tc.2.pks ≠ []) := by
    intro tc htc
    unfold keyedIn
    rw [PyDict.get?_of_mem hnames (show (tc.1, tc.2) ∈ schema from htc)]
    rfl
  obtain ⟨dat', hk', hpost, hrel⟩ := params_view env cf.params (dbParamCell store) schema hnames hff dat hk hw
    (fun t f x y => ∃ w, mdbCell env cf store (keyedIn schema t) t f x = some w ∧ readCell env cf t f w = some y)
    (fun tc htc tab hget hnp f x hx => by
      refine mdb_cell_survives hT.dt cf store _ tc.1 f x hnp (hbr tc.1 f) ?_
      have := hc tc htc tab hget hnp f x hx
      rw [hkeyed tc htc]
      by_cases e : tc.2.pks = [] <;> simpa [e] using this)
    (DbParam env cf.params store) hp
    (by
      intro hpar f f' k v hkv
      obtain ⟨h7, h8, h9⟩ := db_param_survives hT cf.params store k v hkv
      have hkn : k ≠ .nan := by
        rcases hkv.1 with ⟨s, rfl⟩ | ⟨s, rfl⟩ | ⟨s, rfl⟩ <;> simp
      refine ⟨⟨k, ?_, by simp [readCell]⟩, ⟨dbParamCell store v, ?_, by simp [readCell]⟩, h9⟩
      · unfold mdbCell mdbWriteCell
        rw [writeCell_param hpar _ k hkn, Option.bind_some, hkv.2.1]
      · unfold mdbCell mdbWriteCell
        rw [writeCell_param hpar _ v h7, Option.bind_some, h8])
  have hrows : ∀ tc ∈ schema, ∃ tab rows tab', PyDict.get? dat tc.1 = some tab ∧ WellShaped tc.2 tab ∧
      MdbFull env cf store tc tab rows ∧ (tc.2.pks ≠ [] → (rows.map (List.take tc.2.pks.length)).Nodup) ∧
      PyDict.get? dat' tc.1 = some tab' ∧ WellShaped tc.2 tab' ∧
      rows.mapM (mapCells (readCell env cf tc.1) tc.2.fields) = some (tabRows tab') := by
    intro tc htc
    obtain ⟨tab, tab', g1, g2, g3, g4, g5⟩ := hrel tc htc
    rw [hkeyed tc htc] at g5
    rw [← isKeyed_of_shape tc.2 tab g3] at g5
    obtain ⟨rows, g6, g7, g8⟩ := db_table (mdbCell env cf store tab.isKeyed tc.1) (readCell env cf tc.1) tc.2 tab tab' g4 g5
    exact ⟨tab, rows, tab', g1, g3, g6, g8, g2, g4, g7⟩
  have hfound : ∀ tc ∈ schema, sqlTableName cenv db0 tc.1 = some (some tc.1) := by
    intro tc htc
    obtain ⟨rows, h10, _⟩ := h3 tc htc
    refine sql_table_found cenv laws schema hg db0 h5 tc htc ?_
    refine Classical.byContradiction (fun hno => ?_)
    rw [(PyDict.get?_eq_none _ _).mpr hno] at h10
    cases h10
  have hnm := mdbNames_found cenv db0 schema hfound
  have hok := mdb_tables_ok env cf store allowOverwrite _ dat schema hnames hff ⟨db0, db0⟩
    (fun tc htc => get?_self_names schema tc htc) h3 (fun tc htc => by
      obtain ⟨tab, rows, _, g1, g2, g3, g4, _⟩ := hrows tc htc
      exact ⟨tab, rows, g1, g2, g3, g4⟩)
  obtain ⟨s', r, e1, e2, e3, e4, _⟩ := mdb_tables_run env cf store allowOverwrite
    (schema.map (fun tc => (tc.1, tc.1))) dat schema hnames hff (fun tc htc => by
      obtain ⟨tab, _, _, g1, g2, _⟩ := hrows tc htc
      exact ⟨tab, g1, g2⟩) ⟨db0, db0⟩ (fun tc htc _ => by
      obtain ⟨rows, g, _⟩ := h3 tc htc
      exact ⟨rows, g⟩) (fun _ _ => rfl)
  rw [e1] at hok
  have hok : r = false := hok
  subst hok
  have hkeep : ∀ k, (∀ tc ∈ schema, k ≠ tc.1) → PyDict.get? s'.live k = PyDict.get? db0 k := by
    intro k hk
    apply e2 k
    intro h
    obtain ⟨tc, htc, e⟩ := List.mem_map.mp h
    exact hk tc htc e.symm
  refine ⟨s'.live, ?_, ?_, ?_⟩
  · unfold mdbWriteFile
    rw [h1, Option.map_some]
    unfold mdbWrite
    rw [hnm]
    simp only [e1]
  · intro db1 e k hk
    rw [hkeep k hk, h6 db1 e]
  · intro db'' hsame
    have hkn : (PyDict.keys db'').Nodup := hsame.1.nodup_iff.mpr (e3 h2)
    have hother'' : ∀ k ∈ PyDict.keys db'', ∀ tc ∈ schema, unblank (cenv.lower k.toList) = cenv.lower tc.1.toList →
        k = tc.1 := by
      intro k hk tc htc he
      have hk := hsame.1.mem_iff.mp hk
      apply h5 k ?_ tc htc he
      by_cases hin : ∀ tc' ∈ schema, k ≠ tc'.1
      · refine Classical.byContradiction (fun hno => ?_)
        have h9 := hkeep k hin
        rw [(PyDict.get?_eq_none _ _).mpr hno] at h9
        exact (PyDict.get?_eq_none _ _).mp h9 hk
      · obtain ⟨tc', htc', e⟩ : ∃ tc' ∈ schema, k = tc'.1 :=
          Classical.byContradiction (fun hno => hin (fun tc' h e => hno ⟨tc', h, e⟩))
        rw [e]
        obtain ⟨rows, g, _⟩ := h3 tc' htc'
        refine Classical.byContradiction (fun hno => ?_)
        rw [(PyDict.get?_eq_none _ _).mpr hno] at g
        cases g
    have hcell : ∀ tc ∈ schema, ∃ rows'' rows tab', PyDict.get? db'' tc.1 = some rows'' ∧ List.Perm rows'' rows ∧
        PyDict.get? dat' tc.1 = some tab' ∧ WellShaped tc.2 tab' ∧
        rows.mapM (mapCells (readCell env cf tc.1) tc.2.fields) = some (tabRows tab') := by
      intro tc htc
      obtain ⟨tab, rows, g1, g2, g3, _⟩ := e4 rfl tc htc
      obtain ⟨tab2, rows2, tab', k1, _, k3, _, k5, k6, k7⟩ := hrows tc htc
      rw [g1] at k1
      cases k1
      unfold MdbFull at g3 k3
      rw [g3] at k3
      cases k3
      obtain ⟨rows'', g4, g5⟩ := hsame.2 tc.1 rows g2
      exact ⟨rows'', rows, tab', g4, g5, k5, k6, k7⟩
    have hin'' : ∀ tc ∈ schema, tc.1 ∈ PyDict.keys db'' := by
      intro tc htc
      obtain ⟨rows'', _, _, g, _⟩ := hcell tc htc
      refine Classical.byContradiction (fun hno => ?_)
      rw [(PyDict.get?_eq_none _ _).mpr hno] at g
      cases g
    have hnm'' := mdbNames_found cenv db'' schema (fun tc htc =>
      sql_table_found cenv laws schema hg db'' hother'' tc htc (hin'' tc htc))
    obtain ⟨dat2, g1, g2⟩ := db_read env cf.params (readCell env cf) policy schema hnames hff dat' hk'
      (mdbFind env cenv cf db'' (schema.map (fun tc => (tc.1, tc.1)))) (by
        intro tc htc
        obtain ⟨rows'', rows, tab', g1, g2, g3, g4, g5⟩ := hcell tc htc
        refine ⟨rows'', rows, tab', ?_, g2, g3, g4, g5⟩
        unfold mdbFind
        rw [get?_self_names schema tc htc]
        simp only [sql_select_found cenv schema db'' hkn hb hother'' tc htc rows'' g1, Option.bind_some])
    refine ⟨dat2, ?_, ?_⟩
    · unfold mdbCreate
      rw [hnm'', Option.bind_some]
      exact g1
    · rw [hpost] at g2
      exact g2

/-! ### Where the code falls short -/

/-- Finding: under `infinity_io_flag = None` the cells of a table with primary key are handed to the database as they are,
infinities included, because the type of a field is looked up under its name in brackets. -/
theorem mdb_none_flag_keyed (env : TextEnv) (cf : IOConf) (t f : String) (x : Cell) (hf : cf.flag = .none)
    (hnp : ¬ IsParams cf.params t) (hbr : typeOf cf.types t ("[" ++ f ++ "]") = none) :
    mdbWriteCell env cf true t f x = some x := by
  have hbr : typeOf cf.types t (brackets f) = none := hbr
  unfold mdbWriteCell writeCell
  rw [if_neg (fun hh => hnp ⟨hh.2, hh.1⟩), hf]
  simp [infBias, hf, at_eq_typeOf, hbr]

/-- A database whose columns hold finite numbers only. -/
def finiteStore : Store := fun _ _ w => if w = .num .pinf ∨ w = .num .ninf then none else some w

/-- The type of the field `cost`: nonnegative numbers and infinity. -/
def costType : TypeDict := ⟨true, true, true, .fin 0, .pinf, false, .oneOf [], false, false⟩

def costConf : IOConf := ⟨[("t", [("cost", costType)])], .none, false, []⟩

/-- Finding: so a table with primary key and an infinity cannot be written to such a database, while the same rows can be
written to a table without primary key. -/
theorem mdb_none_flag_fails :
    (mdbWrite unaryText asciiEnv costConf finiteStore true [("t", ⟨["k"], ["cost"], [("cost", .num (.fin 0))]⟩)]
      [("t", .keyed [(.one (.str "a"), [("cost", .num .pinf)])])] [("t", [])] = ([("t", [])], true)) ∧
    (mdbWrite unaryText asciiEnv costConf finiteStore true [("t", ⟨[], ["k", "cost"], [("k", .num (.fin 0)),
        ("cost", .num (.fin 0))]⟩)]
      [("t", .plain [[("k", .str "a"), ("cost", .num .pinf)]])] [("t", [])] =
        ([("t", [[.str "a", .none]])], false)) := by
  decide +kernel

/-- Finding: a write that is refused because a table has rows and `allow_overwrite` was not given may have written other
tables. -/
theorem mdb_refused_write_changes :
    mdbWrite unaryText asciiEnv ⟨[], .num 1000, false, []⟩ finiteStore false sqlExampleSchema sqlExampleDat
      [("food_list", []), ("log", [[.str "old"]])] =
    ([("food_list", [[.str "it's", .num (.fin 1000)], [.str "egg", .bool true]]), ("log", [[.str "old"]])], true) := by
  decide +kernel

/-! ### Non-vacuity -/

theorem finiteStore_keeps {env : TextEnv} {cf : IOConf} {b : Bool} {t f : String} {x : Cell} (q : Int)
    (hq : cf.flag = .num q) (hj : JsonSafe env cf t f x) : DbSafe env cf finiteStore b t f x := by
  refine ⟨hj, fun w hw => .inl ?_⟩
  unfold Handed at hw
  rw [hq] at hw
  obtain ⟨h1, h2, h3⟩ := hw
  unfold finiteStore
  rw [if_neg]
  by_cases e1 : x = .num .pinf
  · rw [h1 e1]; simp
  · by_cases e2 : x = .num .ninf
    · rw [h2 e2]; simp
    · rw [h3 e1 e2]; simp [e1, e2]

example : ∃ db, mdbWriteFile unaryText asciiEnv ⟨[], .num 1000, false, []⟩ finiteStore false sqlExampleSchema sqlExampleDat
      (some [("other", [[.none]]), ("log", []), ("food_list", [])]) = some (db, false) ∧
      ∀ db', SameDb db db' → ∃ dat2, mdbCreate unaryText asciiEnv ⟨[], .num 1000, false, []⟩ .assert sqlExampleSchema db' =
        some dat2 ∧ SameUpToOrder sqlExampleDat dat2 := by
  obtain ⟨db, h1, _, h2⟩ := mdb_round_trip unaryText unaryText_ok asciiEnv asciiLaws
    ⟨[], .num 1000, false, []⟩ finiteStore .assert false sqlExampleSchema (by decide +kernel)
    (by decide +kernel) (fun _ _ => rfl) sqlExampleDat rfl sqlExample_shape
    (fun tc htc tab hg hn f x hx => finiteStore_keeps 1000 rfl (sqlExample_cells false tc htc tab hg hn f x hx).1) (by simp)
    (some [("other", [[.none]]), ("log", []), ("food_list", [])])
    (by
      intro db e
      cases e
      refine ⟨by decide, ?_, by decide⟩
      intro tc htc
      simp only [sqlExampleSchema, List.mem_cons, List.not_mem_nil, or_false] at htc
      rcases htc with e | e <;> subst e <;> exact ⟨[], rfl, .inr rfl⟩)
  exact ⟨db, h1, h2⟩

theorem sqlExample_tables : ∀ tc ∈ sqlExampleSchema, ∃ tab, PyDict.get? sqlExampleDat tc.1 = some tab ∧
    WellShaped tc.2 tab := by
  intro tc htc
  have : ∃ tab, PyDict.get? sqlExampleDat tc.1 = some tab := by
    simp only [sqlExampleSchema, List.mem_cons, List.not_mem_nil, or_false] at htc
    rcases htc with e | e <;> subst e <;> exact ⟨_, rfl⟩
  obtain ⟨tab, h⟩ := this
  exact ⟨tab, h, sqlExample_shape tc htc tab h⟩

example : PyDict.get? (mdbWrite unaryText asciiEnv ⟨[], .num 1000, false, []⟩ finiteStore false sqlExampleSchema sqlExampleDat
    [("food_list", []), ("log", [[.str "old"]])]).1 "log" = some [[.str "old"]] :=
  (mdb_no_overwrite unaryText asciiEnv asciiLaws _ finiteStore sqlExampleSchema (by decide +kernel) (by decide +kernel)
    sqlExampleDat sqlExample_tables _ (by decide +kernel) "log" _ rfl (by simp)).1

end Ticdat

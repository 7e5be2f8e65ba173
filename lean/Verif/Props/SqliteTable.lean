import Verif.Props.CsvTable
import Verif.Props.SqlText
import Verif.Props.Underscore
import Verif.Spec.SqliteIO
/-!
# C47: SQLite databases and .sql files carry whole data objects
-/
namespace Ticdat
open Spec
set_option linter.unusedSimpArgs false

namespace Spec

/-- How a cell travels through SQLite: `x` is stored as a cell that is read as `y`. -/
def SqlCell (env : TextEnv) (senv : SqlEnv) (cenv : CaseEnv) (cf : IOConf) (dv : Defaults) (asSql keyed : Bool)
    (t f : String) (x y : Cell) : Prop :=
  ∃ w, sqlCell env senv cf dv asSql keyed t f x = some w ∧ sqlReadCell env cenv cf t f w = some y

end Spec

theorem isKeyed_of_shape (c : TabClass) (tab : TabVal) (h : WellShaped c tab) : tab.isKeyed = decide (c.pks ≠ []) := by
  cases tab with
  | keyed d => simp [TabVal.isKeyed, h.1]
  | plain rows =>
    have : c.pks = [] := h.1
    simp [TabVal.isKeyed, this]

/-! ### Rows in any order -/

theorem perm_map_lift {A B : Type} (g : A → B) {l l'' : List B} (h : List.Perm l'' l) :
    ∀ d : List A, d.map g = l → ∃ d2, List.Perm d2 d ∧ d2.map g = l'' := by
  induction h with
  | nil =>
    intro d hd
    exact ⟨[], by rw [List.map_eq_nil_iff] at hd; rw [hd], rfl⟩
  | cons x _ ih =>
    intro d hd
    cases d with
    | nil => cases hd
    | cons a d =>
      simp only [List.map_cons, List.cons.injEq] at hd
      obtain ⟨d2, h1, h2⟩ := ih d hd.2
      exact ⟨a :: d2, h1.cons a, by simp [h2, hd.1]⟩
  | swap x y l =>
    intro d hd
    cases d with
    | nil => cases hd
    | cons a d =>
      cases d with
      | nil => simp at hd
      | cons b d =>
        simp only [List.map_cons, List.cons.injEq] at hd
        exact ⟨b :: a :: d, List.Perm.swap a b d, by simp [hd]⟩
  | trans _ _ ih1 ih2 =>
    intro d hd
    obtain ⟨d2, h1, h2⟩ := ih2 d hd
    obtain ⟨d3, h3, h4⟩ := ih1 d2 h2
    exact ⟨d3, h3.trans h1, h4⟩

theorem perm_mapM_lift {A B : Type} (g : A → Option B) (d : List A) (l l'' : List B) (h : List.Perm l'' l)
    (hd : d.mapM g = some l) : ∃ d2, List.Perm d2 d ∧ d2.mapM g = some l'' := by
  rw [mapM_eq_some_iff] at hd
  obtain ⟨d2, h1, h2⟩ := perm_map_lift g (h.map some) d hd
  exact ⟨d2, h1, (mapM_eq_some_iff _ _ _).mpr h2⟩

/-- Rows in another order are the rows of the table in another order. -/
theorem tabRows_perm_lift (c : TabClass) (tab : TabVal) (h : WellShaped c tab) (l : List (List Cell))
    (hl : List.Perm l (tabRows tab)) : ∃ tab2, TabPerm tab tab2 ∧ tabRows tab2 = l ∧ WellShaped c tab2 ∧
      tab2.isKeyed = tab.isKeyed := by
  cases tab with
  | keyed d =>
    obtain ⟨d2, h1, h2⟩ := perm_map_lift _ hl d rfl
    refine ⟨.keyed d2, h1, h2, ⟨h.1, ?_, fun p hp => h.2.2 p (h1.mem_iff.mp hp)⟩, rfl⟩
    exact (h1.map Prod.fst).nodup_iff.mpr h.2.1
  | plain rows =>
    obtain ⟨d2, h1, h2⟩ := perm_map_lift _ hl rows rfl
    exact ⟨.plain d2, h1, h2, ⟨h.1, fun p hp => h.2 p (h1.mem_iff.mp hp)⟩, rfl⟩

/-! ### One table -/

theorem nodup_of_read {A B : Type} (l : List A) (g : A → Option B) (r : List B) (h : l.map g = r.map some) (hr : r.Nodup) :
    l.Nodup := by
  have h1 : (r.map some).Nodup := by
    unfold List.Nodup
    rw [List.pairwise_map]
    exact List.Pairwise.imp (fun hne e => hne (Option.some.inj e)) hr
  rw [← h] at h1
  exact nodup_of_map _ h1

theorem mapCells_take (g : String → Cell → Option Cell) (n : Nat) (fields : List String) (ws r : List Cell)
    (h : mapCells g fields ws = some r) : mapCells g (fields.take n) (ws.take n) = some (r.take n) := by
  unfold mapCells at h ⊢
  rw [mapM_eq_some_iff] at h ⊢
  have e : (fields.take n).zip (ws.take n) = (fields.zip ws).take n := by
    rw [List.zip_eq_zipWith, List.zip_eq_zipWith, List.take_zipWith]
  rw [e, List.map_take, h, List.map_take]

theorem tabRows_keys_nodup (c : TabClass) (tab : TabVal) (h : WellShaped c tab) (hk : c.pks ≠ []) :
    ((tabRows tab).map (List.take c.pks.length)).Nodup := by
  cases tab with
  | plain rows => exact absurd h.1 hk
  | keyed d =>
    have h1 : (tabRows (.keyed d)).map (List.take c.pks.length) = (PyDict.keys d).map keyCells := by
      simp only [tabRows, PyDict.keys, List.map_map]
      apply List.map_congr_left
      intro p hp
      have := keyCells_length _ _ (h.2.2 p hp).1
      simp [Function.comp_apply, ← this]
    rw [h1]
    unfold List.Nodup
    rw [List.pairwise_map]
    refine List.Pairwise.imp_of_mem ?_ h.2.1
    intro a b ha hb hne e
    obtain ⟨p, hp, rfl⟩ := List.mem_map.mp ha
    obtain ⟨q, hq, rfl⟩ := List.mem_map.mp hb
    have hp1 := splitKey_flat _ _ [] (h.2.2 p hp).1
    have hq1 := splitKey_flat _ _ [] (h.2.2 q hq).1
    rw [e, hq1] at hp1
    exact hne hp1.symm

/-- **C47, one table, in order.**  The rows stored for `tab` are read as `tab'`. -/
theorem sql_table (env : TextEnv) (senv : SqlEnv) (cenv : CaseEnv) (cf : IOConf) (dv : Defaults) (asSql : Bool)
    (t : String) (c : TabClass) (hn : c.fields.Nodup) (tab tab' : TabVal) (h : WellShaped c tab) (h' : WellShaped c tab')
    (hr : TabRel c (SqlCell env senv cenv cf dv asSql tab.isKeyed t) tab tab') :
    ∃ rows, sqlRows env senv cf dv asSql t c tab = some rows ∧
      rows.mapM (mapCells (sqlReadCell env cenv cf t) c.fields) = some (tabRows tab') := by
  have hdn : c.dfs.Nodup := (List.nodup_append.mp hn).2.1
  have hround : ∀ r r', RowRel c.fields (SqlCell env senv cenv cf dv asSql tab.isKeyed t) r r' →
      ∃ ws, mapCells (sqlCell env senv cf dv asSql tab.isKeyed t) c.fields r = some ws ∧
        mapCells (sqlReadCell env cenv cf t) c.fields ws = some r' := by
    intro r r' hrr
    obtain ⟨ws, h1, _, h3⟩ := mapCells_round (sqlCell env senv cf dv asSql tab.isKeyed t) (sqlReadCell env cenv cf t)
      (fun _ => True) c.fields r r' (by
        refine ⟨hrr.1, hrr.2.1, fun i f x y a b c => ?_⟩
        obtain ⟨w, h4, h5⟩ := hrr.2.2 i f x y a b c
        exact ⟨w, h4, trivial, h5⟩)
    exact ⟨ws, h1, h3⟩
  obtain ⟨rows, hrows⟩ := pairwise2_exists (g := mapCells (sqlCell env senv cf dv asSql tab.isKeyed t) c.fields) hr
    (fun r r' hrr => by
      obtain ⟨l, h1, _⟩ := hround r r' hrr
      exact ⟨l, h1⟩)
  have hread : rows.mapM (mapCells (sqlReadCell env cenv cf t) c.fields) = some (tabRows tab') := by
    rw [mapM_eq_some_iff] at hrows ⊢
    unfold TabRel at hr
    revert hrows
    generalize tabRows tab = l at hr
    generalize tabRows tab' = l' at hr
    intro hrows
    induction hr generalizing rows with
    | nil => cases rows with
      | nil => rfl
      | cons a b => simp at hrows
    | cons hrr _ ih => cases rows with
      | nil => simp at hrows
      | cons a b =>
        simp only [List.map_cons, List.cons.injEq] at hrows
        obtain ⟨ws, h1, h3⟩ := hround _ _ hrr
        rw [h1] at hrows
        have hwa : ws = a := Option.some.inj hrows.1
        rw [List.map_cons, List.map_cons, ih b hrows.2, ← hwa, h3]
  refine ⟨rows, ?_, hread⟩
  unfold sqlRows
  rw [flatRows_eq c hdn tab h, Option.bind_some, hrows, Option.bind_some]
  by_cases hk : c.pks = []
  · simp [hk]
  · have : sqlKeysUnique c.pks.length rows = true := by
      unfold sqlKeysUnique
      apply decide_eq_true
      apply List.Pairwise.filter
      refine nodup_of_read _ (mapCells (sqlReadCell env cenv cf t) (c.fields.take c.pks.length)) _ ?_
        (tabRows_keys_nodup c tab' h' hk)
      rw [List.map_map, List.map_map]
      rw [mapM_eq_some_iff] at hread
      have h2 : ∀ (rows l' : List (List Cell)), rows.map (mapCells (sqlReadCell env cenv cf t) c.fields) = l'.map some →
          rows.map (mapCells (sqlReadCell env cenv cf t) (c.fields.take c.pks.length) ∘ List.take c.pks.length) =
            l'.map (some ∘ List.take c.pks.length) := by
        intro rows
        induction rows with
        | nil => intro l' e; cases l' with
          | nil => rfl
          | cons a b => simp at e
        | cons r rows ih => intro l' e; cases l' with
          | nil => simp at e
          | cons a b =>
            simp only [List.map_cons, List.cons.injEq] at e
            rw [List.map_cons, List.map_cons, ih b e.2]
            simp only [Function.comp_apply]
            rw [mapCells_take _ _ _ _ _ e.1]
      exact h2 rows _ hread
    simp [hk, this]

/-! ### Names -/

theorem sql_table_found (cenv : CaseEnv) (laws : CaseLaws cenv) (schema : List (String × TabClass))
    (hg : goodTableNames cenv (schema.map (fun tc => tc.1.toList)) = true) (db : SqlDb)
    (hother : ∀ k ∈ PyDict.keys db, ∀ tc ∈ schema, unblank (cenv.lower k.toList) = cenv.lower tc.1.toList → k = tc.1)
    (tc : String × TabClass) (htc : tc ∈ schema) (hin : tc.1 ∈ PyDict.keys db) :
    sqlTableName cenv db tc.1 = some (some tc.1) := by
  have hb : ' ' ∉ tc.1.toList := ((goodTableNames_iff cenv _).mp hg).2.1 _ (List.mem_map.mpr ⟨tc, htc, rfl⟩)
  have hlb : ∀ s : List Char, ' ' ∈ cenv.lower s ↔ ' ' ∈ s := by
    intro s
    unfold CaseEnv.lower
    rw [List.mem_flatMap]
    constructor
    · rintro ⟨c, hc, h⟩
      rw [← laws.lo_no_blank c h]
      exact hc
    · intro h
      exact ⟨' ', h, by rw [laws.lo_blank]; simp⟩
  have hun : ∀ s s' : List Char, BlankedVariant s s' → unblank (cenv.lower s') = unblank (cenv.lower s) := by
    intro s
    induction s with
    | nil =>
      intro s' h
      have := ((blankedVariant_iff _ _).mp h).1
      have : s' = [] := List.eq_nil_of_length_eq_zero (by simpa using this)
      rw [this]
    | cons c s ih =>
      intro s' h
      obtain ⟨h1, h2⟩ := (blankedVariant_iff _ _).mp h
      cases s' with
      | nil => simp at h1
      | cons c' s' =>
        have h3 : BlankedVariant s s' := by
          rw [blankedVariant_iff]
          refine ⟨by simpa using h1, fun j => ?_⟩
          have := h2 (j + 1)
          simpa using this
        have h4 := h2 0
        simp only [List.getElem?_cons_zero, Option.some.injEq] at h4
        have h5 : unblank (cenv.lo c') = unblank (cenv.lo c) := by
          rcases h4 with h4 | ⟨h4, h5⟩
          · rw [h4]
          · rw [h4, h5, laws.lo_blank, laws.lo_under]
            decide
        have h6 := ih s' h3
        unfold CaseEnv.lower unblank at *
        rw [List.flatMap_cons, List.flatMap_cons, List.map_append, List.map_append, h5, h6]
  have hself : BlankedVariant tc.1.toList tc.1.toList := by
    rw [blankedVariant_iff]
    exact ⟨rfl, fun j => .inl rfl⟩
  have hfil : (underscoreReplacements tc.1.toList).filter (fun n =>
      db.any (fun p => decide (cenv.lower p.1.toList = cenv.lower n))) = [tc.1.toList] := by
    rw [filter_eq_singleton _ (underscoreReplacements_nodup _)]
    refine ⟨(mem_underscoreReplacements _ _).mpr hself, ?_, ?_⟩
    · rw [List.any_eq_true]
      obtain ⟨p, hp, e⟩ := List.mem_map.mp hin
      exact ⟨p, hp, by rw [e]; exact decide_eq_true rfl⟩
    · intro n hn hany
      have hv := (mem_underscoreReplacements _ _).mp hn
      rw [List.any_eq_true] at hany
      obtain ⟨p, hp, he⟩ := hany
      have he := of_decide_eq_true he
      have hunb : unblank (cenv.lower tc.1.toList) = cenv.lower tc.1.toList :=
        unblank_of_no_blank _ (fun h => hb ((hlb _).mp h))
      have hk : p.1 = tc.1 := by
        apply hother p.1 (List.mem_map.mpr ⟨p, hp, rfl⟩) tc htc
        rw [he, hun _ _ hv, hunb]
      rw [hk] at he
      have hnb : ' ' ∉ n := by
        intro h
        exact hb ((hlb _).mp (he ▸ (hlb n).mpr h))
      obtain ⟨h1, h2⟩ := (blankedVariant_iff _ _).mp hv
      apply List.ext_getElem?
      intro j
      rcases h2 j with h | ⟨_, h⟩
      · exact h
      · exact absurd (List.mem_of_getElem? h) hnb
  unfold sqlTableName
  rw [hfil]
  simp

theorem sql_select_found (cenv : CaseEnv) (schema : List (String × TabClass)) (db : SqlDb)
    (hkn : (PyDict.keys db).Nodup)
    (hb : ∀ tc ∈ schema, ' ' ∉ cenv.lower tc.1.toList)
    (hother : ∀ k ∈ PyDict.keys db, ∀ tc ∈ schema, unblank (cenv.lower k.toList) = cenv.lower tc.1.toList → k = tc.1)
    (tc : String × TabClass) (htc : tc ∈ schema) (rows : List (List Cell)) (hget : PyDict.get? db tc.1 = some rows) :
    sqlSelect cenv db tc.1 = some rows := by
  have hm := PyDict.get?_mem hget
  unfold sqlSelect
  cases hf : db.find? (fun p => decide (cenv.lower p.1.toList = cenv.lower tc.1.toList)) with
  | none =>
    rw [List.find?_eq_none] at hf
    exact absurd (decide_eq_true rfl) (hf _ hm)
  | some p =>
    have hpm := List.mem_of_find?_eq_some hf
    have hpp := List.find?_some hf
    have hpp := of_decide_eq_true hpp
    have hk : p.1 = tc.1 := by
      apply hother p.1 (List.mem_map.mpr ⟨p, hpm, rfl⟩) tc htc
      rw [hpp, unblank_of_no_blank _ (hb tc htc)]
    have h1 := PyDict.get?_of_mem hkn (show (p.1, p.2) ∈ db from hpm)
    rw [hk, hget] at h1
    simp only [Option.map_some]
    exact h1.symm

/-! ### Whole databases -/

theorem dict_of_choice (Q : String × TabClass → TabVal → Prop) (s : List (String × TabClass))
    (hn : (s.map Prod.fst).Nodup) (h : ∀ tc ∈ s, ∃ tab, Q tc tab) :
    ∃ dat2 : PyDict String TabVal, PyDict.keys dat2 = s.map Prod.fst ∧
      ∀ tc ∈ s, ∃ tab, PyDict.get? dat2 tc.1 = some tab ∧ Q tc tab := by
  induction s with
  | nil => exact ⟨[], rfl, by simp⟩
  | cons tc rest ih =>
    rw [List.map_cons, List.nodup_cons] at hn
    obtain ⟨d, h1, h2⟩ := ih hn.2 (fun tc' h' => h tc' (List.mem_cons_of_mem _ h'))
    obtain ⟨tab, h3⟩ := h tc List.mem_cons_self
    refine ⟨(tc.1, tab) :: d, by rw [List.map_cons, ← h1]; rfl, fun tc' htc' => ?_⟩
    rcases List.mem_cons.mp htc' with e | htc'
    · rw [e]
      exact ⟨tab, by simp [PyDict.get?], h3⟩
    · obtain ⟨tab2, h4, h5⟩ := h2 tc' htc'
      have hne : ¬ tc.1 = tc'.1 := fun e => hn.1 (List.mem_map.mpr ⟨tc', htc', e.symm⟩)
      exact ⟨tab2, by simpa [PyDict.get?, hne] using h4, h5⟩

/-- What the adjustment after reading does with one table. -/
def postTab (env : TextEnv) (params : Params) (t : String) (tab : TabVal) : TabVal :=
  if t = "parameters" then
    match tab with
    | .keyed d => .keyed (d.map (postReadEntry env params))
    | t => t
  else tab

theorem postRead_map (env : TextEnv) (params : Params) (hp : params ≠ []) (dat : PyDict String TabVal) :
    postRead env params dat = dat.map (fun p => (p.1, postTab env params p.1 p.2)) := by
  unfold postRead
  rw [if_neg hp]
  apply List.map_congr_left
  intro p _
  unfold postTab
  split
  · cases p.2 <;> rfl
  · rfl

theorem postRead_same (env : TextEnv) (params : Params) (dat dat2 : PyDict String TabVal)
    (h : SameUpToOrder dat dat2) : SameUpToOrder (postRead env params dat) (postRead env params dat2) := by
  by_cases hp : params = []
  · simpa [postRead, hp] using h
  · rw [postRead_map env params hp, postRead_map env params hp]
    refine ⟨?_, fun t tab hget => ?_⟩
    · have hk : ∀ d : PyDict String TabVal, PyDict.keys (d.map (fun p => (p.1, postTab env params p.1 p.2))) =
          PyDict.keys d := by
        intro d
        simp [PyDict.keys, Function.comp_def]
      rw [hk, hk]
      exact h.1
    · rw [get?_map_entry (postTab env params), Option.map_eq_some_iff] at hget
      obtain ⟨tab0, h1, h2⟩ := hget
      obtain ⟨tab2, h3, h4⟩ := h.2 t tab0 h1
      refine ⟨postTab env params t tab2, by rw [get?_map_entry (postTab env params), h3]; rfl, ?_⟩
      rw [← h2]
      unfold postTab
      split
      · cases tab0 with
        | keyed d => cases tab2 with
          | keyed d2 => exact List.Perm.map _ h4
          | plain r2 => exact absurd h4 id
        | plain r => cases tab2 with
          | keyed d2 => exact absurd h4 id
          | plain r2 => exact h4
      · exact h4

/-- **C47, databases, by cells.** -/
theorem sql_write_read (env : TextEnv) (senv : SqlEnv) (cenv : CaseEnv) (laws : CaseLaws cenv) (cf : IOConf)
    (dv : Defaults) (policy : DupPolicy) (asSql : Bool) (schema : List (String × TabClass))
    (hg : goodTableNames cenv (schema.map (fun tc => tc.1.toList)) = true) (hf : ∀ tc ∈ schema, tc.2.fields.Nodup)
    (dat dat' : PyDict String TabVal) (hk' : PyDict.keys dat' = schema.map Prod.fst)
    (ht : ∀ tc ∈ schema, ∃ tab tab', PyDict.get? dat tc.1 = some tab ∧ PyDict.get? dat' tc.1 = some tab' ∧
      WellShaped tc.2 tab ∧ WellShaped tc.2 tab' ∧
      TabRel tc.2 (SqlCell env senv cenv cf dv asSql tab.isKeyed tc.1) tab tab')
    (db : SqlDb) (hd : (PyDict.keys db).Nodup)
    (hother : ∀ k ∈ PyDict.keys db, ∀ tc ∈ schema, unblank (cenv.lower k.toList) = cenv.lower tc.1.toList → k = tc.1) :
    ∃ db', writeAll (fun tc => tc.1) (fun tc => (PyDict.get? dat tc.1).bind (sqlRows env senv cf dv asSql tc.1 tc.2))
        schema db = some db' ∧
      (∀ k, (∀ tc ∈ schema, k ≠ tc.1) → PyDict.get? db' k = PyDict.get? db k) ∧
      ∀ db'', SameDb db' db'' → ∃ dat2, sqlCreate env cenv cf policy schema db'' = some dat2 ∧
        SameUpToOrder (postRead env cf.params dat') dat2 := by
  have hg' : goodTableNames cenv ((schema.map Prod.fst).map String.toList) = true := by
    rw [List.map_map]; exact hg
  obtain ⟨_, hblank, hlow⟩ := (goodTableNames_iff cenv _).mp hg'
  have hnames : (schema.map Prod.fst).Nodup := nodup_of_map _ (nodup_of_map _ hlow)
  have hlb : ∀ s : List Char, ' ' ∈ cenv.lower s → ' ' ∈ s := by
    intro s h
    unfold CaseEnv.lower at h
    rw [List.mem_flatMap] at h
    obtain ⟨c, hc, h⟩ := h
    rw [← laws.lo_no_blank c h]
    exact hc
  have hb : ∀ tc ∈ schema, ' ' ∉ cenv.lower tc.1.toList := fun tc htc h =>
    hblank _ (List.mem_map.mpr ⟨tc.1, List.mem_map.mpr ⟨tc, htc, rfl⟩, rfl⟩) (hlb _ h)
  have hstep : ∀ tc ∈ schema, ∃ rows, (PyDict.get? dat tc.1).bind (sqlRows env senv cf dv asSql tc.1 tc.2) = some rows ∧
      ∃ tab', PyDict.get? dat' tc.1 = some tab' ∧ WellShaped tc.2 tab' ∧
        rows.mapM (mapCells (sqlReadCell env cenv cf tc.1) tc.2.fields) = some (tabRows tab') := by
    intro tc htc
    obtain ⟨tab, tab', h1, h2, h3, h4, h5⟩ := ht tc htc
    obtain ⟨rows, h6, h7⟩ := sql_table env senv cenv cf dv asSql tc.1 tc.2 (hf tc htc) tab tab' h3 h4 h5
    exact ⟨rows, by rw [h1, Option.bind_some, h6], tab', h2, h4, h7⟩
  obtain ⟨db', h1, h2, h3, h4⟩ := write_all (fun tc => tc.1)
    (fun tc => (PyDict.get? dat tc.1).bind (sqlRows env senv cf dv asSql tc.1 tc.2)) _ schema hnames hstep db hd
  refine ⟨db', h1, h4, fun db'' hsame => ?_⟩
  have hkn : (PyDict.keys db'').Nodup := hsame.1.nodup_iff.mpr h2
  have hother'' : ∀ k ∈ PyDict.keys db'', ∀ tc ∈ schema, unblank (cenv.lower k.toList) = cenv.lower tc.1.toList →
      k = tc.1 := by
    intro k hk tc htc he
    have hk := hsame.1.mem_iff.mp hk
    by_cases hkn : ∀ tc' ∈ schema, k ≠ tc'.1
    · refine hother k ?_ tc htc he
      refine Classical.byContradiction (fun hno => ?_)
      have h5 := h4 k hkn
      rw [(PyDict.get?_eq_none _ _).mpr hno] at h5
      exact (PyDict.get?_eq_none _ _).mp h5 hk
    · obtain ⟨tc', htc', e⟩ : ∃ tc' ∈ schema, k = tc'.1 :=
        Classical.byContradiction (fun hno => hkn (fun tc' h e => hno ⟨tc', h, e⟩))
      rw [e, unblank_of_no_blank _ (hb tc' htc')] at he
      rw [e]
      exact String.toList_injective (lower_inj_of_nodup hlow
        (List.mem_map.mpr ⟨tc'.1, List.mem_map.mpr ⟨tc', htc', rfl⟩, rfl⟩)
        (List.mem_map.mpr ⟨tc.1, List.mem_map.mpr ⟨tc, htc, rfl⟩, rfl⟩) he)
  have hpick : ∀ tc ∈ schema, ∃ tab2, (∃ tab', PyDict.get? dat' tc.1 = some tab' ∧ TabPerm tab' tab2) ∧
      WellShaped tc.2 tab2 ∧ sqlFind env cenv cf db'' tc = some (some (readerTable tc.2 (tabRows tab2))) := by
    intro tc htc
    obtain ⟨rows, h5, _, tab', h6, h7, h8⟩ := h3 tc htc
    obtain ⟨rows'', h9, h10⟩ := hsame.2 tc.1 rows h5
    have hin : tc.1 ∈ PyDict.keys db'' := by
      refine Classical.byContradiction (fun hno => ?_)
      rw [(PyDict.get?_eq_none _ _).mpr hno] at h9
      cases h9
    have hrd : ∃ l, rows''.mapM (mapCells (sqlReadCell env cenv cf tc.1) tc.2.fields) = some l ∧
        List.Perm l (tabRows tab') := by
      have hs := mapM_eq_some_iff _ _ _ |>.mp h8
      have hp : List.Perm (rows''.map (mapCells (sqlReadCell env cenv cf tc.1) tc.2.fields)) ((tabRows tab').map some) := by
        rw [← hs]
        exact h10.map _
      obtain ⟨l, hl1, hl2⟩ := perm_map_lift some hp (tabRows tab') rfl
      exact ⟨l, (mapM_eq_some_iff _ _ _).mpr hl2.symm, hl1⟩
    obtain ⟨l, hl1, hl2⟩ := hrd
    obtain ⟨tab2, ht1, ht2, ht3, _⟩ := tabRows_perm_lift tc.2 tab' h7 l hl2
    refine ⟨tab2, ⟨tab', h6, ht1⟩, ht3, ?_⟩
    unfold sqlFind
    rw [sql_table_found cenv laws schema hg db'' hother'' tc htc hin, Option.bind_some]
    simp only [sql_select_found cenv schema db'' hkn hb hother'' tc htc rows'' h9, Option.bind_some, hl1, Option.map_some,
      ht2]
  obtain ⟨dat2, hk2, hd2⟩ := dict_of_choice _ schema hnames hpick
  obtain ⟨input, h5, h6, h7, h8⟩ := gather_tables (sqlFind env cenv cf db'') dat2 schema hnames (by
    intro tc htc
    obtain ⟨tab2, h9, h10, h11, h12⟩ := hd2 tc htc
    exact ⟨_, tab2, h12, h9, .inr ⟨_, rfl, init_of_reader tc.2 (hf tc htc) tab2 h11,
      readerTable_size tc.2 (hf tc htc) tab2 h11⟩⟩)
  refine ⟨postRead env cf.params dat2, ?_, ?_⟩
  · unfold sqlCreate
    rw [h5, Option.bind_some, initDat_of policy schema hnames input dat2 h7 h6 hk2 h8]
    rfl
  · apply postRead_same
    refine ⟨by rw [hk2, hk'], fun t tab' hget => ?_⟩
    have hmem : t ∈ schema.map Prod.fst := by
      rw [← hk']
      refine Classical.byContradiction (fun hno => ?_)
      rw [(PyDict.get?_eq_none _ _).mpr hno] at hget
      cases hget
    obtain ⟨tc, htc, e⟩ := List.mem_map.mp hmem
    obtain ⟨tab2, h9, ⟨tab3, h10, h11⟩, _⟩ := hd2 tc htc
    rw [e] at h9 h10
    rw [hget] at h10
    cases h10
    exact ⟨tab2, h9, h11⟩

/-! ### Cells -/

theorem sqlAffinity_iff (cf : IOConf) (dv : Defaults) (t f : String) :
    sqlAffinity cf dv t f = true ↔ SqlNumColumn cf dv t f := by
  unfold sqlAffinity SqlNumColumn
  split
  · rename_i h; simp [h]
  · rename_i h
    cases dv t f <;> simp [h]

theorem sqlFileText_ok (s : String) (h : ¬ AdjacentQuotes s.toList ∧ ';' ∉ s.toList) : sqlFileText s = some s := by
  unfold sqlFileText
  have h1 : s.toList.contains ';' = false := by simpa using h.2
  rw [h1]
  have h2 := (literal_round_trip_iff_partial s.toList [')'] (by decide)).mpr h.1
  have h3 : readVal (insertFormat (.text s.toList) ++ [')']) = some (.text s.toList, [')']) := by
    simp only [insertFormat, List.cons_append, List.append_assoc, List.nil_append]
    unfold readVal
    simp only [if_true]
    rw [h2]
    rfl
  rw [h3]
  simp

theorem sqlStore_text (env : TextEnv) (senv : SqlEnv) (cf : IOConf) (dv : Defaults) (asSql : Bool) (t f s : String)
    (h1 : SqlNumColumn cf dv t f → senv.num s = none) (h2 : SqlFileOK asSql s) :
    sqlStore env senv asSql (sqlAffinity cf dv t f) (.str s) = some (.str s) := by
  have h3 : sqlStoreText senv (sqlAffinity cf dv t f) s = .str s := by
    unfold sqlStoreText
    split
    · rename_i h
      rw [h1 ((sqlAffinity_iff cf dv t f).mp h)]
    · rfl
  unfold sqlStore
  cases asSql with
  | true => simp [sqlFileText_ok s (h2 rfl), h3]
  | false => simp [h3]

theorem sqlStore_dt (env : TextEnv) (senv : SqlEnv) (cf : IOConf) (dv : Defaults) (asSql : Bool) (t f : String) (d : Nat)
    (h1 : SqlNumColumn cf dv t f → senv.num (env.text (.dt d)) = none) :
    sqlStore env senv asSql (sqlAffinity cf dv t f) (.dt d) = some (.str (env.text (.dt d))) := by
  unfold sqlStore sqlStoreText
  simp only
  split
  · rename_i h
    rw [h1 ((sqlAffinity_iff cf dv t f).mp h)]
  · rfl

theorem sqlReadCell_text (env : TextEnv) (cenv : CaseEnv) (cf : IOConf) (t f s : String) (h : NoSqlWord cenv cf s) :
    sqlReadCell env cenv cf t f (.str s) = readCell env cf t f (.str s) := by
  obtain ⟨h1, h2, h3⟩ := h
  unfold sqlReadCell
  simp only
  rw [if_neg, if_neg h1, if_neg h2]
  rintro ⟨h4, h5, _⟩
  rcases h4 with h4 | h4
  · exact (h3 h5).1 h4
  · exact (h3 h5).2 h4

theorem writeCell_dt {env : TextEnv} {cf : IOConf} {t f : String} (ht : ¬ IsParams cf.params t) (d : Nat)
    (h : JsonSafe env cf t f (.dt d)) : writeCell env cf t f (.dt d) = some (.dt d) := by
  unfold writeCell
  rw [if_neg (fun hh => ht ⟨hh.2, hh.1⟩)]
  cases hf : cf.flag with
  | na => rfl
  | num q => rfl
  | none =>
    obtain ⟨_, h⟩ := h
    split at h
    · rw [hf] at h; cases h.2
    · have hfs := h.2
      unfold FlagSafe at hfs
      rw [hf] at hfs
      have hamb := hfs.1
      rw [← infBias_none_iff hf] at hamb
      cases hb : infBias env cf t f with
      | none => exact absurd hb hamb
      | some b => cases b <;> simp

theorem readCell_num_self {env : TextEnv} {cf : IOConf} {t f : String} (y : XNum) (h : JsonSafe env cf t f (.num y)) :
    readCell env cf t f (.num y) = some (.num y) := by
  obtain ⟨_, h⟩ := h
  by_cases ht : t = "parameters"
  · simp [readCell, ht]
  · rw [if_neg ht] at h
    rw [readCell_num ht]
    have h := h.2
    unfold FlagSafe at h
    cases hf : cf.flag with
    | na => rfl
    | none => rfl
    | num q =>
      rw [hf] at h
      simp only [Option.some.injEq, Cell.num.injEq]
      obtain ⟨hq, h⟩ := h
      rcases h y rfl with rfl | rfl | ⟨h1, h2⟩
      · rfl
      · rfl
      · cases h1 with
        | above => cases h2
        | fin h1 =>
          cases h2 with
          | fin h2 => simp [XNum.le, XNum.lt, h1, h2]

theorem sql_infinity {env : TextEnv} {senv : SqlEnv} {cenv : CaseEnv} (hW : SqlWords cenv senv) {cf : IOConf} {t f : String}
    (hnp : ¬ IsParams cf.params t) (hf : cf.flag = .na) (aff : Bool) (y : XNum) (hy : y = .pinf ∨ y = .ninf) :
    ∃ w, sqlStore env senv true aff (.num y) = some w ∧ sqlReadCell env cenv cf t f w = some (.num y) := by
  have hp : ¬ (t = "parameters" ∧ cf.params ≠ []) := fun hh => hnp ⟨hh.2, hh.1⟩
  rcases hy with rfl | rfl
  · refine ⟨.str "inf", rfl, ?_⟩
    unfold sqlReadCell
    simp only [hW.inf]
    rw [if_pos ⟨.inl trivial, hf, hp⟩]
    rfl
  · refine ⟨.str "-inf", rfl, ?_⟩
    unfold sqlReadCell
    simp only [hW.ninf]
    rw [if_pos ⟨.inr trivial, hf, hp⟩]
    rfl

theorem sqlStore_num (env : TextEnv) (senv : SqlEnv) (asSql aff : Bool) (y : XNum)
    (h : asSql = true → y ≠ .pinf ∧ y ≠ .ninf) : sqlStore env senv asSql aff (.num y) = some (.num y) := by
  cases y with
  | fin q => rfl
  | pinf =>
    cases asSql with
    | true => exact absurd rfl (h rfl).1
    | false => rfl
  | ninf =>
    cases asSql with
    | true => exact absurd rfl (h rfl).2
    | false => rfl

theorem sql_bool {env : TextEnv} {senv : SqlEnv} {cenv : CaseEnv} (hW : SqlWords cenv senv) {cf : IOConf} {dv : Defaults}
    {t f : String} (asSql b : Bool) : SqlCell env senv cenv cf dv asSql true t f (.bool b) (.bool b) := by
  unfold SqlCell sqlCell
  simp only [if_true, sqlWriteCell, Option.bind_some]
  cases b with
  | true =>
    refine ⟨.str "True", sqlStore_text env senv cf dv asSql t f "True" (fun _ => hW.numTr) (fun _ => ?_), ?_⟩
    · refine ⟨?_, by decide⟩
      rintro ⟨i, hi, h, _⟩
      have : quote ∈ "True".toList := List.mem_of_getElem? h
      exact absurd this (by decide)
    · unfold sqlReadCell
      simp only [hW.tr]
      rw [if_neg (by rintro ⟨h, _⟩; exact absurd h (by decide)), if_pos trivial]
  | false =>
    refine ⟨.str "False", sqlStore_text env senv cf dv asSql t f "False" (fun _ => hW.numFa) (fun _ => ?_), ?_⟩
    · refine ⟨?_, by decide⟩
      rintro ⟨i, hi, h, _⟩
      have : quote ∈ "False".toList := List.mem_of_getElem? h
      exact absurd this (by decide)
    · unfold sqlReadCell
      simp only [hW.fa]
      rw [if_neg (by rintro ⟨h, _⟩; exact absurd h (by decide)), if_neg (by decide), if_pos trivial]

theorem clamp_finite (q : Rat) (y : XNum) : ∃ r, clamp q y = .fin r := by
  cases y with
  | ninf => exact ⟨-q, by simp [clamp, XNum.lt]⟩
  | pinf => by_cases h : q < -q <;> simp [clamp, XNum.lt, h]
  | fin r =>
    by_cases h : q < r
    · by_cases h' : q < -q <;> simp [clamp, XNum.lt, h, h']
    · by_cases h' : r < -q <;> simp [clamp, XNum.lt, h, h']

theorem writeCell_finite {env : TextEnv} {cf : IOConf} {t f : String} (ht : ¬ IsParams cf.params t) (y : XNum) (w : Cell)
    (h : writeCell env cf t f (.num y) = some w) (hi : (y = .pinf ∨ y = .ninf) → ∃ q, cf.flag = .num q) :
    w = .none ∨ ∃ r, w = .num (.fin r) := by
  have hc := writeCell_cases ht _ _ h
  cases hf : cf.flag with
  | num q =>
    unfold writeCell at h
    rw [if_neg (fun hh => ht ⟨hh.2, hh.1⟩), hf] at h
    obtain ⟨r, hr⟩ := clamp_finite q y
    refine .inr ⟨r, ?_⟩
    rw [← hr]
    exact (Option.some.inj h).symm
  | na =>
    have hy : ∃ r, y = .fin r := by
      cases y with
      | fin r => exact ⟨r, rfl⟩
      | pinf => obtain ⟨q, h⟩ := hi (.inl rfl); rw [hf] at h; cases h
      | ninf => obtain ⟨q, h⟩ := hi (.inr rfl); rw [hf] at h; cases h
    obtain ⟨r, rfl⟩ := hy
    unfold writeCell at h
    rw [if_neg (fun hh => ht ⟨hh.2, hh.1⟩), hf] at h
    exact .inr ⟨r, (Option.some.inj h).symm⟩
  | none =>
    have hy : ∃ r, y = .fin r := by
      cases y with
      | fin r => exact ⟨r, rfl⟩
      | pinf => obtain ⟨q, h⟩ := hi (.inl rfl); rw [hf] at h; cases h
      | ninf => obtain ⟨q, h⟩ := hi (.inr rfl); rw [hf] at h; cases h
    obtain ⟨r, rfl⟩ := hy
    unfold writeCell at h
    rw [if_neg (fun hh => ht ⟨hh.2, hh.1⟩), hf] at h
    simp only [Option.map_eq_some_iff] at h
    obtain ⟨b, _, h⟩ := h
    cases b with
    | none => exact .inr ⟨r, h.symm⟩
    | some pos =>
      simp only at h
      split at h
      · exact .inl h.symm
      · exact .inr ⟨r, h.symm⟩

/-- **C47, cells.** -/
theorem sql_cell_survives {env : TextEnv} (hT : ∀ d, env.date (.str (env.text (.dt d))) = some d) {senv : SqlEnv}
    {cenv : CaseEnv} (hW : SqlWords cenv senv) (cf : IOConf) (dv : Defaults) (asSql keyed : Bool) (t f : String) (x : Cell)
    (hnp : ¬ IsParams cf.params t) (h : SqlSafe env senv cenv cf dv asSql keyed t f x) :
    SqlCell env senv cenv cf dv asSql keyed t f x x := by
  obtain ⟨hj, h⟩ := h
  obtain ⟨w, h1, _, h3⟩ := json_cell_survives hT cf t f x hnp hj
  cases x with
  | nan => exact absurd h id
  | other o => exact absurd h id
  | bool b =>
    have : keyed = true := h
    subst this
    exact sql_bool hW asSql b
  | none =>
    have hw : w = .none := by
      rcases writeCell_cases hnp _ _ h1 with h | ⟨_, _, _, h⟩ | ⟨_, _, h, _⟩
      · exact h
      · cases h
      · cases h
    subst hw
    refine ⟨.none, ?_, h3⟩
    unfold sqlCell
    cases keyed with
    | true =>
      have : sqlWriteCell env cf t f .none = some .none := h1
      simp [this, sqlStore]
    | false => simp [sqlStore]
  | str s =>
    have hw : w = .str s := by
      rcases writeCell_cases hnp _ _ h1 with h | ⟨_, _, _, h⟩ | ⟨_, _, h, _⟩
      · exact h
      · cases h
      · cases h
    subst hw
    obtain ⟨h4, h5, h6⟩ := h
    refine ⟨.str s, ?_, by rw [sqlReadCell_text _ _ _ _ _ _ h4, h3]⟩
    unfold sqlCell
    cases keyed with
    | true =>
      have : sqlWriteCell env cf t f (.str s) = some (.str s) := h1
      simp [this, sqlStore_text env senv cf dv asSql t f s h5 h6]
    | false => simp [sqlStore_text env senv cf dv asSql t f s h5 h6]
  | dt d =>
    have hw : w = .str (env.text (.dt d)) := (Option.some.inj h1).symm
    rw [hw] at h3
    obtain ⟨h4, h5⟩ := h
    refine ⟨.str (env.text (.dt d)), ?_, by rw [sqlReadCell_text _ _ _ _ _ _ h4, h3]⟩
    unfold sqlCell
    cases keyed with
    | true =>
      have : sqlWriteCell env cf t f (.dt d) = some (.dt d) := writeCell_dt hnp d hj
      simp [this, sqlStore_dt env senv cf dv asSql t f d h5]
    | false => simp [sqlStore_dt env senv cf dv asSql t f d h5]
  | num y =>
    unfold SqlCell sqlCell
    cases keyed with
    | false =>
      simp only [Bool.false_eq_true, if_false, Option.bind_some]
      by_cases hi : asSql = true ∧ (y = .pinf ∨ y = .ninf)
      · obtain ⟨rfl, hy⟩ := hi
        rcases h rfl hy with hf | ⟨hc, _⟩
        · exact sql_infinity hW hnp hf _ y hy
        · cases hc
      · exact ⟨.num y, sqlStore_num env senv asSql _ y (fun ha => ⟨fun e => hi ⟨ha, .inl e⟩, fun e => hi ⟨ha, .inr e⟩⟩),
          readCell_num_self y hj⟩
    | true =>
      have h1' : sqlWriteCell env cf t f (.num y) = some w := h1
      simp only [if_true, h1', Option.bind_some]
      by_cases hi : asSql = true ∧ (y = .pinf ∨ y = .ninf) ∧ cf.flag = .na
      · obtain ⟨rfl, hy, hf⟩ := hi
        have hw : w = .num y := by
          have h1 : writeCell env cf t f (.num y) = some w := h1
          unfold writeCell at h1
          rw [if_neg (fun hh => hnp ⟨hh.2, hh.1⟩), hf] at h1
          exact (Option.some.inj h1).symm
        rw [hw]
        exact sql_infinity hW hnp hf _ y hy
      · have hstore : sqlStore env senv asSql (sqlAffinity cf dv t f) w = some w := by
          by_cases ha : asSql = true
          · rcases writeCell_finite hnp y w h1 (fun hy => by
              rcases h ha hy with hf | ⟨_, hq⟩
              · exact absurd ⟨ha, hy, hf⟩ hi
              · exact hq) with hw | ⟨r, hw⟩ <;> rw [hw] <;> rfl
          · rcases writeCell_cases hnp _ _ h1 with hw | ⟨z, z', hw, hz⟩ | ⟨hw, _⟩
            · rw [hw]; exact sqlStore_num _ _ _ _ _ (fun h => absurd h ha)
            · rw [hw]; exact sqlStore_num _ _ _ _ _ (fun h => absurd h ha)
            · rw [hw]; rfl
        refine ⟨w, hstore, ?_⟩
        rcases writeCell_cases hnp _ _ h1 with hw | ⟨z, z', hw, hz⟩ | ⟨hw, _⟩
        · rw [hw] at h3 ⊢; exact h3
        · rw [hw] at h3 ⊢; exact h3
        · rw [hw] at h3 ⊢; exact h3

/-! ### Parameters -/

theorem json_param_fixed (env : TextEnv) (hT : ∀ d, env.date (.str (env.text (.dt d))) = some d) (params : Params)
    (k v : Cell) (h : JsonParam env params k v) : fixParam env params k (jsonParamText env v) = v := by
  rcases h.2 with ⟨h1, h2, h3, h4⟩ | ⟨d, td, rfl, h5, h6⟩
  · have : jsonParamText env v = v := by
      cases v with
      | dt d => exact absurd rfl (h1 d)
      | _ => rfl
    rw [this]
    exact fixParam_asIs env params k v h4
  · unfold fixParam
    rw [paramType_eq, h5]
    have h7 : td.validData env.parses (.str (env.text (.dt d))) = true := by
      rw [valid_data_iff]
      refine Or.inr (Or.inl ⟨?_, h6, Or.inr ?_⟩)
      · rintro (h | h) <;> cases h
      · simp [TextEnv.parses, dateAdjust, hT]
    simp [jsonParamText, h7, h6, dateAdjust, hT]

theorem sql_param_cell {env : TextEnv} {senv : SqlEnv} {cenv : CaseEnv} (hW : SqlWords cenv senv) (cf : IOConf)
    (dv : Defaults) (asSql : Bool) (hp : cf.params ≠ []) (f : String) (z : Cell)
    (hk : z ≠ .nan ∧ ∀ o, z ≠ .other o)
    (hs : ∀ s, z = .str s → cenv.lower s.toList ≠ "true".toList ∧ cenv.lower s.toList ≠ "false".toList ∧
      SqlFileOK asSql s)
    (hd : ∀ d, z = .dt d → cenv.lower (env.text (.dt d)).toList ≠ "true".toList ∧
      cenv.lower (env.text (.dt d)).toList ≠ "false".toList)
    (hn : asSql = true → ∀ y, z = .num y → y ≠ .pinf ∧ y ≠ .ninf) :
    SqlCell env senv cenv cf dv asSql true "parameters" f z (jsonParamText env z) := by
  have haff : ¬ SqlNumColumn cf dv "parameters" f := fun h => h.1 ⟨rfl, hp⟩
  have hread : ∀ s, cenv.lower s.toList ≠ "true".toList → cenv.lower s.toList ≠ "false".toList →
      sqlReadCell env cenv cf "parameters" f (.str s) = some (.str s) := by
    intro s h1 h2
    unfold sqlReadCell
    simp only
    rw [if_neg (by rintro ⟨_, _, h⟩; exact h ⟨trivial, hp⟩), if_neg h1, if_neg h2]
    simp [readCell]
  have hwrite : ∀ z, Cell.isNull z = false → (∀ b, z ≠ .bool b) →
      sqlCell env senv cf dv asSql true "parameters" f z = sqlStore env senv asSql (sqlAffinity cf dv "parameters" f) z := by
    intro z h1 h2
    unfold sqlCell
    have : sqlWriteCell env cf "parameters" f z = some z := by
      cases z with
      | bool b => exact absurd rfl (h2 b)
      | _ => simp [sqlWriteCell, writeCell, hp, h1]
    simp [this]
  unfold SqlCell
  cases z with
  | nan => exact absurd rfl hk.1
  | other o => exact absurd rfl (hk.2 o)
  | bool b => exact sql_bool hW asSql b
  | none =>
    exact ⟨.none, by simp [sqlCell, sqlWriteCell, writeCell, hp, Cell.isNull, sqlStore], by simp [sqlReadCell, readCell,
      jsonParamText]⟩
  | num y =>
    rw [hwrite _ rfl (by simp)]
    exact ⟨.num y, sqlStore_num _ _ _ _ _ (fun h => hn h y rfl), by simp [sqlReadCell, readCell, jsonParamText]⟩
  | str s =>
    rw [hwrite _ rfl (by simp)]
    obtain ⟨h1, h2, h3⟩ := hs s rfl
    exact ⟨.str s, sqlStore_text _ _ _ _ _ _ _ _ (fun h => absurd h haff) h3, hread s h1 h2⟩
  | dt d =>
    rw [hwrite _ rfl (by simp)]
    obtain ⟨h1, h2⟩ := hd d rfl
    exact ⟨.str (env.text (.dt d)), sqlStore_dt _ _ _ _ _ _ _ _ (fun h => absurd h haff), hread _ h1 h2⟩

/-! ### Round trips -/

/-- Does the schema give the table a primary key. -/
def keyedIn (schema : List (String × TabClass)) (t : String) : Bool :=
  ((PyDict.get? schema t).map (fun c => decide (c.pks ≠ []))).getD true

/-- The core of both round trips. -/
theorem sql_round_trip_core (env : TextEnv) (hT : ∀ d, env.date (.str (env.text (.dt d))) = some d) (senv : SqlEnv)
    (cenv : CaseEnv) (laws : CaseLaws cenv) (hW : SqlWords cenv senv) (cf : IOConf) (dv : Defaults) (policy : DupPolicy)
    (asSql : Bool) (schema : List (String × TabClass))
    (hg : goodTableNames cenv (schema.map (fun tc => tc.1.toList)) = true) (hf : ∀ tc ∈ schema, tc.2.fields.Nodup)
    (dat : PyDict String TabVal) (hk : PyDict.keys dat = schema.map Prod.fst)
    (hw : ∀ tc ∈ schema, ∀ tab, PyDict.get? dat tc.1 = some tab → WellShaped tc.2 tab)
    (hc : ∀ tc ∈ schema, ∀ tab, PyDict.get? dat tc.1 = some tab → ¬ IsParams cf.params tc.1 → ∀ f x,
      HasCell tc.2 tab f x → SqlCell env senv cenv cf dv asSql (decide (tc.2.pks ≠ [])) tc.1 f x x)
    (hp : ∀ tab, PyDict.get? dat "parameters" = some tab → cf.params ≠ [] →
      ParamEntries (SqlParam env cenv cf asSql) tab)
    (db : SqlDb) (hd : (PyDict.keys db).Nodup)
    (hother : ∀ k ∈ PyDict.keys db, ∀ tc ∈ schema, unblank (cenv.lower k.toList) = cenv.lower tc.1.toList → k = tc.1) :
    ∃ db', writeAll (fun tc => tc.1) (fun tc => (PyDict.get? dat tc.1).bind (sqlRows env senv cf dv asSql tc.1 tc.2))
        schema db = some db' ∧
      (∀ k, (∀ tc ∈ schema, k ≠ tc.1) → PyDict.get? db' k = PyDict.get? db k) ∧
      ∀ db'', SameDb db' db'' → ∃ dat2, sqlCreate env cenv cf policy schema db'' = some dat2 ∧
        SameUpToOrder dat dat2 := by
  have hnames : (schema.map Prod.fst).Nodup := by
    have hg' : goodTableNames cenv ((schema.map Prod.fst).map String.toList) = true := by
      rw [List.map_map]; exact hg
    exact nodup_of_map _ (nodup_of_map _ ((goodTableNames_iff cenv _).mp hg').2.2)
  have hkeyed : ∀ tc ∈ schema, keyedIn schema tc.1 = decide (tc.2.pks ≠ []) := by
    intro tc htc
    unfold keyedIn
    rw [PyDict.get?_of_mem hnames (show (tc.1, tc.2) ∈ schema from htc)]
    rfl
  obtain ⟨dat', hk', hpost, hrel⟩ := params_view env cf.params (jsonParamText env) schema hnames hf dat hk hw
    (fun t f x y => SqlCell env senv cenv cf dv asSql (keyedIn schema t) t f x y)
    (fun tc htc tab hget hnp f x hx => by
      rw [hkeyed tc htc]
      exact hc tc htc tab hget hnp f x hx)
    (fun k v => SqlParam env cenv cf asSql k v ∧ keyedIn schema "parameters" = true)
    (by
      intro tab hget hpar
      have hent := hp tab hget hpar
      cases tab with
      | plain rows => exact absurd hent id
      | keyed d =>
        intro p hpd
        obtain ⟨k, f, v, h1, h2⟩ := hent p hpd
        refine ⟨k, f, v, h1, h2, ?_⟩
        have hmem : "parameters" ∈ schema.map Prod.fst := by
          rw [← hk]
          refine Classical.byContradiction (fun hno => ?_)
          rw [(PyDict.get?_eq_none _ _).mpr hno] at hget
          cases hget
        obtain ⟨tc, htc, e⟩ := List.mem_map.mp hmem
        have hsh := hw tc htc (.keyed d) (by rw [e]; exact hget)
        have := hkeyed tc htc
        rw [e] at this
        rw [this]
        exact decide_eq_true hsh.1)
    (by
      rintro hpar f f' k v ⟨⟨hjp, hs, hdt, hn⟩, hkt⟩
      rw [hkt]
      refine ⟨?_, ?_, json_param_fixed env hT cf.params k v hjp⟩
      · have h1 := sql_param_cell hW cf dv asSql hpar f k (env := env)
          (by rcases hjp.1 with ⟨s, rfl⟩ | ⟨s, rfl⟩ | ⟨s, rfl⟩ <;> simp)
          (fun s e => hs s (.inl e))
          (fun d e => by rcases hjp.1 with ⟨s, h⟩ | ⟨s, h⟩ | ⟨s, h⟩ <;> rw [h] at e <;> cases e)
          (fun ha y e => hn ha y (.inl e))
        have h2 : jsonParamText env k = k := by
          rcases hjp.1 with ⟨s, rfl⟩ | ⟨s, rfl⟩ | ⟨s, rfl⟩ <;> rfl
        rw [h2] at h1
        exact h1
      · refine sql_param_cell hW cf dv asSql hpar f' v (env := env) ?_ (fun s e => hs s (.inr e)) hdt
          (fun ha y e => hn ha y (.inr e))
        rcases hjp.2 with ⟨_, h2, h3, _⟩ | ⟨d, _, rfl, _⟩
        · exact ⟨h2, h3⟩
        · simp)
  obtain ⟨db', h1, h2, h3⟩ := sql_write_read env senv cenv laws cf dv policy asSql schema hg hf dat dat' hk'
    (by
      intro tc htc
      obtain ⟨tab, tab', h4, h5, h6, h7, h8⟩ := hrel tc htc
      refine ⟨tab, tab', h4, h5, h6, h7, ?_⟩
      rw [isKeyed_of_shape tc.2 tab h6, ← hkeyed tc htc]
      exact h8) db hd hother
  refine ⟨db', h1, h2, fun db'' hs => ?_⟩
  obtain ⟨dat2, h4, h5⟩ := h3 db'' hs
  rw [hpost] at h5
  exact ⟨dat2, h4, h5⟩

theorem sql_new_db (cenv : CaseEnv) (laws : CaseLaws cenv) (schema : List (String × TabClass))
    (hg : goodTableNames cenv (schema.map (fun tc => tc.1.toList)) = true)
    (hf : ∀ tc ∈ schema, (tc.2.fields.map (fun f => cenv.lower f.toList)).Nodup) :
    ∃ db, sqlNewDb cenv schema = some db ∧ (PyDict.keys db).Nodup ∧
      (∀ tc ∈ schema, PyDict.get? db tc.1 = some []) ∧ PyDict.keys db = schema.map Prod.fst ∧
      ∀ k ∈ PyDict.keys db, ∀ tc ∈ schema, unblank (cenv.lower k.toList) = cenv.lower tc.1.toList → k = tc.1 := by
  have hg' : goodTableNames cenv ((schema.map Prod.fst).map String.toList) = true := by
    rw [List.map_map]; exact hg
  obtain ⟨_, hblank, hlow⟩ := (goodTableNames_iff cenv _).mp hg'
  have hnames : (schema.map Prod.fst).Nodup := nodup_of_map _ (nodup_of_map _ hlow)
  have hk : PyDict.keys (schema.map (fun tc => (tc.1, ([] : List (List Cell))))) = schema.map Prod.fst := by
    simp [PyDict.keys, Function.comp_def]
  refine ⟨schema.map (fun tc => (tc.1, [])), ?_, ?_, ?_, hk, ?_⟩
  · unfold sqlNewDb
    rw [if_pos]
    rw [List.all_eq_true]
    intro tc htc
    exact decide_eq_true (hf tc htc)
  · rw [hk]; exact hnames
  · intro tc htc
    exact PyDict.get?_of_mem (by rw [hk]; exact hnames) (List.mem_map.mpr ⟨tc, htc, rfl⟩)
  · intro k hkm tc htc he
    rw [hk] at hkm
    have hb : ' ' ∉ cenv.lower k.toList := by
      intro h
      unfold CaseEnv.lower at h
      rw [List.mem_flatMap] at h
      obtain ⟨c, hc, h⟩ := h
      have := laws.lo_no_blank c h
      rw [this] at hc
      exact hblank _ (List.mem_map.mpr ⟨k, hkm, rfl⟩) hc
    rw [unblank_of_no_blank _ hb] at he
    exact String.toList_injective (lower_inj_of_nodup hlow (List.mem_map.mpr ⟨k, hkm, rfl⟩)
      (List.mem_map.mpr ⟨tc.1, List.mem_map.mpr ⟨tc, htc, rfl⟩, rfl⟩) he)

/-- As `sql_file_round_trip`, for whatever cells survive. -/
theorem sql_file_trip_cells (env : TextEnv) (hT : ∀ d, env.date (.str (env.text (.dt d))) = some d) (senv : SqlEnv)
    (cenv : CaseEnv) (laws : CaseLaws cenv) (hW : SqlWords cenv senv) (cf : IOConf) (dv : Defaults) (policy : DupPolicy)
    (schema : List (String × TabClass))
    (hg : goodTableNames cenv (schema.map (fun tc => tc.1.toList)) = true)
    (hf : ∀ tc ∈ schema, (tc.2.fields.map (fun f => cenv.lower f.toList)).Nodup)
    (dat : PyDict String TabVal) (hk : PyDict.keys dat = schema.map Prod.fst)
    (hw : ∀ tc ∈ schema, ∀ tab, PyDict.get? dat tc.1 = some tab → WellShaped tc.2 tab)
    (hc : ∀ tc ∈ schema, ∀ tab, PyDict.get? dat tc.1 = some tab → ¬ IsParams cf.params tc.1 → ∀ f x,
      HasCell tc.2 tab f x → SqlCell env senv cenv cf dv true (decide (tc.2.pks ≠ [])) tc.1 f x x)
    (hp : ∀ tab, PyDict.get? dat "parameters" = some tab → cf.params ≠ [] →
      ParamEntries (SqlParam env cenv cf true) tab) :
    ∃ db, sqlRunFile env senv cenv cf dv schema dat = some db ∧ ∀ db', SameDb db db' →
      ∃ dat2, sqlCreate env cenv cf policy schema db' = some dat2 ∧ SameUpToOrder dat dat2 := by
  obtain ⟨db0, h1, h2, _, _, h5⟩ := sql_new_db cenv laws schema hg hf
  obtain ⟨db, h6, _, h7⟩ := sql_round_trip_core env hT senv cenv laws hW cf dv policy true schema hg
    (fun tc htc => nodup_of_map _ (hf tc htc)) dat hk hw hc hp db0 h2 h5
  exact ⟨db, by rw [sqlRunFile, h1, Option.bind_some, h6], h7⟩

/-- **C47, .sql files.**  A data object written to a .sql file and read from it is the same up to the order of the rows,
however SQLite orders tables and rows, provided that the cells are of the kinds `SqlSafe` and `SqlParam` describe. -/
theorem sql_file_round_trip (env : TextEnv) (hT : ∀ d, env.date (.str (env.text (.dt d))) = some d) (senv : SqlEnv)
    (cenv : CaseEnv) (laws : CaseLaws cenv) (hW : SqlWords cenv senv) (cf : IOConf) (dv : Defaults) (policy : DupPolicy)
    (schema : List (String × TabClass))
    (hg : goodTableNames cenv (schema.map (fun tc => tc.1.toList)) = true)
    (hf : ∀ tc ∈ schema, (tc.2.fields.map (fun f => cenv.lower f.toList)).Nodup)
    (dat : PyDict String TabVal) (hk : PyDict.keys dat = schema.map Prod.fst)
    (hw : ∀ tc ∈ schema, ∀ tab, PyDict.get? dat tc.1 = some tab → WellShaped tc.2 tab)
    (hc : ∀ tc ∈ schema, ∀ tab, PyDict.get? dat tc.1 = some tab → ¬ IsParams cf.params tc.1 → ∀ f x,
      HasCell tc.2 tab f x → SqlSafe env senv cenv cf dv true (decide (tc.2.pks ≠ [])) tc.1 f x)
    (hp : ∀ tab, PyDict.get? dat "parameters" = some tab → cf.params ≠ [] →
      ParamEntries (SqlParam env cenv cf true) tab) :
    ∃ db, sqlRunFile env senv cenv cf dv schema dat = some db ∧ ∀ db', SameDb db db' →
      ∃ dat2, sqlCreate env cenv cf policy schema db' = some dat2 ∧ SameUpToOrder dat dat2 :=
  sql_file_trip_cells env hT senv cenv laws hW cf dv policy schema hg hf dat hk hw
    (fun tc htc tab hget hnp f x hx => sql_cell_survives hT hW cf dv true _ tc.1 f x hnp (hc tc htc tab hget hnp f x hx)) hp

/-- As `sql_db_round_trip`, for whatever cells survive. -/
theorem sql_db_trip_cells (env : TextEnv) (hT : ∀ d, env.date (.str (env.text (.dt d))) = some d) (senv : SqlEnv)
    (cenv : CaseEnv) (laws : CaseLaws cenv) (hW : SqlWords cenv senv) (cf : IOConf) (dv : Defaults) (policy : DupPolicy)
    (allowOverwrite : Bool) (schema : List (String × TabClass))
    (hg : goodTableNames cenv (schema.map (fun tc => tc.1.toList)) = true)
    (hf : ∀ tc ∈ schema, (tc.2.fields.map (fun f => cenv.lower f.toList)).Nodup)
    (dat : PyDict String TabVal) (hk : PyDict.keys dat = schema.map Prod.fst)
    (hw : ∀ tc ∈ schema, ∀ tab, PyDict.get? dat tc.1 = some tab → WellShaped tc.2 tab)
    (hc : ∀ tc ∈ schema, ∀ tab, PyDict.get? dat tc.1 = some tab → ¬ IsParams cf.params tc.1 → ∀ f x,
      HasCell tc.2 tab f x → SqlCell env senv cenv cf dv false (decide (tc.2.pks ≠ [])) tc.1 f x x)
    (hp : ∀ tab, PyDict.get? dat "parameters" = some tab → cf.params ≠ [] →
      ParamEntries (SqlParam env cenv cf false) tab)
    (old : Option SqlDb)
    (hold : ∀ db, old = some db → (PyDict.keys db).Nodup ∧
      (∀ tc ∈ schema, ∃ rows, PyDict.get? db tc.1 = some rows ∧ (allowOverwrite = true ∨ rows = [])) ∧
      ∀ k ∈ PyDict.keys db, ∀ tc ∈ schema, unblank (cenv.lower k.toList) = cenv.lower tc.1.toList → k = tc.1) :
    ∃ db, sqlWriteDb env senv cenv cf dv allowOverwrite schema dat old = some db ∧
      (∀ db0, old = some db0 → ∀ k, (∀ tc ∈ schema, k ≠ tc.1) → PyDict.get? db k = PyDict.get? db0 k) ∧
      ∀ db', SameDb db db' → ∃ dat2, sqlCreate env cenv cf policy schema db' = some dat2 ∧ SameUpToOrder dat dat2 := by
  obtain ⟨db0, h1, h2, h3, h5, h6⟩ : ∃ db0, sqlOpen cenv schema old = some db0 ∧
      (PyDict.keys db0).Nodup ∧
      (∀ tc ∈ schema, ∃ rows, PyDict.get? db0 tc.1 = some rows ∧ (allowOverwrite = true ∨ rows = [])) ∧
      (∀ k ∈ PyDict.keys db0, ∀ tc ∈ schema, unblank (cenv.lower k.toList) = cenv.lower tc.1.toList → k = tc.1) ∧
      ∀ db, old = some db → db0 = db := by
    cases old with
    | none =>
      obtain ⟨db0, h1, h2, h3, _, h5⟩ := sql_new_db cenv laws schema hg hf
      exact ⟨db0, h1, h2, fun tc htc => ⟨[], h3 tc htc, .inr rfl⟩, h5, by simp⟩
    | some db =>
      obtain ⟨h1, h2, h3⟩ := hold db rfl
      exact ⟨db, rfl, h1, h2, h3, fun db' e => Option.some.inj e⟩
  obtain ⟨db, h7, h8, h9⟩ := sql_round_trip_core env hT senv cenv laws hW cf dv policy false schema hg
    (fun tc htc => nodup_of_map _ (hf tc htc)) dat hk hw hc hp db0 h2 h5
  refine ⟨db, ?_, ?_, h9⟩
  · unfold sqlWriteDb
    rw [h1, Option.bind_some, if_pos, h7]
    rw [List.all_eq_true]
    intro tc htc
    obtain ⟨rows, h10, h11⟩ := h3 tc htc
    have hin : tc.1 ∈ PyDict.keys db0 := by
      refine Classical.byContradiction (fun hno => ?_)
      rw [(PyDict.get?_eq_none _ _).mpr hno] at h10
      cases h10
    have hb : ∀ tc ∈ schema, ' ' ∉ cenv.lower tc.1.toList := by
      intro tc htc h
      unfold CaseEnv.lower at h
      rw [List.mem_flatMap] at h
      obtain ⟨c, hc, h⟩ := h
      have := laws.lo_no_blank c h
      rw [this] at hc
      exact ((goodTableNames_iff cenv _).mp hg).2.1 _ (List.mem_map.mpr ⟨tc, htc, rfl⟩) hc
    rw [sql_table_found cenv laws schema hg db0 h5 tc htc hin,
      sql_select_found cenv schema db0 h2 hb h5 tc htc rows h10]
    rcases h11 with h | h <;> simp [h]
  · intro db1 e k hk
    rw [h8 k hk, h6 db1 e]

/-- **C47, databases.**  A data object written to a SQLite database, a new one or one with the tables of the schema and
perhaps others, and read from it is the same up to the order of the rows, however SQLite orders tables and rows; other
tables of the database stay as they are; provided that the cells are of the kinds `SqlSafe` and `SqlParam` describe. -/
theorem sql_db_round_trip (env : TextEnv) (hT : ∀ d, env.date (.str (env.text (.dt d))) = some d) (senv : SqlEnv)
    (cenv : CaseEnv) (laws : CaseLaws cenv) (hW : SqlWords cenv senv) (cf : IOConf) (dv : Defaults) (policy : DupPolicy)
    (allowOverwrite : Bool) (schema : List (String × TabClass))
    (hg : goodTableNames cenv (schema.map (fun tc => tc.1.toList)) = true)
    (hf : ∀ tc ∈ schema, (tc.2.fields.map (fun f => cenv.lower f.toList)).Nodup)
    (dat : PyDict String TabVal) (hk : PyDict.keys dat = schema.map Prod.fst)
    (hw : ∀ tc ∈ schema, ∀ tab, PyDict.get? dat tc.1 = some tab → WellShaped tc.2 tab)
    (hc : ∀ tc ∈ schema, ∀ tab, PyDict.get? dat tc.1 = some tab → ¬ IsParams cf.params tc.1 → ∀ f x,
      HasCell tc.2 tab f x → SqlSafe env senv cenv cf dv false (decide (tc.2.pks ≠ [])) tc.1 f x)
    (hp : ∀ tab, PyDict.get? dat "parameters" = some tab → cf.params ≠ [] →
      ParamEntries (SqlParam env cenv cf false) tab)
    (old : Option SqlDb)
    (hold : ∀ db, old = some db → (PyDict.keys db).Nodup ∧
      (∀ tc ∈ schema, ∃ rows, PyDict.get? db tc.1 = some rows ∧ (allowOverwrite = true ∨ rows = [])) ∧
      ∀ k ∈ PyDict.keys db, ∀ tc ∈ schema, unblank (cenv.lower k.toList) = cenv.lower tc.1.toList → k = tc.1) :
    ∃ db, sqlWriteDb env senv cenv cf dv allowOverwrite schema dat old = some db ∧
      (∀ db0, old = some db0 → ∀ k, (∀ tc ∈ schema, k ≠ tc.1) → PyDict.get? db k = PyDict.get? db0 k) ∧
      ∀ db', SameDb db db' → ∃ dat2, sqlCreate env cenv cf policy schema db' = some dat2 ∧ SameUpToOrder dat dat2 :=
  sql_db_trip_cells env hT senv cenv laws hW cf dv policy allowOverwrite schema hg hf dat hk hw
    (fun tc htc tab hget hnp f x hx => sql_cell_survives hT hW cf dv false _ tc.1 f x hnp (hc tc htc tab hget hnp f x hx)) hp old hold

/-! ### Findings -/

theorem readCell_free (env : TextEnv) (t f : String) (x : Cell) :
    readCell env ⟨[], .na, false, []⟩ t f x = some x := by
  simp [readCell, DataTypes.at, PyDict.get?]

/-- A Boolean in a table without primary key comes back as a number, in databases and in .sql files: `_write_data_cell` is
not applied there. -/
theorem sql_plain_bool_becomes_number (env : TextEnv) (senv : SqlEnv) (cenv : CaseEnv) (dv : Defaults) (asSql b : Bool)
    (t f : String) :
    SqlCell env senv cenv ⟨[], .na, false, []⟩ dv asSql false t f (.bool b) (.num (.fin (if b then 1 else 0))) :=
  ⟨.num (.fin (if b then 1 else 0)), rfl, readCell_free env t f _⟩

/-- The text `True` comes back as a Boolean. -/
theorem sql_true_text_becomes_bool (env : TextEnv) (senv : SqlEnv) (cenv : CaseEnv) (hW : SqlWords cenv senv) (dv : Defaults)
    (keyed : Bool) (t f : String) :
    SqlCell env senv cenv ⟨[], .na, false, []⟩ dv false keyed t f (.str "True") (.bool true) := by
  refine ⟨.str "True", ?_, ?_⟩
  · have h : sqlStore env senv false (sqlAffinity ⟨[], .na, false, []⟩ dv t f) (.str "True") = some (.str "True") :=
      sqlStore_text env senv _ dv false t f "True" (fun _ => hW.numTr) (fun h => by cases h)
    cases keyed <;> simp [sqlCell, sqlWriteCell, writeCell, h]
  · unfold sqlReadCell
    simp only [hW.tr]
    rw [if_neg (by rintro ⟨h, _⟩; exact absurd h (by decide)), if_pos trivial]

/-- Without a flag the text `inf` comes back as infinity. -/
theorem sql_inf_text_becomes_number (env : TextEnv) (senv : SqlEnv) (cenv : CaseEnv) (hW : SqlWords cenv senv)
    (hn : senv.num "inf" = none) (dv : Defaults) (keyed : Bool) (t f : String) :
    SqlCell env senv cenv ⟨[], .na, false, []⟩ dv false keyed t f (.str "inf") (.num .pinf) := by
  refine ⟨.str "inf", ?_, ?_⟩
  · have h : sqlStore env senv false (sqlAffinity ⟨[], .na, false, []⟩ dv t f) (.str "inf") = some (.str "inf") :=
      sqlStore_text env senv _ dv false t f "inf" (fun _ => hn) (fun h => by cases h)
    cases keyed <;> simp [sqlCell, sqlWriteCell, writeCell, h]
  · unfold sqlReadCell
    simp only [hW.inf]
    rw [if_pos ⟨.inl trivial, trivial, fun h => h.2 rfl⟩, if_pos trivial]

/-- Text of digits in a data field whose default value is a number (which zero is if none was set) comes back as a
number. -/
theorem sql_digits_become_number (env : TextEnv) (senv : SqlEnv) (cenv : CaseEnv) (dv : Defaults) (keyed : Bool)
    (t f s : String) (x : XNum) (hs : senv.num s = some x) (v : Cell) (hd : dv t f = some v) (hv : v.numericish = true) :
    SqlCell env senv cenv ⟨[], .na, false, []⟩ dv false keyed t f (.str s) (.num x) := by
  have haff : sqlAffinity ⟨[], .na, false, []⟩ dv t f = true := by simp [sqlAffinity, hd, hv]
  refine ⟨.num x, ?_, readCell_free env t f _⟩
  cases keyed <;> simp [sqlCell, sqlWriteCell, writeCell, sqlStore, sqlStoreText, haff, hs]

/-- Under a numeric flag an infinity in a table without primary key is stored as an infinity in the database, although the
flag is to keep infinities out of it. -/
theorem sql_plain_infinity_not_flagged (env : TextEnv) (senv : SqlEnv) (cf : IOConf) (dv : Defaults) (t f : String) :
    sqlCell env senv cf dv false false t f (.num .pinf) = some (.num .pinf) := rfl

/-- And in a .sql file it comes back as the text `inf`. -/
theorem sql_plain_infinity_becomes_text (env : TextEnv) (senv : SqlEnv) (cenv : CaseEnv) (hW : SqlWords cenv senv) (q : Rat)
    (dv : Defaults) (t f : String) :
    SqlCell env senv cenv ⟨[], .num q, false, []⟩ dv true false t f (.num .pinf) (.str "inf") := by
  refine ⟨.str "inf", rfl, ?_⟩
  unfold sqlReadCell
  simp only [hW.inf]
  rw [if_neg (by rintro ⟨_, h, _⟩; cases h), if_neg (by decide), if_neg (by decide)]
  simp [readCell, DataTypes.at, PyDict.get?]

/-- NaN comes back as `None` from a database and cannot be read from a .sql file. -/
theorem sql_nan_becomes_none (env : TextEnv) (senv : SqlEnv) (cenv : CaseEnv) (dv : Defaults) (keyed : Bool) (t f : String) :
    SqlCell env senv cenv ⟨[], .na, false, []⟩ dv false keyed t f .nan .none ∧
      sqlCell env senv ⟨[], .na, false, []⟩ dv true keyed t f .nan = none := by
  constructor
  · refine ⟨.none, ?_, readCell_free env t f _⟩
    cases keyed <;> simp [sqlCell, sqlWriteCell, writeCell, sqlStore]
  · cases keyed <;> simp [sqlCell, sqlWriteCell, writeCell, sqlStore]

/-! ### Non-vacuity -/

/-- SQLite's numeric affinity, cut down to no text at all being a number. -/
def noNums : SqlEnv := ⟨fun _ => none⟩

theorem ascii_sqlWords : SqlWords asciiEnv noNums where
  tr := by decide
  fa := by decide
  inf := by decide
  ninf := by decide
  numTr := rfl
  numFa := rfl

/-- The object used in the example below. -/
def sqlExampleDat : PyDict String TabVal :=
  [("food_list", .keyed [(.one (.str "it's"), [("cost", .num .pinf)]), (.one (.str "egg"), [("cost", .bool true)])]),
    ("log", .plain [[("note", .str "a")], [("note", .none)]])]

def sqlExampleSchema : List (String × TabClass) := [("food_list", ⟨["name"], ["cost"], []⟩), ("log", ⟨[], ["note"], []⟩)]

theorem sqlExample_cells (asSql : Bool) : ∀ tc ∈ sqlExampleSchema, ∀ tab, PyDict.get? sqlExampleDat tc.1 = some tab →
    ¬ IsParams [] tc.1 → ∀ f x, HasCell tc.2 tab f x →
    SqlSafe unaryText noNums asciiEnv ⟨[], .num 1000, false, []⟩ (fun _ _ => some (.num (.fin 0))) asSql
      (decide (tc.2.pks ≠ [])) tc.1 f x := by
  have hword : ∀ s : String, asciiEnv.lower s.toList ≠ "true".toList → asciiEnv.lower s.toList ≠ "false".toList →
      NoSqlWord asciiEnv ⟨[], .num 1000, false, []⟩ s := fun s h1 h2 => ⟨h1, h2, fun h => by cases h⟩
  have hjs : ∀ t f x, t ≠ "parameters" → (∀ d, x ≠ Cell.dt d) → (∀ o, x ≠ Cell.other o) → (∀ y, x = .num y → y = .pinf) →
      JsonSafe unaryText ⟨[], .num 1000, false, []⟩ t f x := by
    intro t f x h1 h2 h3 h4
    refine ⟨h3, ?_⟩
    rw [if_neg h1]
    refine ⟨?_, ?_⟩
    · simp [ReadAsIs, typeOf, PyDict.get?]
      exact h2
    · refine ⟨by decide +kernel, fun y e => .inl (h4 y e)⟩
  intro tc htc tab hget _ f x hx
  simp only [sqlExampleSchema, List.mem_cons, List.not_mem_nil, or_false] at htc
  rcases htc with e | e <;> subst e
  · have hget : some (TabVal.keyed [(.one (.str "it's"), [("cost", .num .pinf)]), (.one (.str "egg"),
        [("cost", .bool true)])]) = some tab := hget
    cases hget
    simp only [HasCell, List.mem_cons, List.not_mem_nil, or_false] at hx
    obtain ⟨p, hp, h⟩ := hx
    have hx : x = .str "it's" ∨ x = .str "egg" ∨ x = .num .pinf ∨ x = .bool true := by
      rcases hp with hp | hp <;> subst hp <;> rcases h with ⟨i, hf, hi⟩ | h
      all_goals first
        | (rcases i with _ | i <;> simp [keyCells] at hi hf; subst hi hf; simp; done)
        | (simp only [PyDict.get?] at h; repeat' split at h
           all_goals first
             | (cases h; done)
             | (rename_i e; subst e; cases h; simp; done))
    rcases hx with rfl | rfl | rfl | rfl
    · refine ⟨hjs _ _ _ (by decide) (by simp) (by simp) (by simp), hword _ (by decide) (by decide), fun _ => rfl, fun _ => ?_⟩
      refine ⟨?_, by decide⟩
      rw [← fixStr_eq_doubled_iff]
      decide
    · refine ⟨hjs _ _ _ (by decide) (by simp) (by simp) (by simp), hword _ (by decide) (by decide), fun _ => rfl, fun _ => ?_⟩
      refine ⟨?_, by decide⟩
      rw [← fixStr_eq_doubled_iff]
      decide
    · exact ⟨hjs _ _ _ (by decide) (by simp) (by simp) (by simp), fun _ _ => .inr ⟨by decide, 1000, rfl⟩⟩
    · exact ⟨hjs _ _ _ (by decide) (by simp) (by simp) (by simp), show decide (_ ≠ []) = true from rfl⟩
  · have hget : some (TabVal.plain [[("note", .str "a")], [("note", .none)]]) = some tab := hget
    cases hget
    simp only [HasCell, List.mem_cons, List.not_mem_nil, or_false] at hx
    obtain ⟨p, hp, h⟩ := hx
    have hx : x = .str "a" ∨ x = .none := by
      rcases hp with hp | hp <;> subst hp <;> simp only [PyDict.get?] at h <;> split at h <;> simp_all
    rcases hx with rfl | rfl
    · refine ⟨hjs _ _ _ (by decide) (by simp) (by simp) (by simp), hword _ (by decide) (by decide), fun _ => rfl, fun _ => ?_⟩
      refine ⟨?_, by decide⟩
      rw [← fixStr_eq_doubled_iff]
      decide
    · exact ⟨hjs _ _ _ (by decide) (by simp) (by simp) (by simp), trivial⟩

theorem sqlExample_shape : ∀ tc ∈ sqlExampleSchema, ∀ tab, PyDict.get? sqlExampleDat tc.1 = some tab →
    WellShaped tc.2 tab := by
  intro tc htc tab hget
  simp only [sqlExampleSchema, List.mem_cons, List.not_mem_nil, or_false] at htc
  rcases htc with e | e <;> subst e
  · have hget : some (TabVal.keyed [(.one (.str "it's"), [("cost", .num .pinf)]), (.one (.str "egg"),
        [("cost", .bool true)])]) = some tab := hget
    cases hget
    refine ⟨by decide, by decide +kernel, ?_⟩
    intro p hp
    simp only [List.mem_cons, List.not_mem_nil, or_false] at hp
    rcases hp with rfl | rfl <;> exact ⟨rfl, rfl⟩
  · have hget : some (TabVal.plain [[("note", .str "a")], [("note", .none)]]) = some tab := hget
    cases hget
    refine ⟨rfl, ?_⟩
    intro p hp
    simp only [List.mem_cons, List.not_mem_nil, or_false] at hp
    rcases hp with rfl | rfl <;> rfl

example : ∃ db, sqlRunFile unaryText noNums asciiEnv ⟨[], .num 1000, false, []⟩ (fun _ _ => some (.num (.fin 0)))
      sqlExampleSchema sqlExampleDat = some db ∧ ∀ db', SameDb db db' →
      ∃ dat2, sqlCreate unaryText asciiEnv ⟨[], .num 1000, false, []⟩ .assert sqlExampleSchema db' = some dat2 ∧
        SameUpToOrder sqlExampleDat dat2 :=
  sql_file_round_trip unaryText unaryText_ok.dt noNums asciiEnv asciiLaws ascii_sqlWords _ _ _ _ (by decide +kernel)
    (by decide +kernel) _ rfl sqlExample_shape (sqlExample_cells true) (by simp)

example : ∃ db, sqlWriteDb unaryText noNums asciiEnv ⟨[], .num 1000, false, []⟩ (fun _ _ => some (.num (.fin 0))) false
      sqlExampleSchema sqlExampleDat (some [("other", []), ("log", []), ("food_list", [])]) = some db ∧
      ∀ db', SameDb db db' → ∃ dat2, sqlCreate unaryText asciiEnv ⟨[], .num 1000, false, []⟩ .assert sqlExampleSchema db' =
        some dat2 ∧ SameUpToOrder sqlExampleDat dat2 := by
  obtain ⟨db, h1, _, h2⟩ := sql_db_round_trip unaryText unaryText_ok.dt noNums asciiEnv asciiLaws ascii_sqlWords
    ⟨[], .num 1000, false, []⟩ (fun _ _ => some (.num (.fin 0))) .assert false sqlExampleSchema (by decide +kernel)
    (by decide +kernel) sqlExampleDat rfl sqlExample_shape (sqlExample_cells false) (by simp)
    (some [("other", []), ("log", []), ("food_list", [])])
    (by
      intro db e
      cases e
      refine ⟨by decide, ?_, by decide⟩
      intro tc htc
      simp only [sqlExampleSchema, List.mem_cons, List.not_mem_nil, or_false] at htc
      rcases htc with e | e <;> subst e <;> exact ⟨[], rfl, .inr rfl⟩)
  exact ⟨db, h1, h2⟩

end Ticdat

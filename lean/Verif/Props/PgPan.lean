import Verif.Props.Pg
import Verif.Props.PanAdjust
import Verif.Props.Good
import Verif.Props.Obfus
import Verif.Spec.PgPan
/-!
# C71: `PanDat` objects in PostgreSQL schemas
-/
set_option linter.unusedSectionVars false
set_option linter.unusedSimpArgs false
namespace Ticdat
open Spec

/-! ### The rows that are handed over -/

/-- The rows of a frame whose columns are known. -/
theorem rows_of_columns {R : Type} {fields : List String} (hn : fields.Nodup) {w : Frame} (hw : FrameOK w)
    (hc : w.cols = fields.map .name) (rows : List R) (hlen : w.rows.length = rows.length) (cell : R → String → Cell)
    (h : ∀ f ∈ fields, column w f = rows.map (fun r => cell r f)) :
    w.rows.map Prod.snd = rows.map (fun r => fields.map (cell r)) := by
  apply List.ext_getElem
  · simp [hlen]
  · intro i h1 h2
    have hi : i < w.rows.length := by simpa using h1
    have hi2 : i < rows.length := by simpa using h2
    simp only [List.getElem_map]
    have hl := (hw.rows _ (List.getElem_mem hi)).2
    rw [hc, List.length_map] at hl
    apply List.ext_getElem
    · simp [hl]
    · intro j g1 g2
      have hj : j < fields.length := by simpa using g2
      have := h _ (List.getElem_mem hj)
      have := congrArg (fun l => l[i]?) this
      simp only [column, List.getElem?_map, List.getElem?_eq_getElem hi, List.getElem?_eq_getElem hi2, Option.map_some,
        Option.some.injEq, colCell, hc, idxOf_name] at this
      have hidx : fields.idxOf fields[j] = j := by
        have := hn.idxOf_getElem j hj
        exact this
      rw [hidx, List.getElem?_eq_getElem g1, Option.getD_some] at this
      simp only [List.getElem_map]
      exact this

theorem mapCells_fields (W : String → Cell → Option Cell) (fields : List String) (g : String → Cell) :
    mapCells W fields (fields.map g) = fields.mapM (fun f => W f (g f)) := by
  unfold mapCells
  induction fields with
  | nil => rfl
  | cons f rest ih => rw [List.map_cons, List.zip_cons_cons, List.mapM_cons, List.mapM_cons, ih]

theorem asIs_cell (env : TextEnv) (store : Store) (t f : String) (x : Cell) : pgCell env handedAsIs store t f x = store t f x := by
  simp [pgCell, writeCell, handedAsIs]

theorem panWriteCell_tic {env : TextEnv} {cf : IOConf} (hq : ∀ q, cf.flag = .num q → 0 < q) {t f : String} (ht : t ≠ "parameters")
    {b : Option Bool} (hb : infBias env cf t f = some b) (x : Cell) : writeCell env cf t f x = some (panWriteCell cf b x) := by
  have h := pan_write_same_as_tic hq ht [x] [panWriteCell cf b x] (by
    rw [panWriteCol_cells env cf hq, hb]; rfl)
  simpa using h

/-- The frame that is uploaded, row by row. -/
theorem pre_any_rows {env : TextEnv} {cf : IOConf} (hq : ∀ q, cf.flag = .num q → 0 < q) (store : Store) {t : String} {c : TabClass}
    (hn : c.fields.Nodup) (hpar : t = "parameters" → cf.params ≠ [] → c.dfs.length = 1) {v : Frame} (hv : FrameOK v)
    (hall : ∀ f ∈ c.fields, Label.name f ∈ v.cols) {w : Frame} (hw : panPreAny env cf t c v = some w) :
    FrameOK w ∧ w.cols = c.fields.map .name ∧
    ∃ h : String → Cell → Cell, w.rows.map Prod.snd = v.rows.map (fun r => c.fields.map (fun f => h f (colCell v r (.name f)))) ∧
      ∀ f ∈ c.fields, ∀ x, panPgCell env cf store t c f x = store t f (h f x) := by
  unfold panPreAny at hw
  by_cases ht : t = "parameters"
  · rw [if_pos ht] at hw
    have hsel := select_eq hv (c.fields.map .name) (fun l hl => by
      obtain ⟨f, hf, e⟩ := List.mem_map.1 hl; subst e; exact hall f hf)
    rw [hsel, Option.bind_some] at hw
    generalize hv1 : ({ v with cols := c.fields.map .name, rows := v.rows.map (fun r => (r.1, (c.fields.map Label.name).map (colCell v r))) } : Frame) = v1 at *
    have hrows1 : v1.rows.map Prod.snd = v.rows.map (fun r => c.fields.map (fun f => colCell v r (.name f))) := by
      subst hv1
      simp [Function.comp_def]
    have hok : FrameOK v1 := by
      subst hv1
      refine ⟨fieldNames_nodup hn, hv.index, ?_⟩
      intro r hr
      obtain ⟨x, hx, e⟩ := List.mem_map.1 hr
      subst e
      exact ⟨(hv.rows x hx).1, by simp⟩
    have hc1 : v1.cols = c.fields.map .name := by subst hv1; rfl
    by_cases hp : cf.params = []
    · rw [if_pos hp] at hw
      obtain rfl := Option.some.inj hw
      refine ⟨hok, hc1, fun _ x => x, hrows1, ?_⟩
      intro f _ x
      simp [panPgCell, ht, hp]
    · rw [if_neg hp] at hw
      have hlen := hpar ht hp
      obtain ⟨d, hd⟩ : ∃ d, c.dfs = [d] := by
        cases hdf : c.dfs with
        | nil => rw [hdf] at hlen; simp at hlen
        | cons a l =>
          rw [hdf] at hlen
          have hl : l = [] := by
            apply List.length_eq_zero_iff.1
            simpa using hlen
          exact ⟨a, by rw [hl]⟩
      have hcol : ∀ f ∈ c.fields, column v1 f = v.rows.map (fun r => colCell v r (.name f)) := by
        intro f hf
        subst hv1
        unfold column
        simp only [List.map_map]
        apply List.map_congr_left
        intro r _
        have hlt := List.idxOf_lt_length_iff.2 hf
        simp only [Function.comp_apply, colCell, idxOf_name, List.getElem?_map, List.getElem?_eq_getElem hlt,
          List.getElem_idxOf hlt, Option.map_some, Option.getD_some]
      have hdm : d ∈ c.fields := by simp [TabClass.fields, hd]
      rw [hd] at hw
      obtain ⟨_, h2⟩ := adjust_spec (fun _ col => some (col.map panWriteParam)) (by
          intro f col w e
          obtain rfl := Option.some.inj e
          simp) [d] (by simp) v1 hok (by
          intro f hf
          rw [List.mem_singleton] at hf
          rw [hf, hc1]
          exact List.mem_map.2 ⟨d, hdm, rfl⟩)
      obtain ⟨g1, g2, g3, g4, g5, g6⟩ := h2 w hw
      refine ⟨g1, g3.trans hc1, fun f x => if f = d then panWriteParam x else x, ?_, ?_⟩
      · apply rows_of_columns hn g1 (g3.trans hc1)
        · have := congrArg List.length g4
          rw [← hv1] at this
          simpa using this
        · intro f hf
          by_cases e : f = d
          · subst e
            have := g5 f (by simp)
            rw [← Option.some.inj this, hcol f hf, List.map_map]
            simp
          · have := g6 (.name f) (by
              intro x hx e'
              rw [List.mem_singleton] at hx
              subst hx
              exact e (by injection e'))
            simp only [if_neg e]
            rw [← hcol f hf]
            exact this
      · intro f hf x
        unfold panPgCell
        rw [if_pos ht, hd]
        by_cases e : f = d
        · subst e
          simp only [List.mem_singleton, true_and, ne_eq, hp, not_false_eq_true, if_true]
          congr 1
          cases x <;> simp [panWriteParam, Cell.isNull]
        · simp [e]
  · rw [if_neg ht] at hw
    obtain ⟨_, p2⟩ := pre_spec (env := env) (cf := cf) (t := t) hn hv hall
    obtain ⟨g1, g2, g3, g4⟩ := p2 w hw
    refine ⟨g1, g2, fun f => panWriteCell cf ((infBias env cf t f).getD none), ?_, ?_⟩
    · apply rows_of_columns hn g1 g2 _ g3
      intro f hf
      have := g4 f hf
      rw [panWriteCol_cells env cf hq] at this
      cases hb : infBias env cf t f with
      | none => rw [hb] at this; simp at this
      | some b =>
        rw [hb] at this
        rw [← Option.some.inj this]
        simp [column, hb]
    · intro f hf x
      have := g4 f hf
      rw [panWriteCol_cells env cf hq] at this
      unfold panPgCell
      rw [if_neg ht]
      unfold pgCell
      cases hb : infBias env cf t f with
      | none => rw [hb] at this; simp at this
      | some b =>
        rw [panWriteCell_tic hq ht hb, Option.bind_some]
        simp only [hb, Option.getD_some]

/-- Storing the uploaded frame is storing the cells of the table. -/
theorem pre_any_stored {env : TextEnv} {cf : IOConf} (hq : ∀ q, cf.flag = .num q → 0 < q) (store : Store) {t : String} {c : TabClass}
    (hn : c.fields.Nodup) (hpar : t = "parameters" → cf.params ≠ [] → c.dfs.length = 1) {v : Frame} (hv : FrameOK v)
    (hall : ∀ f ∈ c.fields, Label.name f ∈ v.cols) {w : Frame} (hw : panPreAny env cf t c v = some w) :
    (w.rows.map (fun r => ((t, c), r.2))).mapM (pgStored env handedAsIs store) =
      (fieldRows c v).mapM (mapCells (panPgCell env cf store t c) c.fields) := by
  obtain ⟨_, _, h, h1, h2⟩ := pre_any_rows hq store hn hpar hv hall hw
  have e : w.rows.map (fun r => ((t, c), r.2)) = (w.rows.map Prod.snd).map (fun r => ((t, c), r)) := by simp
  rw [e, pg_mapM_rows, h1]
  unfold fieldRows
  rw [List.mapM_map, List.mapM_map]
  apply mapM_congr
  intro r _
  simp only [Function.comp_apply]
  rw [mapCells_fields, mapCells_fields]
  apply mapM_congr
  intro f hf
  rw [asIs_cell, h2 f hf]

/-! ### Uploading -/

theorem runSteps_append {A S : Type} (step : A → S → Option S) (l l' : List A) (s s' : S)
    (h : runSteps step l s = (s', false)) : runSteps step (l ++ l') s = runSteps step l' s' := by
  induction l generalizing s with
  | nil => cases h; rfl
  | cons a rest ih =>
    rw [List.cons_append, runSteps]
    rw [runSteps] at h
    cases hs : step a s with
    | none => rw [hs] at h; cases h
    | some s1 =>
      rw [hs] at h
      exact ih s1 h

theorem runSteps_append_fail {A S : Type} (step : A → S → Option S) (l l' : List A) (s : S)
    (h : (runSteps step l s).2 = true) : (runSteps step (l ++ l') s).2 = true := by
  induction l generalizing s with
  | nil => cases h
  | cons a rest ih =>
    rw [List.cons_append, runSteps]
    rw [runSteps] at h
    cases hs : step a s with
    | none => rfl
    | some s1 =>
      rw [hs] at h
      exact ih s1 h

theorem upload_spec (ins : (String × TabClass) × List Cell → PgDb → Option PgDb) (progress : Nat → Bool) (each : Bool)
    (data : List (List ((String × TabClass) × List Cell))) (i : Nat) (saved db : PgDb) (hs : each = true → saved = db) :
    ∃ n db' raised, pgPanUpload ins progress each i data saved db = (db', raised) ∧ n ≤ data.length ∧
      (raised = false → runSteps ins (data.take n).flatten db = (db', false) ∧ (∀ j, j + 1 < n → progress (i + j) = true) ∧
        (n = data.length ∨ (0 < n ∧ progress (i + (n - 1)) = false))) ∧
      (raised = true → n < data.length ∧ (runSteps ins data.flatten db).2 = true ∧
        (each = true → runSteps ins (data.take n).flatten db = (db', false)) ∧ (each = false → db' = saved)) := by
  induction data generalizing i saved db with
  | nil => exact ⟨0, db, false, rfl, by simp, fun _ => ⟨rfl, by simp, .inl rfl⟩, by simp⟩
  | cons rows rest ih =>
    unfold pgPanUpload
    cases hr : runSteps ins rows db with
    | mk db1 r =>
      cases r with
      | true =>
        refine ⟨0, saved, true, rfl, by simp, by simp, fun _ => ⟨by simp, ?_, fun he => ?_, fun _ => rfl⟩⟩
        · rw [List.flatten_cons]
          exact runSteps_append_fail _ _ _ _ (by rw [hr])
        · simp [runSteps, hs he]
      | false =>
        by_cases hp : progress i = true
        · simp only [if_pos hp]
          obtain ⟨n, db', raised, h1, h2, h3, h4⟩ := ih (i + 1) (if each then db1 else saved) db1 (fun he => by rw [if_pos he])
          refine ⟨n + 1, db', raised, h1, by simpa using h2, ?_, ?_⟩
          · intro hf
            obtain ⟨a1, a2, a3⟩ := h3 hf
            refine ⟨?_, ?_, ?_⟩
            · rw [List.take_succ_cons, List.flatten_cons, runSteps_append _ _ _ _ _ hr]
              exact a1
            · intro j hj
              cases j with
              | zero => exact hp
              | succ j =>
                have := a2 j (by omega)
                rw [show i + (j + 1) = i + 1 + j by omega]
                exact this
            · rcases a3 with a3 | ⟨a3, a4⟩
              · exact .inl (by simp [a3])
              · refine .inr ⟨by omega, ?_⟩
                rw [show i + (n + 1 - 1) = i + 1 + (n - 1) by omega]
                exact a4
          · intro ht
            obtain ⟨a1, a2, a3, a4⟩ := h4 ht
            refine ⟨by simpa using a1, ?_, ?_, ?_⟩
            · rw [List.flatten_cons, runSteps_append _ _ _ _ _ hr]
              exact a2
            · intro he
              rw [List.take_succ_cons, List.flatten_cons, runSteps_append _ _ _ _ _ hr]
              exact a3 he
            · intro he
              rw [a4 he, if_neg (by rw [he]; simp)]
        · simp only [if_neg hp]
          refine ⟨1, db1, false, rfl, by simp, fun _ => ⟨?_, by omega, .inr ⟨by simp, by simpa using hp⟩⟩, by simp⟩
          simpa using hr

theorem filter_flatten (R : String → List ((String × TabClass) × List Cell)) (l : List String) (hn : l.Nodup)
    (hR : ∀ t ∈ l, ∀ tr ∈ R t, tr.1.1 = t) (t : String) :
    (l.map R).flatten.filter (fun tr => decide (tr.1.1 = t)) = if t ∈ l then R t else [] := by
  induction l with
  | nil => simp
  | cons a rest ih =>
    rw [List.nodup_cons] at hn
    rw [List.map_cons, List.flatten_cons, List.filter_append, ih hn.2 (fun t ht => hR t (List.mem_cons_of_mem _ ht))]
    by_cases e : a = t
    · subst e
      have h1 : (R a).filter (fun tr => decide (tr.1.1 = a)) = R a := by
        rw [List.filter_eq_self]
        intro tr htr
        simpa using hR a List.mem_cons_self tr htr
      rw [h1, if_neg hn.1, if_pos List.mem_cons_self, List.append_nil]
    · have h1 : (R a).filter (fun tr => decide (tr.1.1 = t)) = [] := by
        rw [List.filter_eq_nil_iff]
        intro tr htr he
        have he : tr.1.1 = t := by simpa using he
        rw [hR a List.mem_cons_self tr htr] at he
        exact e he
      rw [h1, List.nil_append]
      have : (t ∈ a :: rest) ↔ t ∈ rest := by
        rw [List.mem_cons]
        exact ⟨fun h => h.resolve_left (fun h => e h.symm), .inr⟩
      simp only [this]

/-- The uploaded rows of one table. -/
theorem pan_data_rows (env : TextEnv) (cf : IOConf) (schema : List (String × TabClass)) (hn : (schema.map Prod.fst).Nodup)
    (dat : PyDict String Frame) (order : List String) (data : List (List ((String × TabClass) × List Cell)))
    (h : pgPanData env cf schema dat order = some data) :
    ∃ R : String → List ((String × TabClass) × List Cell), data = order.map R ∧
      ∀ t ∈ order, ∃ c v w, (t, c) ∈ schema ∧ PyDict.get? dat t = some v ∧ panPreAny env cf t c v = some w ∧
        R t = w.rows.map (fun r => ((t, c), r.2)) := by
  unfold pgPanData at h
  obtain ⟨h1, h2⟩ := mapM_getD _ [] _ _ h
  refine ⟨_, h1.symm, ?_⟩
  intro t ht
  have h3 := h2 t ht
  cases hc : PyDict.get? schema t with
  | none => rw [hc] at h3; cases h3
  | some c =>
    cases hv : PyDict.get? dat t with
    | none => rw [hc, Option.bind_some, hv] at h3; cases h3
    | some v =>
      cases hw : panPreAny env cf t c v with
      | none => rw [hc, Option.bind_some, hv, Option.bind_some, hw] at h3; cases h3
      | some w =>
        refine ⟨c, v, w, PyDict.get?_mem hc, rfl, hw, ?_⟩
        simp [hw]

/-- **C71, every outcome of `write_data`.**  Whatever the database accepts and refuses, and whenever `progress` says to stop:
tables that are not in the schema are untouched.  If no error is raised, the tables up to the one after which `progress`
said to stop, or all of them, have their old rows, unless they were to be deleted, followed by all rows of the `PanDat`; the
other tables have their old rows, unless they were to be deleted, and nothing else.  If an error is raised each table is as it
was, or empty if its rows were to be deleted, or, if pandas commits each table, has its new rows. -/
theorem pg_pan_write_outcome (env : TextEnv) (cenv : CaseEnv) (reserved : List (List Char)) (cf : IOConf)
    (hq : ∀ q, cf.flag = .num q → 0 < q) (store : Store)
    (check : PgDb → Bool) (useActive dflt : Bool) (del : String → Bool) (progress : Nat → Bool) (each : Bool)
    (order : List String) (schema : List (String × TabClass)) (hn : (schema.map Prod.fst).Nodup)
    (hf : ∀ tc ∈ schema, tc.2.fields.Nodup)
    (hpar : ∀ tc ∈ schema, tc.1 = "parameters" → cf.params ≠ [] → tc.2.dfs.length = 1)
    (ho : order.Nodup) (hin : ∀ t, t ∈ order ↔ t ∈ schema.map Prod.fst) (dat : PyDict String Frame)
    (hw : ∀ tc ∈ schema, ∀ v, PyDict.get? dat tc.1 = some v → FrameOK v) (db : PgDb) :
    ∃ db' raised, pgPanWrite env cenv reserved cf store check useActive dflt del progress each order schema dat db =
        (db', raised) ∧
      (∀ k, k ∉ schema.map Prod.fst → PyDict.get? db' k = PyDict.get? db k) ∧
      (raised = false → ∃ n, StopsAfter progress order.length n ∧
        ∀ tc ∈ schema, ∃ v old new, PyDict.get? dat tc.1 = some v ∧ PyDict.get? db tc.1 = some old ∧
          PyDict.get? db' tc.1 = some new ∧
          (tc.1 ∈ order.take n → Uploaded env cf store useActive dflt del tc v old new) ∧
          (tc.1 ∉ order.take n → new = { old with rows := if del tc.1 then [] else old.rows })) ∧
      (raised = true → ∀ tc ∈ schema, PyDict.get? db' tc.1 = PyDict.get? db tc.1 ∨
        (∃ old new, PyDict.get? db tc.1 = some old ∧ PyDict.get? db' tc.1 = some new ∧
          ((del tc.1 = true ∧ new = { old with rows := [] }) ∨
            (each = true ∧ ∃ v, PyDict.get? dat tc.1 = some v ∧ Uploaded env cf store useActive dflt del tc v old new)))) := by
  unfold pgPanWrite
  by_cases hall : schema.all (fun tc => pgCompatible cenv reserved tc.1.toList (tc.2.fields.map String.toList) &&
      ((PyDict.get? dat tc.1).map (goodPanTable tc.2)).getD false && PyDict.has db tc.1) = true
  · rw [if_pos hall]
    have hgood : ∀ tc ∈ schema, (∃ v, PyDict.get? dat tc.1 = some v ∧ ∀ f ∈ tc.2.fields, Label.name f ∈ v.cols) ∧
        ∃ old, PyDict.get? db tc.1 = some old := by
      intro tc htc
      have := List.all_eq_true.mp hall tc htc
      rw [Bool.and_eq_true, Bool.and_eq_true] at this
      obtain ⟨⟨_, h1⟩, h2⟩ := this
      constructor
      · cases hv : PyDict.get? dat tc.1 with
        | none => rw [hv] at h1; simp at h1
        | some v =>
          rw [hv] at h1
          refine ⟨v, rfl, ?_⟩
          intro f hf
          have := List.all_eq_true.mp (show goodPanTable tc.2 v = true by simpa using h1) f hf
          simpa [Frame.has] using this
      · have h := (PyDict.has_iff _ _).mp h2
        cases hx : PyDict.get? db tc.1 with
        | none => exact absurd h ((PyDict.get?_eq_none _ _).mp hx)
        | some old => exact ⟨old, rfl⟩
    obtain ⟨db1, r1, d1, d2, d3⟩ := pg_delete_run check del order.reverse db
    have hk1 : ∀ k, k ∉ schema.map Prod.fst → PyDict.get? db1 k = PyDict.get? db k := by
      intro k hk
      rcases d2 k with h | ⟨h, _⟩
      · exact h
      · exact absurd ((hin k).mp (List.mem_reverse.mp h)) hk
    have hfail : ∀ tc ∈ schema, PyDict.get? db1 tc.1 = PyDict.get? db tc.1 ∨
        (∃ old new, PyDict.get? db tc.1 = some old ∧ PyDict.get? db1 tc.1 = some new ∧
          ((del tc.1 = true ∧ new = { old with rows := [] }) ∨
            (each = true ∧ ∃ v, PyDict.get? dat tc.1 = some v ∧ Uploaded env cf store useActive dflt del tc v old new))) := by
      intro tc _
      rcases d2 tc.1 with h | ⟨_, h, old, h1, h2⟩
      · exact .inl h
      · exact .inr ⟨old, _, h1, h2, .inl ⟨h, rfl⟩⟩
    rw [d1]
    cases r1 with
    | true => exact ⟨db1, true, rfl, hk1, by simp, fun _ => hfail⟩
    | false =>
      simp only
      have hdb1 : ∀ tc ∈ schema, ∀ old, PyDict.get? db tc.1 = some old →
          PyDict.get? db1 tc.1 = some { old with rows := if del tc.1 then [] else old.rows } := by
        intro tc htc old hold
        have hio : tc.1 ∈ order := (hin _).mpr (List.mem_map.mpr ⟨tc, htc, rfl⟩)
        by_cases hd : del tc.1 = true
        · obtain ⟨old', h4, h5⟩ := d3 rfl tc.1 (List.mem_reverse.mpr hio) hd
          rw [hold] at h4
          cases h4
          rw [h5, if_pos hd]
        · rcases d2 tc.1 with h | ⟨_, h, _⟩
          · rw [h, hold, if_neg hd]
          · exact absurd h hd
      cases hdata : pgPanData env cf schema dat order with
      | none => exact ⟨db1, true, rfl, hk1, by simp, fun _ => hfail⟩
      | some data =>
        simp only
        obtain ⟨R, e1, hR⟩ := pan_data_rows env cf schema hn dat order data hdata
        have hR1 : ∀ t ∈ order, ∀ tr ∈ R t, tr.1.1 = t := by
          intro t ht tr htr
          obtain ⟨c, v, w, _, _, _, e⟩ := hR t ht
          rw [e] at htr
          obtain ⟨r, _, e⟩ := List.mem_map.1 htr
          subst e
          rfl
        -- what a completed upload of the first tables does
        have hrun : ∀ n db2, runSteps (pgInsert env handedAsIs store check useActive dflt) (data.take n).flatten db1 = (db2, false) →
            (∀ k, k ∉ schema.map Prod.fst → PyDict.get? db2 k = PyDict.get? db k) ∧
            ∀ tc ∈ schema, ∃ v old new, PyDict.get? dat tc.1 = some v ∧ PyDict.get? db tc.1 = some old ∧
              PyDict.get? db2 tc.1 = some new ∧
              (tc.1 ∈ order.take n → Uploaded env cf store useActive dflt del tc v old new) ∧
              (tc.1 ∉ order.take n → new = { old with rows := if del tc.1 then [] else old.rows }) := by
          intro n db2 hr
          obtain ⟨i1, i2⟩ := pg_insert_run env handedAsIs store check useActive dflt _ db1 db2 hr
          have hflat : ∀ t, (data.take n).flatten.filter (fun tr => decide (tr.1.1 = t)) = if t ∈ order.take n then R t else [] := by
            intro t
            rw [e1, ← List.map_take]
            exact filter_flatten R (order.take n) (List.Sublist.nodup (List.take_sublist _ _) ho)
              (fun t ht => hR1 t (List.mem_of_mem_take ht)) t
          constructor
          · intro k hk
            rw [i1 k, hk1 k hk]
            intro tr htr e
            have : tr ∈ (data.take n).flatten.filter (fun tr => decide (tr.1.1 = k)) :=
              List.mem_filter.2 ⟨htr, by simpa using e⟩
            rw [hflat] at this
            split at this
            · rename_i hk'
              exact hk ((hin k).1 (List.mem_of_mem_take hk'))
            · cases this
          · intro tc htc
            obtain ⟨⟨v, hv, hvc⟩, old, hold⟩ := hgood tc htc
            obtain ⟨stored, s1, s2, _⟩ := i2 tc.1 _ (hdb1 tc htc old hold)
            rw [hflat] at s1
            refine ⟨v, old, _, hv, hold, s2, ?_, ?_⟩
            · intro hmem
              rw [if_pos hmem] at s1
              obtain ⟨c, v', w, hc, hv', hw', e⟩ := hR tc.1 (List.mem_of_mem_take hmem)
              have a1 := PyDict.get?_of_mem hn (show (tc.1, tc.2) ∈ schema from htc)
              have a2 := PyDict.get?_of_mem hn hc
              rw [a1] at a2
              obtain rfl := Option.some.inj a2
              rw [hv] at hv'
              obtain rfl := Option.some.inj hv'
              rw [e, pre_any_stored hq store (hf tc htc) (hpar tc htc) (hw tc htc v hv) hvc hw'] at s1
              exact ⟨rfl, stored, (storedRows_iff _ _ _ _ (fun r hr => by
                obtain ⟨x, _, e⟩ := List.mem_map.1 hr
                subst e
                simp)).mp s1, rfl⟩
            · intro hmem
              rw [if_neg hmem] at s1
              obtain rfl : stored = [] := by simpa using s1.symm
              simp
        obtain ⟨n, db2, raised, u1, u2, u3, u4⟩ := upload_spec (pgInsert env handedAsIs store check useActive dflt) progress each
          data 0 db1 db1 (fun _ => rfl)
        have hlen : data.length = order.length := by rw [e1, List.length_map]
        rw [u1]
        cases raised with
        | false =>
          obtain ⟨a1, a2, a3⟩ := u3 rfl
          obtain ⟨b1, b2⟩ := hrun n db2 a1
          refine ⟨db2, false, rfl, b1, fun _ => ⟨n, ⟨by omega, ?_, ?_⟩, b2⟩, by simp⟩
          · intro i hi
            simpa using a2 i hi
          · rcases a3 with a3 | ⟨a3, a4⟩
            · exact .inl (by omega)
            · exact .inr ⟨a3, by simpa using a4⟩
        | true =>
          obtain ⟨_, _, a3, a4⟩ := u4 rfl
          cases each with
          | false =>
            rw [a4 rfl]
            exact ⟨db1, true, rfl, hk1, by simp, fun _ => hfail⟩
          | true =>
            obtain ⟨b1, b2⟩ := hrun n db2 (a3 rfl)
            refine ⟨db2, true, rfl, b1, by simp, fun _ tc htc => ?_⟩
            obtain ⟨v, old, new, c1, c2, c3, c4, c5⟩ := b2 tc htc
            by_cases hm : tc.1 ∈ order.take n
            · exact .inr ⟨old, new, c2, c3, .inr ⟨rfl, v, c1, c4 hm⟩⟩
            · have := c5 hm
              by_cases hd : del tc.1 = true
              · rw [if_pos hd] at this
                exact .inr ⟨old, new, c2, c3, .inl ⟨hd, this⟩⟩
              · rw [if_neg hd] at this
                left
                rw [c3, c2, this]
  · rw [if_neg hall]
    exact ⟨db, true, rfl, fun _ _ => rfl, by simp, fun _ tc _ => .inl rfl⟩

/-! ### Success -/

theorem pre_any_some {env : TextEnv} {cf : IOConf} (hq : ∀ q, cf.flag = .num q → 0 < q) {t : String} {c : TabClass} (hn : c.fields.Nodup)
    {v : Frame} (hv : FrameOK v) (hall : ∀ f ∈ c.fields, Label.name f ∈ v.cols)
    (hamb : t ≠ "parameters" → cf.flag = .none → ∀ f ∈ c.fields, ¬ NoneFlagAmbiguous env cf t f) :
    ∃ w, panPreAny env cf t c v = some w := by
  unfold panPreAny
  by_cases ht : t = "parameters"
  · rw [if_pos ht]
    have hsel := select_eq hv (c.fields.map .name) (fun l hl => by
      obtain ⟨f, hf, e⟩ := List.mem_map.1 hl; subst e; exact hall f hf)
    rw [hsel, Option.bind_some]
    by_cases hp : cf.params = []
    · rw [if_pos hp]; exact ⟨_, rfl⟩
    · rw [if_neg hp]
      generalize hv1 : ({ v with cols := c.fields.map .name, rows := v.rows.map (fun r => (r.1, (c.fields.map Label.name).map (colCell v r))) } : Frame) = v1
      have hok : FrameOK v1 := by
        subst hv1
        refine ⟨fieldNames_nodup hn, hv.index, ?_⟩
        intro r hr
        obtain ⟨x, hx, e⟩ := List.mem_map.1 hr
        subst e
        exact ⟨(hv.rows x hx).1, by simp⟩
      have hd : (c.dfs.take 1).Nodup := by
        cases c.dfs <;> simp
      have h1 := (adjust_spec (fun _ col => some (col.map panWriteParam)) (by
          intro f col w e
          obtain rfl := Option.some.inj e
          simp) (c.dfs.take 1) hd v1 hok (by
          intro f hf
          have : f ∈ c.fields := List.mem_append_right _ (List.mem_of_mem_take hf)
          subst hv1
          exact List.mem_map.2 ⟨f, this, rfl⟩)).1
      cases h : v1.adjust (fun _ col => some (col.map panWriteParam)) (c.dfs.take 1) with
      | some w => exact ⟨w, rfl⟩
      | none =>
        obtain ⟨f, _, e⟩ := h1.1 h
        cases e
  · rw [if_neg ht]
    cases h : panPre env cf t c v with
    | some w => exact ⟨w, rfl⟩
    | none =>
      obtain ⟨f, hf, e⟩ := (pre_spec hn hv hall).1.1 h
      rw [panWriteCol_cells env cf hq] at e
      cases hb : infBias env cf t f with
      | some b => rw [hb] at e; cases e
      | none =>
        by_cases hfl : cf.flag = .none
        · exact absurd ((infBias_none_iff hfl).1 hb) (hamb ht hfl f hf)
        · simp [infBias, hfl] at hb

theorem pairwise_flatten {A : Type} {R : A → A → Prop} {P : String → String → Prop} (g : A → String) (F : String → List A)
    (l : List String) (hF : ∀ t ∈ l, ∀ a ∈ F t, g a = t) (hl : l.Pairwise P) (hP : ∀ a b, P (g a) (g b) → R a b)
    (hself : ∀ t ∈ l, (F t).Pairwise R) : (l.map F).flatten.Pairwise R := by
  induction l with
  | nil => simp
  | cons t rest ih =>
    rw [List.pairwise_cons] at hl
    rw [List.map_cons, List.flatten_cons, List.pairwise_append]
    refine ⟨hself t List.mem_cons_self, ih (fun t' ht' => hF t' (List.mem_cons_of_mem _ ht')) hl.2
      (fun t' ht' => hself t' (List.mem_cons_of_mem _ ht')), ?_⟩
    intro a ha b hb
    rw [List.mem_flatten] at hb
    obtain ⟨_, hb1, hb2⟩ := hb
    obtain ⟨t', ht', e⟩ := List.mem_map.1 hb1
    subst e
    apply hP
    rw [hF t List.mem_cons_self a ha, hF t' (List.mem_cons_of_mem _ ht') b hb2]
    exact hl.1 t' ht'

/-- **C71, a write that succeeds.**  Foreign keys are acyclic and satisfied by the rows as they will be stored, the
primary keys too, and rows to which others refer are only deleted with these: then no error is raised, and by
`pg_pan_write_outcome` all rows are written unless `progress` says to stop. -/
theorem pg_pan_write_succeeds (env : TextEnv) (cenv : CaseEnv) (reserved : List (List Char)) (cf : IOConf)
    (hq : ∀ q, cf.flag = .num q → 0 < q) (store : Store)
    (useActive dflt : Bool) (del : String → Bool) (progress : Nat → Bool) (each : Bool)
    (schema : List (String × TabClass)) (hn : (schema.map Prod.fst).Nodup) (hf : ∀ tc ∈ schema, tc.2.fields.Nodup)
    (hpar : ∀ tc ∈ schema, tc.1 = "parameters" → cf.params ≠ [] → tc.2.dfs.length = 1)
    (hamb : ∀ tc ∈ schema, tc.1 ≠ "parameters" → cf.flag = .none → ∀ f ∈ tc.2.fields, ¬ NoneFlagAmbiguous env cf tc.1 f)
    (fks : List FK) (htab : ∀ k ∈ fks, k.foreign ∈ schema.map Prod.fst ∧ k.native ∈ schema.map Prod.fst)
    (hac : Acyclic fks) (fuel : Nat) (hfuel : fks.length < fuel) (order : List String)
    (ho : pgOrder fks (schema.map Prod.fst) fuel = some order)
    (pfks : List PgFk) (hp : ∀ p ∈ pfks, ∃ k ∈ fks, k.native = p.native ∧ k.foreign = p.foreign)
    (hdel : ∀ p ∈ pfks, del p.foreign = true → del p.native = true)
    (db : PgDb) (hnames : ∀ tc ∈ schema,
      pgCompatible cenv reserved tc.1.toList (tc.2.fields.map String.toList) = true ∧ tc.1 ∈ PyDict.keys db)
    (hold : PgConsistent pfks (rowsIn db))
    (dat : PyDict String Frame) (stored : String → List (List Cell))
    (hst : ∀ tc ∈ schema, ∃ v, PyDict.get? dat tc.1 = some v ∧ FrameOK v ∧ (∀ f ∈ tc.2.fields, Label.name f ∈ v.cols) ∧
      StoredRows (panPgCell env cf store tc.1 tc.2) tc.2.fields (fieldRows tc.2 v) (stored tc.1))
    (hfin : PgConsistent pfks (fun t => (if del t then [] else rowsIn db t) ++ stored t))
    (hkeys : ∀ tc ∈ schema, tc.2.pks ≠ [] →
      (((if del tc.1 then [] else rowsIn db tc.1) ++ stored tc.1).map (List.take tc.2.pks.length)).Nodup) :
    (pgPanWrite env cenv reserved cf store (pgFksHold pfks) useActive dflt del progress each order schema dat db).2 = false := by
  obtain ⟨o1, o2, o3, o4⟩ := pg_order_pairwise fks (schema.map Prod.fst) (fun k h => (htab k h).1) hac fuel hfuel order ho
  have hself : ∀ p ∈ pfks, p.native ≠ p.foreign := by
    intro p hpp
    obtain ⟨k, hk, e1, e2⟩ := hp p hpp
    rw [← e1, ← e2]
    exact o3 k hk
  have hin : ∀ p ∈ pfks, p.native ∈ schema.map Prod.fst ∧ p.foreign ∈ schema.map Prod.fst := by
    intro p hpp
    obtain ⟨k, hk, e1, e2⟩ := hp p hpp
    rw [← e1, ← e2]
    exact ⟨(htab k hk).2, (htab k hk).1⟩
  have o4' : order.Pairwise (fun a b => ∀ p ∈ pfks, ¬ (p.native = a ∧ p.foreign = b)) := by
    refine o4.imp ?_
    rintro a b h p hpp ⟨e3, e4⟩
    obtain ⟨k, hk, e1, e2⟩ := hp p hpp
    exact h k hk ⟨by rw [e1, e3], by rw [e2, e4]⟩
  unfold pgPanWrite
  rw [if_pos (by
    rw [List.all_eq_true]
    intro tc htc
    obtain ⟨v, hv, _, hvc, _⟩ := hst tc htc
    rw [Bool.and_eq_true, Bool.and_eq_true]
    refine ⟨⟨(hnames tc htc).1, ?_⟩, (PyDict.has_iff _ _).mpr (hnames tc htc).2⟩
    rw [hv, Option.map_some, Option.getD_some]
    unfold goodPanTable
    rw [List.all_eq_true]
    intro f hf
    simpa [Frame.has] using hvc f hf)]
  have hpres : ∀ t ∈ schema.map Prod.fst, ∃ tab, PyDict.get? db t = some tab := by
    intro t ht
    obtain ⟨tc, htc, rfl⟩ := List.mem_map.mp ht
    cases hx : PyDict.get? db tc.1 with
    | none => exact absurd (hnames tc htc).2 ((PyDict.get?_eq_none _ _).mp hx)
    | some tab => exact ⟨tab, rfl⟩
  obtain ⟨dk, hdc⟩ := pg_delete_ok pfks del hself hdel order.reverse db
    (fun t ht => hpres t ((o2 t).mp (List.mem_reverse.mp ht))) hold
    (by
      rw [List.pairwise_reverse]
      exact o4'.imp (fun {a b} h p hpp hh => h p hpp ⟨hh.2, hh.1⟩))
    (fun p hpp _ => .inl (List.mem_reverse.mpr ((o2 _).mpr (hin p hpp).1)))
  obtain ⟨db1, r1, d1, d2, d3⟩ := pg_delete_run (pgFksHold pfks) del order.reverse db
  rw [d1] at dk hdc
  have dk : r1 = false := dk
  subst dk
  rw [d1]
  simp only
  obtain ⟨data, hdata⟩ : ∃ data, pgPanData env cf schema dat order = some data := by
    unfold pgPanData
    refine mapM_some_of_forall _ _ ?_
    intro t ht
    obtain ⟨tc, htc, e⟩ := List.mem_map.1 ((o2 t).1 ht)
    subst e
    obtain ⟨v, hv, hok, hvc, _⟩ := hst tc htc
    obtain ⟨w, hw⟩ := pre_any_some hq (hf tc htc) hok hvc (hamb tc htc)
    simp only [PyDict.get?_of_mem hn (show (tc.1, tc.2) ∈ schema from htc), Option.bind_some, hv, hw, Option.map_some,
      Option.isSome_some]
  rw [hdata]
  simp only
  obtain ⟨R, e1, hR⟩ := pan_data_rows env cf schema hn dat order data hdata
  have hR1 : ∀ t ∈ order, ∀ tr ∈ R t, tr.1.1 = t := by
    intro t ht tr htr
    obtain ⟨c, v, w, _, _, _, e⟩ := hR t ht
    rw [e] at htr
    obtain ⟨r, _, e⟩ := List.mem_map.1 htr
    subst e
    rfl
  have hin2 : ∀ tr ∈ data.flatten, tr.1 ∈ schema := by
    intro tr htr
    rw [e1] at htr
    obtain ⟨_, h1, h2⟩ := List.mem_flatten.1 htr
    obtain ⟨t, ht, e⟩ := List.mem_map.1 h1
    subst e
    obtain ⟨c, v, w, hc, _, _, e⟩ := hR t ht
    rw [e] at h2
    obtain ⟨r, _, e⟩ := List.mem_map.1 h2
    subst e
    exact hc
  have hS : ∀ tc ∈ schema, storedOf (fun tr => (pgStored env handedAsIs store tr).getD []) tc.1 data.flatten = stored tc.1 ∧
      ∀ tr ∈ data.flatten, tr.1.1 = tc.1 → pgStored env handedAsIs store tr = some ((pgStored env handedAsIs store tr).getD []) := by
    intro tc htc
    obtain ⟨v, hv, hok, hvc, h3⟩ := hst tc htc
    have h3 := (storedRows_iff _ _ _ _ (fun r hr => by
      obtain ⟨x, _, e⟩ := List.mem_map.1 hr
      subst e
      simp)).mpr h3
    have hio : tc.1 ∈ order := (o2 _).mpr (List.mem_map.mpr ⟨tc, htc, rfl⟩)
    obtain ⟨c, v', w, hc, hv', hw', e⟩ := hR tc.1 hio
    have a1 := PyDict.get?_of_mem hn (show (tc.1, tc.2) ∈ schema from htc)
    have a2 := PyDict.get?_of_mem hn hc
    rw [a1] at a2
    obtain rfl := Option.some.inj a2
    rw [hv] at hv'
    obtain rfl := Option.some.inj hv'
    rw [← pre_any_stored hq store (hf tc htc) (hpar tc htc) hok hvc hw', ← e] at h3
    have hfl : data.flatten.filter (fun tr => decide (tr.1.1 = tc.1)) = R tc.1 := by
      rw [e1, filter_flatten R order o1 hR1, if_pos hio]
    rw [← hfl] at h3
    obtain ⟨h4, h5⟩ := mapM_getD _ [] _ _ h3
    exact ⟨h4, fun tr htr e => h5 tr (List.mem_filter.mpr ⟨htr, by simpa using e⟩)⟩
  have hbase : ∀ t ∈ schema.map Prod.fst, rowsIn db1 t = if del t then [] else rowsIn db t := by
    intro t ht
    by_cases hd : del t = true
    · obtain ⟨old, _, h⟩ := d3 rfl t (List.mem_reverse.mpr ((o2 t).mpr ht)) hd
      simp [rowsIn, h, hd]
    · rcases d2 t with h | ⟨_, h, _⟩
      · simp [rowsIn, h, hd]
      · exact absurd h hd
  have hrun := pg_insert_all_ok env handedAsIs store pfks useActive dflt (fun tr => (pgStored env handedAsIs store tr).getD [])
    (rowsIn db1) hdc data.flatten (fun tr htr => (hS tr.1 (hin2 tr htr)).2 tr htr rfl)
    (by
      have hall : ∀ t ∈ schema.map Prod.fst, rowsIn db1 t ++ storedOf (fun tr => (pgStored env handedAsIs store tr).getD []) t data.flatten =
          (if del t then [] else rowsIn db t) ++ stored t := by
        intro t ht
        obtain ⟨tc, htc, rfl⟩ := List.mem_map.mp ht
        rw [hbase _ ht, (hS tc htc).1]
      intro p hpp r hr
      simp only at hr ⊢
      rw [hall _ (hin p hpp).1] at hr
      rw [hall _ (hin p hpp).2]
      exact hfin p hpp r hr)
    (by
      rw [e1]
      refine pairwise_flatten (fun tr => tr.1.1) R order hR1 o4' (fun a b h => h) ?_
      intro t ht
      rw [List.pairwise_iff_forall_sublist]
      intro a b hab p hpp h
      have ha := hR1 t ht a (hab.subset (by simp))
      have hb := hR1 t ht b (hab.subset (by simp))
      exact hself p hpp (by rw [h.1, h.2, ha, hb]))
    (by
      intro tr htr hpk
      have := hkeys tr.1 (hin2 tr htr) hpk
      rw [(hS tr.1 (hin2 tr htr)).1, hbase _ (List.mem_map.mpr ⟨tr.1, hin2 tr htr, rfl⟩)]
      exact this)
    data.flatten [] rfl db1 (fun t => by simp [storedOf])
    (by
      intro tr htr
      obtain ⟨tab, h⟩ := hpres tr.1.1 (List.mem_map.mpr ⟨tr.1, hin2 tr htr, rfl⟩)
      rcases d2 tr.1.1 with h' | ⟨_, _, _, _, h'⟩
      · exact ⟨tab, by rw [h', h]⟩
      · exact ⟨_, h'⟩)
  obtain ⟨n, db2, raised, u1, _, _, u4⟩ := upload_spec (pgInsert env handedAsIs store (pgFksHold pfks) useActive dflt) progress each
    data 0 db1 db1 (fun _ => rfl)
  rw [u1]
  cases raised with
  | false => rfl
  | true =>
    obtain ⟨_, h, _⟩ := u4 rfl
    rw [hrun] at h
    cases h

/-! ### Reading -/

/-- What becomes of a row that is read. -/
def panPostRow (env : TextEnv) (lower : String → String) (cf : IOConf) (json : Bool) (t : String) (c : TabClass) (r : List Cell) : List Cell :=
  if t = "parameters" then
    if cf.params = [] then r
    else match r with
      | [k, v] => [k, panFixParam env lower cf.params true json k v]
      | r => r
  else List.zipWith (fun f y => panJsonNone lower cf json t f (panReadCell env cf t f ((infBias env cf t f).getD none) y)) c.fields r

theorem row_as_map {fields : List String} (hn : fields.Nodup) {r : List Cell} (h : r.length = fields.length) :
    fields.map (fun f => (r[fields.idxOf f]?).getD .none) = r := by
  apply List.ext_getElem
  · simp [h]
  · intro i h1 h2
    have hi : i < fields.length := by simpa using h1
    rw [List.getElem_map, hn.idxOf_getElem i hi, List.getElem?_eq_getElem h2, Option.getD_some]

theorem rows_as_map {fields : List String} (hn : fields.Nodup) {rows : List (List Cell)} (h : ∀ r ∈ rows, r.length = fields.length) :
    rows = rows.map (fun r => fields.map (fun f => (r[fields.idxOf f]?).getD .none)) := by
  symm
  apply map_eq_self
  intro r hr
  exact row_as_map hn (h r hr)

theorem post_any_rows {env : TextEnv} {lower : String → String} {cf : IOConf} {json : Bool} {t : String} {c : TabClass} (hn : c.fields.Nodup)
    (hne : c.fields ≠ []) (hpar : t = "parameters" → cf.params ≠ [] → ∃ k f, c.pks = [k] ∧ c.dfs = [f])
    (hb : t ≠ "parameters" → ∀ f ∈ c.fields, ∃ b, infBias env cf t f = some b)
    (rows : List (List Cell)) (hrows : ∀ r ∈ rows, r.length = c.fields.length) :
    panPostAny env lower cf true json t c (plainFrame c.fields rows) = some (plainFrame c.fields (rows.map (panPostRow env lower cf json t c))) := by
  have hok := plainFrame_ok hn hrows
  unfold panPostAny
  by_cases ht : t = "parameters"
  · rw [if_pos ht]
    by_cases hp : cf.params = []
    · rw [if_pos hp]
      congr 2
      symm
      apply map_eq_self
      intro r _
      simp [panPostRow, ht, hp]
    · rw [if_neg hp]
      obtain ⟨k, f, e1, e2⟩ := hpar ht hp
      have hfields : c.fields = [k, f] := by simp [TabClass.fields, e1, e2]
      rw [e1, e2]
      simp only
      have hk : Label.name k ∈ (plainFrame c.fields rows).cols := by simp [plainFrame, hfields]
      have hf : Label.name f ∈ (plainFrame c.fields rows).cols := by simp [plainFrame, hfields]
      rw [colOf_eq hok hk, colOf_eq hok hf]
      have hrows2 := rows_as_map hn hrows
      have ck : column (plainFrame c.fields rows) k = rows.map (fun r => (r[c.fields.idxOf k]?).getD .none) := by
        rw [hrows2, column_plain _ _ (by simp [hfields]), ← hrows2]
      have cf' : column (plainFrame c.fields rows) f = rows.map (fun r => (r[c.fields.idxOf f]?).getD .none) := by
        rw [hrows2, column_plain _ _ (by simp [hfields]), ← hrows2]
      have hkf : k ≠ f := by
        rw [hfields] at hn
        simpa using hn
      have ik : c.fields.idxOf k = 0 := by rw [hfields]; simp
      have iff' : c.fields.idxOf f = 1 := by
        rw [hfields, List.idxOf_cons, beq_eq_false_iff_ne.2 hkf]
        simp
      have hz : List.zipWith (panFixParam env lower cf.params true json) (column (plainFrame c.fields rows) k)
          (column (plainFrame c.fields rows) f) = rows.map (fun r => panFixParam env lower cf.params true json
            ((r[0]?).getD .none) ((r[1]?).getD .none)) := by
        rw [ck, cf', ik, iff', List.zipWith_map, List.zipWith_self]
      change some _ = some _
      rw [hz]
      congr 1
      have hlen : (rows.map (fun r => panFixParam env lower cf.params true json ((r[0]?).getD .none) ((r[1]?).getD .none))).length =
          (plainFrame c.fields rows).rows.length := by simp [plainFrame]
      have hrow : rows.map (panPostRow env lower cf json t c) = rows.map (fun r => c.fields.map (fun g =>
          if g = f then panFixParam env lower cf.params true json ((r[0]?).getD .none) ((r[1]?).getD .none) else (r[0]?).getD .none)) := by
        apply List.map_congr_left
        intro r hr
        have hl := hrows r hr
        rw [hfields] at hl ⊢
        match r, hl with
        | [x, y], _ => simp [panPostRow, ht, hp, hkf]
      rw [hrow]
      obtain ⟨s1, s2, _⟩ := setCol_column hok hf hlen
      apply eq_plain hn hne (setCol_ok hok f _) (by rfl) (by rfl)
      intro g hg
      by_cases e : g = f
      · subst e
        simp only [if_true]
        exact s1
      · simp only [if_neg e]
        have hg' : g = k := by
          rw [hfields] at hg
          simpa [e] using hg
        subst hg'
        have := s2 (.name g) (fun h => e (by injection h))
        rw [ik] at ck
        rw [← ck]
        exact this
  · rw [if_neg ht]
    unfold panPost
    have hin : ∀ f ∈ c.fields, Label.name f ∈ (plainFrame c.fields rows).cols := by
      intro f hf
      exact List.mem_map.2 ⟨f, hf, rfl⟩
    obtain ⟨h1, h2⟩ := adjust_spec (panReadCol env lower cf json t) (fun f col w h => panReadCol_len h) c.fields hn
      (plainFrame c.fields rows) hok hin
    have hrows2 := rows_as_map hn hrows
    cases h : (plainFrame c.fields rows).adjust (panReadCol env lower cf json t) c.fields with
    | none =>
      obtain ⟨f, hf, e⟩ := h1.1 h
      obtain ⟨b, hb⟩ := hb ht f hf
      rw [panReadCol_any, hb] at e
      cases e
    | some w =>
      obtain ⟨g1, g2, g3, g4, g5, g6⟩ := h2 w h
      congr 1
      have hrow : rows.map (panPostRow env lower cf json t c) = rows.map (fun r => c.fields.map (fun f =>
          panJsonNone lower cf json t f (panReadCell env cf t f ((infBias env cf t f).getD none) ((r[c.fields.idxOf f]?).getD .none)))) := by
        apply List.map_congr_left
        intro r hr
        unfold panPostRow
        rw [if_neg ht]
        apply List.ext_getElem
        · simp [hrows r hr]
        · intro i i1 i2
          have hi : i < c.fields.length := by simpa using i2
          rw [List.getElem_zipWith, List.getElem_map, hn.idxOf_getElem i hi,
            List.getElem?_eq_getElem (by rw [hrows r hr]; exact hi), Option.getD_some]
      rw [hrow]
      apply eq_plain hn hne g1 g2 g3
      intro f hf
      have := g5 f hf
      obtain ⟨b, hb⟩ := hb ht f hf
      rw [panReadCol_any, hb, Option.map_some] at this
      rw [← Option.some.inj this]
      rw [hrows2, column_plain _ _ hf, ← hrows2, List.map_map]
      simp [hb]

/-! ### Round trips -/

theorem handed_of_survives {env : TextEnv} {cf : IOConf} {t f : String} {b : Option Bool} (hb : infBias env cf t f = some b) {x : Cell}
    (h : CellSurvives env cf t f x) : Handed env cf true t f x (panWriteCell cf b x) := by
  unfold Handed panWriteCell
  cases hf : cf.flag with
  | na => rfl
  | num q =>
    obtain ⟨hq, hx⟩ := h.num q hf
    have hqq : ¬ q < -q := by grind
    cases x with
    | num y =>
      simp only
      refine ⟨?_, ?_, ?_⟩
      · intro e; cases e
        simp [clamp, XNum.lt, hqq]
      · intro e; cases e
        simp [clamp, XNum.lt]
      · intro h1 h2
        cases y with
        | pinf => exact absurd rfl h1
        | ninf => exact absurd rfl h2
        | fin a =>
          obtain ⟨h3, h4⟩ := hx a rfl
          have h5 := Rat.not_lt.mpr (Rat.le_of_lt h4)
          have h6 := Rat.not_lt.mpr (Rat.le_of_lt h3)
          simp [clamp, XNum.lt, h5, h6]
    | _ => simp
  | none =>
    cases b with
    | none =>
      refine .inr ⟨?_, rfl⟩
      rintro ⟨_, y, _, hm⟩
      have : ∃ pos, y = infOf pos := by
        obtain ⟨td, _, _, _, h⟩ := hm
        rcases h with ⟨h, _⟩ | ⟨h, _⟩
        · exact ⟨true, h⟩
        · exact ⟨false, h⟩
      obtain ⟨pos, rfl⟩ := this
      rw [← infBias_some_iff hf, hb] at hm
      cases hm
    | some pos =>
      have hm := (infBias_some_iff hf pos).mp hb
      simp only
      split
      · rename_i hx
        exact .inl ⟨by trivial, _, hx, hm, rfl⟩
      · rename_i hx
        refine .inr ⟨?_, rfl⟩
        rintro ⟨_, y, e, hm2⟩
        have : ∃ pos, y = infOf pos := by
          obtain ⟨td, _, _, _, h⟩ := hm2
          rcases h with ⟨h, _⟩ | ⟨h, _⟩
          · exact ⟨true, h⟩
          · exact ⟨false, h⟩
        obtain ⟨pos2, rfl⟩ := this
        rw [← infBias_some_iff hf, hb] at hm2
        cases hm2
        exact hx e

theorem sameOrNull_trans {x y z : Cell} (h : SameOrNull x y) (h' : SameOrNull y z) : SameOrNull x z := by
  rcases h with rfl | ⟨h1, h2⟩
  · exact h'
  · rcases h' with rfl | ⟨h3, h4⟩
    · exact .inr ⟨h1, h2⟩
    · exact .inr ⟨h1, h4⟩

/-- What is handed over as a datetime is one. -/
theorem handed_date {cf : IOConf} {b : Option Bool} {x : Cell} {d : Nat} (h : panWriteCell cf b x = .dt d) : x = .dt d := by
  unfold panWriteCell at h
  split at h
  · exact h
  · split at h
    · cases h
    · exact h
  · split at h
    · split at h
      · cases h
      · exact h
    · exact h

/-- The text of a datetime in a field of datetimes. -/
theorem read_date_text {env : TextEnv} {cf : IOConf} {t f : String} {b : Option Bool} {td : TypeDict} {s : String} {d : Nat}
    (h1 : typeOf cf.types t f = some td) (h2 : td.datetime = true) (h3 : env.date (.str s) = some d) :
    panReadCell env cf t f b (.str s) = .dt d := by
  have e : cf.types.at t f = some td := by rw [at_eq_typeOf]; exact h1
  have e1 : panFlagInf cf (.str s) = .str s := by
    unfold panFlagInf
    split <;> rfl
  have e2 : panMulti env cf t f (.str s) = .str s := by simp [panMulti, e, h2]
  have e3 : panNullInf b (.str s) = .str s := by cases b <;> rfl
  unfold panReadCell
  rw [e1, e2, e3]
  simp [panDate, e, h2, dateAdjust, h3]

theorem jsonNone_same {lower : String → String} {cf : IOConf} {json : Bool} {t f : String} {x : Cell}
    (h : ∀ td, typeOf cf.types t f = some td → td.nullable = true → td.numberAllowed = false → ∀ s, x = .str s → lower s ≠ "none") :
    panJsonNone lower cf json t f x = x := by
  unfold panJsonNone
  split
  · rename_i hc
    split
    · rename_i s
      rw [if_neg]
      rw [Bool.and_eq_true] at hc
      cases e : cf.types.at t f with
      | none => rw [e] at hc; simp at hc
      | some td =>
        rw [e] at hc
        simp only [Option.map_some, Option.getD_some, Bool.and_eq_true, Bool.not_eq_true'] at hc
        exact h td (by rw [← at_eq_typeOf]; exact e) hc.2.2 hc.2.1.1.2 s rfl
    · rfl
  · rfl

/-- A parameter that is stored is read back. -/
theorem pg_pan_param {env : TextEnv} (hT : TextOK env) (lower : String → String) (json : Bool) {params : Params} {store : Store} {k v : Cell}
    (h : PgPanParam env params store k v)
    (hj : json = true → ¬ Null v → ∀ td, paramType params k = some td → Valid env.parses td .none → lower (env.text v) ≠ "none") : ∃ w, (∀ f, store "parameters" f (nullAsNone v) = some w) ∧
      ∀ z, SameOrNull w z → SameOrNull v (panFixParam env lower params true json k z) := by
  obtain ⟨_, _, w, td, h1, h2, h3, h4⟩ := h
  refine ⟨w, h1, ?_⟩
  intro z hz
  rcases h4 with ⟨h4, h5⟩ | ⟨h4, h6, h5⟩ | ⟨h4, d, rfl, h5⟩
  · have hzn : Null z := by
      rcases hz with rfl | ⟨_, h⟩
      · exact h5
      · exact h
    have hval : td.validData env.parses z = true := by
      rw [valid_data_iff]
      rcases h3 with ⟨_, h⟩ | ⟨h, _⟩ | ⟨_, y, h, _⟩ | ⟨_, s, h, _⟩
      · exact .inl ⟨hzn, h⟩
      · exact absurd h4 h
      · subst h; rcases h4 with h | h <;> cases h
      · subst h; rcases h4 with h | h <;> cases h
    refine .inr ⟨h4, ?_⟩
    unfold panFixParam
    rcases hzn with rfl | rfl <;>
    · simp only [paramType_eq, h2, Option.map_some, Option.getD_some, Cell.stringish, Bool.and_false, Bool.false_and,
        Bool.false_eq_true, if_false, Option.bind_none, hval, Bool.not_true, toFloat]
      cases td.numberAllowed <;> simp [Null]
  · rcases h6 with rfl | rfl
    · have hw : ¬ Null w := by
        rcases h5 with ⟨x, rfl⟩ | ⟨s, rfl, _⟩ <;> rintro (h | h) <;> cases h
      rw [sameOrNull_not_null hz hw]
      left
      have hval := (valid_data_iff env.parses td w).2 h3
      unfold panFixParam
      simp only [paramType_eq, h2, Option.map_some, Option.getD_some, h4, Bool.false_and, Bool.false_eq_true, if_false,
        Option.bind_none, hval, Bool.not_true, Bool.and_false]
      rcases h5 with ⟨x, rfl⟩ | ⟨s, rfl, hs⟩
      · cases td.numberAllowed <;> simp [toFloat]
      · have hnone : json = true → lower s = "none" → td.validData env.parses .none = false := by
          intro h1 h2'
          cases hh : td.validData env.parses .none with
          | false => rfl
          | true =>
            exact absurd (by rw [hT.str]; exact h2') (hj h1 hw td h2 ((valid_data_iff _ _ _).1 hh))
        cases hna : td.numberAllowed with
        | false => simpa using hnone
        | true => simpa [toFloat, hs hna] using hnone
    · have hw : ¬ Null v := by
        rcases h5 with ⟨x, rfl⟩ | ⟨s, rfl, _⟩ <;> rintro (h | h) <;> cases h
      have hv : panWriteParam v = v := by
        rcases h5 with ⟨x, rfl⟩ | ⟨s, rfl, _⟩ <;> rfl
      rw [sameOrNull_not_null hz (by rintro (h | h) <;> cases h)]
      have := pan_param_text_round_trip hT lower params true k v td h2 h4 h3 h5
      rw [hv] at this
      have hnone : (json && decide (lower (env.text v) = "none") && td.validData env.parses .none) = false := by
        cases hh : td.validData env.parses .none with
        | false => simp
        | true =>
          cases json with
          | false => rfl
          | true => simp [hj rfl hw td h2 ((valid_data_iff _ _ _).1 hh)]
      refine .inl (this.symm.trans ?_)
      unfold panFixParam
      simp only [paramType_eq, h2, Option.map_some, Option.getD_some, hnone, Bool.false_and]
  · have hval := (valid_data_iff env.parses td (.dt d)).2 h3
    rcases h5 with rfl | ⟨s, rfl, h5⟩
    · rw [sameOrNull_not_null hz (by rintro (h | h) <;> cases h)]
      left
      unfold panFixParam
      simp only [paramType_eq, h2, Option.map_some, Option.getD_some, Cell.stringish, Bool.and_false, Bool.false_and,
        Bool.false_eq_true, if_false, Option.bind_none, hval, Bool.not_true, toFloat]
      cases td.numberAllowed <;> simp
    · rw [sameOrNull_not_null hz (by rintro (h | h) <;> cases h)]
      left
      unfold panFixParam
      simp only [paramType_eq, h2, Option.map_some, Option.getD_some, h4, Cell.stringish, Bool.and_self, if_true, dateAdjust,
        h5, Option.bind_some, hval]

/-- The rows of a table that survives are stored, and are read back up to the kind of null. -/
theorem pg_pan_safe_rows {env : TextEnv} (hT : TextOK env) (lower : String → String) (json : Bool) {cf : IOConf} (hq : ∀ q, cf.flag = .num q → 0 < q)
    {store : Store} {t : String} {c : TabClass} (hn : c.fields.Nodup) {v : Frame} (hs : PgPanSafe env cf store t c v)
    (hj : json = true → PanNoNone env lower cf t c v) :
    ∃ stored, StoredRows (panPgCell env cf store t c) c.fields (fieldRows c v) stored ∧
      Pairwise2 (fun row ws => ∀ zs, Pairwise2 SameOrNull ws zs → Pairwise2 SameOrNull row (panPostRow env lower cf json t c zs))
        (fieldRows c v) stored := by
  have key : ∀ row ∈ fieldRows c v, ∃ ws, mapCells (panPgCell env cf store t c) c.fields row = some ws ∧
      ∀ zs, Pairwise2 SameOrNull ws zs → Pairwise2 SameOrNull row (panPostRow env lower cf json t c zs) := by
    intro row hrow
    -- cell by cell, if reading is
    have bycell : ∀ (P : String → Cell → Cell) , (∀ f ∈ c.fields, ∀ x ∈ column v f, ∃ w, panPgCell env cf store t c f x = some w ∧
          ∀ z, SameOrNull w z → SameOrNull x (P f z)) →
        (∀ zs, zs.length = c.fields.length → panPostRow env lower cf json t c zs = List.zipWith P c.fields zs) →
        ∃ ws, mapCells (panPgCell env cf store t c) c.fields row = some ws ∧
          ∀ zs, Pairwise2 SameOrNull ws zs → Pairwise2 SameOrNull row (panPostRow env lower cf json t c zs) := by
      intro P hP hz
      obtain ⟨r, hr, e⟩ := List.mem_map.1 hrow
      subst e
      rw [mapCells_fields]
      have h1 : ∀ f ∈ c.fields, ∃ w, panPgCell env cf store t c f (colCell v r (.name f)) = some w ∧
          ∀ z, SameOrNull w z → SameOrNull (colCell v r (.name f)) (P f z) := fun f hf =>
        hP f hf _ (List.mem_map.2 ⟨r, hr, rfl⟩)
      have h2 : ∀ fs : List String, (∀ f ∈ fs, f ∈ c.fields) → ∃ ws,
          fs.mapM (fun f => panPgCell env cf store t c f (colCell v r (.name f))) = some ws ∧
          ∀ zs, Pairwise2 SameOrNull ws zs → zs.length = fs.length ∧
            Pairwise2 SameOrNull (fs.map (fun f => colCell v r (.name f))) (List.zipWith P fs zs) := by
        intro fs
        induction fs with
        | nil =>
          intro _
          refine ⟨[], rfl, ?_⟩
          intro zs h
          cases h
          exact ⟨rfl, .nil⟩
        | cons f fs ih =>
          intro hfs
          obtain ⟨w, a1, a2⟩ := h1 f (hfs f List.mem_cons_self)
          obtain ⟨ws, b1, b2⟩ := ih (fun g hg => hfs g (List.mem_cons_of_mem _ hg))
          refine ⟨w :: ws, by rw [List.mapM_cons, a1, b1]; rfl, ?_⟩
          intro zs h
          cases h with
          | cons h3 h4 =>
            obtain ⟨c1, c2⟩ := b2 _ h4
            exact ⟨by simp [c1], .cons (a2 _ h3) c2⟩
      obtain ⟨ws, a1, a2⟩ := h2 c.fields (fun f hf => hf)
      refine ⟨ws, a1, ?_⟩
      intro zs h
      obtain ⟨b1, b2⟩ := a2 zs h
      rw [hz zs b1]
      exact b2
    by_cases ht : t = "parameters"
    · by_cases hp : cf.params = []
      · apply bycell (fun _ z => z)
        · intro f hf x hx
          obtain ⟨z, h1, h2⟩ := hs.2.1 ht hp f hf x hx
          refine ⟨z, by simp [panPgCell, ht, hp]; rw [← ht]; exact h1, ?_⟩
          intro z' h
          exact sameOrNull_trans h2 h
        · intro zs hzs
          unfold panPostRow
          rw [if_pos ht, if_pos hp]
          apply List.ext_getElem
          · simp [hzs]
          · intro i _ _
            simp
      · obtain ⟨k, f, e1, e2, h3⟩ := hs.2.2 ht hp
        obtain ⟨x, y, rfl, hxy⟩ := h3 row hrow
        have hfields : c.fields = [k, f] := by simp [TabClass.fields, e1, e2]
        have hkf : k ≠ f := by
          rw [hfields] at hn
          simpa using hn
        obtain ⟨w, p2, p3⟩ := pg_pan_param hT lower json hxy (fun h hn => (hj h).2 ht _ hrow _ _ rfl hn)
        have hx := hxy.1
        have hk := hxy.2.1
        refine ⟨[x, w], ?_, ?_⟩
        · have q1 : panPgCell env cf store t c k x = some x := by
            simp [panPgCell, ht, e2, hkf, hk]
          have q2 : panPgCell env cf store t c f y = some w := by
            unfold panPgCell
            rw [if_pos ht, ht, ← p2 f]
            congr 1
            cases y <;> simp [nullAsNone, hp, e2]
          rw [hfields]
          unfold mapCells
          simp [q1, q2]
        · intro zs h
          cases h with
          | cons h1 h2 =>
            cases h2 with
            | cons h2 h3 =>
              cases h3
              rw [sameOrNull_not_null h1 hx]
              rename_i z2
              have : panPostRow env lower cf json t c [x, z2] = [x, panFixParam env lower cf.params true json x z2] := by
                simp [panPostRow, ht, hp]
              rw [this]
              exact .cons (.inl rfl) (.cons (p3 _ h2) .nil)
    · apply bycell (fun f z => panJsonNone lower cf json t f (panReadCell env cf t f ((infBias env cf t f).getD none) z))
      · intro f hf x hx
        obtain ⟨h1, h2⟩ := hs.1 ht f hf
        obtain ⟨_, ⟨b, hb⟩, h3⟩ := survives_cells h1
        obtain ⟨z, h4, h5⟩ := h2 x hx _ (handed_of_survives hb (h3 x hx))
        refine ⟨z, ?_, ?_⟩
        · unfold panPgCell
          rw [if_neg ht]
          unfold pgCell
          rw [panWriteCell_tic hq ht hb, Option.bind_some]
          exact h4
        · intro z' h
          rw [hb, Option.getD_some]
          have hsame : SameOrNull x (panReadCell env cf t f b z') := by
            rcases h5 with h5 | ⟨td, d, s, a1, a2, a3, rfl, a4⟩
            · exact (cell_survives hb (h3 x hx) z' (sameOrNull_trans h5 h)).1
            · left
              rw [sameOrNull_not_null h (by rintro (h | h) <;> cases h), read_date_text a1 a2 a4]
              exact handed_date a3
          by_cases hj' : json = true
          · rcases hsame with e | ⟨e1, e2⟩
            · rw [← e]
              left
              symm
              apply jsonNone_same
              intro td e1 e2 e3 s e4
              subst e4
              exact (hj hj').1 ht f hf td e1 e2 e3 s hx
            · rcases e2 with e2 | e2 <;> rw [e2, jsonNone_same] <;>
                first | exact .inr ⟨e1, .inl rfl⟩ | exact .inr ⟨e1, .inr rfl⟩ | (intro _ _ _ _ _ h; cases h)
          · have : panJsonNone lower cf json t f (panReadCell env cf t f b z') = panReadCell env cf t f b z' := by
              simp [panJsonNone, hj']
            rw [this]
            exact hsame
      · intro zs _
        unfold panPostRow
        rw [if_neg ht]
  have hl : ∀ r ∈ fieldRows c v, r.length = c.fields.length := by
    intro r hr
    obtain ⟨x, _, e⟩ := List.mem_map.1 hr
    subst e
    simp
  obtain ⟨stored, h1, h2⟩ := pairwise2_mapM_of (g := mapCells (panPgCell env cf store t c) c.fields)
    (R := fun row ws => ∀ zs, Pairwise2 SameOrNull ws zs → Pairwise2 SameOrNull row (panPostRow env lower cf json t c zs))
    (fieldRows c v) key
  exact ⟨stored, (storedRows_iff _ _ _ _ hl).mp h1, h2⟩

theorem pairwise2_zip {A B : Type} {R : A → B → Prop} {l : List A} {l' : List B} (h : Pairwise2 R l l') :
    (l.zip l').map Prod.fst = l ∧ (l.zip l').map Prod.snd = l' ∧ ∀ p ∈ l.zip l', R p.1 p.2 := by
  induction h with
  | nil => simp
  | cons h1 _ ih =>
    obtain ⟨i1, i2, i3⟩ := ih
    refine ⟨by rw [List.zip_cons_cons, List.map_cons, i1], by rw [List.zip_cons_cons, List.map_cons, i2], ?_⟩
    intro p hp
    rw [List.zip_cons_cons] at hp
    rcases List.mem_cons.1 hp with rfl | hp
    · exact h1
    · exact i3 p hp

/-- One table that is read. -/
theorem pg_pan_read_table {env : TextEnv} {lower : String → String} {cf : IOConf} {sql : String → List (List Cell) → List (List Cell)}
    (hsql : ∀ t rows, Pairwise2 (Pairwise2 SameOrNull) rows (sql t rows)) {useActive : Bool} {db : PgDb} {tc : String × TabClass}
    (hn : tc.2.fields.Nodup) (hne : tc.2.fields ≠ []) (hd : (PyDict.keys tc.2.defaults).Nodup)
    (hsub : ∀ f ∈ PyDict.keys tc.2.defaults, f ∈ tc.2.fields)
    (hpar : tc.1 = "parameters" → cf.params ≠ [] → ∃ k f, tc.2.pks = [k] ∧ tc.2.dfs = [f])
    (hb : tc.1 ≠ "parameters" → ∀ f ∈ tc.2.fields, ∃ b, infBias env cf tc.1 f = some b) {tab : PgTable}
    (hg : PyDict.get? db tc.1 = some tab) (rows stored : List (List Cell)) (hl : ∀ r ∈ stored, r.length = tc.2.fields.length)
    (hperm : List.Perm ((tab.rows.filter (fun r => !(useActive && tab.active) || r.1)).map Prod.snd) stored)
    (h : Pairwise2 (fun row ws => ∀ zs, Pairwise2 SameOrNull ws zs → Pairwise2 SameOrNull row (panPostRow env lower cf false tc.1 tc.2 zs))
      rows stored) :
    ∃ rows' rs, List.Perm rows' rows ∧ Pairwise2 (Pairwise2 SameOrNull) rows' rs ∧
      pgPanTable env lower cf sql useActive db tc = some (plainFrame tc.2.fields rs) := by
  obtain ⟨z1, z2, z3⟩ := pairwise2_zip h
  obtain ⟨d2, p1, p2⟩ := perm_map_lift Prod.snd hperm (rows.zip stored) z2
  have hs := hsql tc.1 ((tab.rows.filter (fun r => !(useActive && tab.active) || r.1)).map Prod.snd)
  refine ⟨d2.map Prod.fst, (sql tc.1 ((tab.rows.filter (fun r => !(useActive && tab.active) || r.1)).map Prod.snd)).map
    (panPostRow env lower cf false tc.1 tc.2), ?_, ?_, ?_⟩
  · have := p1.map Prod.fst
    rw [z1] at this
    exact this
  · rw [← p2] at hs
    rw [pairwise2_map_left] at hs
    rw [← p2]
    apply pairwise2_maps
    refine pairwise2_strengthen hs ?_
    intro p hp zs hz
    exact z3 p (p1.subset hp) zs hz
  · unfold pgPanTable
    rw [hg]
    simp only
    rw [show (⟨[], tc.2.fields.map Label.name, (sql tc.1 ((tab.rows.filter (fun r => !(useActive && tab.active) || r.1)).map Prod.snd)).map
      (fun r => ([], r))⟩ : Frame) = plainFrame tc.2.fields (sql tc.1 ((tab.rows.filter (fun r => !(useActive && tab.active) || r.1)).map Prod.snd)) from rfl]
    rw [pan_copy_same tc.2 hd hsub _ [] (by simp [plainFrame]), Option.bind_some]
    apply post_any_rows hn hne hpar hb
    intro r hr
    obtain ⟨a, ha, hra⟩ := pairwise2_mem hs r hr
    rw [pairwise2_length hra]
    exact hl a (hperm.subset ha)

/-- **C71, round trip.**  A `PanDat` written over whatever a consistent database held, and read with the same `active_fld` (or
again without one), has the same rows, up to their order and the kind of null, in columns in order of the schema; other
tables stay as they are; provided that the database keeps the cells, as spelled out in `PgPanSafe`, that pandas reads what the
database has up to the kind of null, that the foreign keys are acyclic, and that the rows as stored satisfy them and the
primary keys. -/
theorem pg_pan_round_trip (env : TextEnv) (hT : TextOK env) (lower : String → String) (cenv : CaseEnv) (reserved : List (List Char))
    (cf : IOConf) (hq : ∀ q, cf.flag = .num q → 0 < q) (store : Store)
    (sql : String → List (List Cell) → List (List Cell)) (hsql : ∀ t rows, Pairwise2 (Pairwise2 SameOrNull) rows (sql t rows))
    (useActive dflt : Bool) (progress : Nat → Bool) (hprog : ∀ i, progress i = true) (each : Bool)
    (schema : List (String × TabClass)) (hn : (schema.map Prod.fst).Nodup)
    (hf : ∀ tc ∈ schema, tc.2.fields.Nodup ∧ tc.2.fields ≠ [] ∧ (PyDict.keys tc.2.defaults).Nodup ∧
      ∀ f ∈ PyDict.keys tc.2.defaults, f ∈ tc.2.fields)
    (fks : List FK) (htab : ∀ k ∈ fks, k.foreign ∈ schema.map Prod.fst ∧ k.native ∈ schema.map Prod.fst)
    (hac : Acyclic fks) (fuel : Nat) (hfuel : fks.length < fuel) (order : List String)
    (ho : pgOrder fks (schema.map Prod.fst) fuel = some order)
    (pfks : List PgFk) (hp : ∀ p ∈ pfks, ∃ k ∈ fks, k.native = p.native ∧ k.foreign = p.foreign)
    (db : PgDb) (hnames : ∀ tc ∈ schema,
      pgCompatible cenv reserved tc.1.toList (tc.2.fields.map String.toList) = true ∧ tc.1 ∈ PyDict.keys db)
    (hold : PgConsistent pfks (rowsIn db)) (dat : PyDict String Frame)
    (hdat : ∀ tc ∈ schema, ∃ v, PyDict.get? dat tc.1 = some v ∧ FrameOK v ∧ (∀ f ∈ tc.2.fields, Label.name f ∈ v.cols) ∧
      PgPanSafe env cf store tc.1 tc.2 v)
    (hst : ∀ stored : String → List (List Cell), (∀ tc ∈ schema, ∀ v, PyDict.get? dat tc.1 = some v →
      StoredRows (panPgCell env cf store tc.1 tc.2) tc.2.fields (fieldRows tc.2 v) (stored tc.1)) →
      PgConsistent pfks stored ∧ ∀ tc ∈ schema, tc.2.pks ≠ [] → ((stored tc.1).map (List.take tc.2.pks.length)).Nodup) :
    ∃ db', pgPanWrite env cenv reserved cf store (pgFksHold pfks) useActive dflt (fun _ => true) progress each order schema dat db =
        (db', false) ∧
      (∀ k, k ∉ schema.map Prod.fst → PyDict.get? db' k = PyDict.get? db k) ∧
      ∀ db'', SamePg db' db'' → ∃ dat2, pgPanCreate env lower cenv reserved cf sql useActive schema db'' = some dat2 ∧
        PyDict.keys dat2 = schema.map Prod.fst ∧
        ∀ tc ∈ schema, ∃ v rows rs, PyDict.get? dat tc.1 = some v ∧ List.Perm rows (fieldRows tc.2 v) ∧
          Pairwise2 (Pairwise2 SameOrNull) rows rs ∧ PyDict.get? dat2 tc.1 = some (plainFrame tc.2.fields rs) := by
  have hpar : ∀ tc ∈ schema, tc.1 = "parameters" → cf.params ≠ [] → ∃ k f, tc.2.pks = [k] ∧ tc.2.dfs = [f] := by
    intro tc htc ht hpr
    obtain ⟨v, _, _, _, hs⟩ := hdat tc htc
    obtain ⟨k, f, e1, e2, _⟩ := hs.2.2 ht hpr
    exact ⟨k, f, e1, e2⟩
  have hpar1 : ∀ tc ∈ schema, tc.1 = "parameters" → cf.params ≠ [] → tc.2.dfs.length = 1 := by
    intro tc htc ht hpr
    obtain ⟨k, f, _, e⟩ := hpar tc htc ht hpr
    rw [e]; rfl
  have hbias : ∀ tc ∈ schema, tc.1 ≠ "parameters" → ∀ f ∈ tc.2.fields, ∃ b, infBias env cf tc.1 f = some b := by
    intro tc htc ht f hff
    obtain ⟨v, _, _, _, hs⟩ := hdat tc htc
    exact (survives_cells (hs.1 ht f hff).1).2.1
  have hamb : ∀ tc ∈ schema, tc.1 ≠ "parameters" → cf.flag = .none → ∀ f ∈ tc.2.fields, ¬ NoneFlagAmbiguous env cf tc.1 f := by
    intro tc htc ht hfl f hff
    obtain ⟨v, _, _, _, hs⟩ := hdat tc htc
    exact ((hs.1 ht f hff).1.2.1 hfl).1
  have hrows : ∀ tc ∈ schema, ∃ v stored, PyDict.get? dat tc.1 = some v ∧
      StoredRows (panPgCell env cf store tc.1 tc.2) tc.2.fields (fieldRows tc.2 v) stored ∧
      Pairwise2 (fun row ws => ∀ zs, Pairwise2 SameOrNull ws zs → Pairwise2 SameOrNull row (panPostRow env lower cf false tc.1 tc.2 zs))
        (fieldRows tc.2 v) stored := by
    intro tc htc
    obtain ⟨v, hv, _, _, hs⟩ := hdat tc htc
    obtain ⟨stored, h1, h2⟩ := pg_pan_safe_rows hT lower false hq (hf tc htc).1 hs (fun h => by cases h)
    exact ⟨v, stored, hv, h1, h2⟩
  have hlen : ∀ (c : TabClass) (v : Frame), ∀ r ∈ fieldRows c v, r.length = c.fields.length := by
    intro c v r hr
    obtain ⟨x, _, e⟩ := List.mem_map.1 hr
    subst e
    simp
  obtain ⟨stored, hstored⟩ : ∃ stored : String → List (List Cell), ∀ tc ∈ schema, ∀ v, PyDict.get? dat tc.1 = some v →
      StoredRows (panPgCell env cf store tc.1 tc.2) tc.2.fields (fieldRows tc.2 v) (stored tc.1) := by
    refine ⟨fun t => ((PyDict.get? schema t).bind (fun c => (PyDict.get? dat t).bind (fun v =>
      (fieldRows c v).mapM (mapCells (panPgCell env cf store t c) c.fields)))).getD [], ?_⟩
    intro tc htc v hv
    obtain ⟨v', st, h1, h2, _⟩ := hrows tc htc
    rw [hv] at h1
    obtain rfl := Option.some.inj h1
    have h3 := (storedRows_iff _ _ _ _ (hlen tc.2 v)).mpr h2
    simp only [PyDict.get?_of_mem hn (show (tc.1, tc.2) ∈ schema from htc), Option.bind_some, hv, h3, Option.getD_some]
    exact h2
  obtain ⟨hc1, hc2⟩ := hst stored hstored
  obtain ⟨o1, o2, _, _⟩ := pg_order_pairwise fks (schema.map Prod.fst) (fun k h => (htab k h).1) hac fuel hfuel order ho
  have hok := pg_pan_write_succeeds env cenv reserved cf hq store useActive dflt (fun _ => true) progress each schema hn
    (fun tc htc => (hf tc htc).1) hpar1 hamb fks htab hac fuel hfuel order ho pfks hp (fun _ _ _ => rfl) db hnames hold dat stored
    (fun tc htc => by
      obtain ⟨v, hv, hok, hvc, _⟩ := hdat tc htc
      exact ⟨v, hv, hok, hvc, hstored tc htc v hv⟩)
    (by simpa using hc1)
    (by
      intro tc htc hpk
      simpa using hc2 tc htc hpk)
  obtain ⟨db', raised, e1, e2, e3, _⟩ := pg_pan_write_outcome env cenv reserved cf hq store (pgFksHold pfks) useActive dflt
    (fun _ => true) progress each order schema hn (fun tc htc => (hf tc htc).1) hpar1 o1 o2 dat (fun tc htc v hv => by
      obtain ⟨v', hv', hok, _⟩ := hdat tc htc
      rw [hv] at hv'
      obtain rfl := Option.some.inj hv'
      exact hok) db
  rw [e1] at hok
  have hok : raised = false := hok
  subst hok
  refine ⟨db', e1, e2, ?_⟩
  intro db'' hsame
  obtain ⟨n, hstop, e4⟩ := e3 rfl
  have hall : order.take n = order := by
    obtain ⟨_, _, h⟩ := hstop
    rcases h with h | ⟨_, h⟩
    · rw [h, List.take_length]
    · rw [hprog] at h; cases h
  rw [hall] at e4
  have htable : ∀ tc ∈ schema, ∃ v rows rs, PyDict.get? dat tc.1 = some v ∧ List.Perm rows (fieldRows tc.2 v) ∧
      Pairwise2 (Pairwise2 SameOrNull) rows rs ∧ pgPanTable env lower cf sql useActive db'' tc = some (plainFrame tc.2.fields rs) := by
    intro tc htc
    obtain ⟨v, old, new, a1, a2, a3, a4, _⟩ := e4 tc htc
    obtain ⟨a5, st, a6, a7⟩ := a4 ((o2 _).mpr (List.mem_map.mpr ⟨tc, htc, rfl⟩))
    obtain ⟨v', st', b1, b2, b3⟩ := hrows tc htc
    rw [a1] at b1
    obtain rfl := Option.some.inj b1
    have c1 := (storedRows_iff _ _ _ _ (hlen tc.2 v)).mpr a6
    have c2 := (storedRows_iff _ _ _ _ (hlen tc.2 v)).mpr b2
    rw [c1] at c2
    obtain rfl := Option.some.inj c2
    obtain ⟨new', d1, d2, d3⟩ := hsame tc.1 new a3
    obtain ⟨rows, rs, f1, f2, f3⟩ := pg_pan_read_table hsql (useActive := useActive) (hf tc htc).1 (hf tc htc).2.1 (hf tc htc).2.2.1
      (hf tc htc).2.2.2 (hpar tc htc) (hbias tc htc) d1 (fieldRows tc.2 v) st (by
        intro r hr
        obtain ⟨a, _, _, h, _⟩ := pairwise2_mem a6 r hr
        exact h)
      (by
        refine ((d3.filter _).map _).trans ?_
        rw [a7, d2, a5]
        simp only [if_true, List.nil_append]
        have e4 : (st.map (fun r => (if useActive && old.active then true else dflt, r))).filter
            (fun r => !(useActive && old.active) || r.1) =
            st.map (fun r => (if useActive && old.active then true else dflt, r)) := by
          rw [List.filter_eq_self]
          intro x hx
          obtain ⟨r, _, rfl⟩ := List.mem_map.mp hx
          cases hh : (useActive && old.active) <;> simp
        rw [e4, List.map_map]
        exact List.Perm.of_eq (List.map_id' st)) b3
    exact ⟨v, rows, rs, a1, f1, f2, f3⟩
  refine ⟨schema.map (fun tc => (tc.1, (pgPanTable env lower cf sql useActive db'' tc).getD ⟨[], [], []⟩)), ?_, ?_, ?_⟩
  · unfold pgPanCreate
    rw [if_pos (by
      rw [List.all_eq_true]
      exact fun tc htc => (hnames tc htc).1)]
    rw [mapM_eq_some_iff]
    rw [List.map_map]
    apply List.map_congr_left
    intro tc htc
    obtain ⟨v, rows, rs, _, _, _, h⟩ := htable tc htc
    simp [h]
  · simp [PyDict.keys, Function.comp_def]
  · intro tc htc
    obtain ⟨v, rows, rs, h1, h2, h3, h4⟩ := htable tc htc
    refine ⟨v, rows, rs, h1, h2, h3, ?_⟩
    apply PyDict.get?_of_mem
    · simp only [List.map_map, Function.comp_def, PyDict.keys]
      exact hn
    · refine List.mem_map.2 ⟨tc, htc, ?_⟩
      rw [h4]
      rfl

/-- One missing table. -/
theorem pg_pan_missing_table {env : TextEnv} {lower : String → String} {cf : IOConf}
    {sql : String → List (List Cell) → List (List Cell)} {useActive : Bool} {db : PgDb} (tc : String × TabClass)
    (hf : tc.2.fields.Nodup) (hne : tc.2.fields ≠ [])
    (hpar : tc.1 = "parameters" → cf.params ≠ [] → ∃ k f, tc.2.pks = [k] ∧ tc.2.dfs = [f])
    (hamb : tc.1 ≠ "parameters" → cf.flag = .none → ∀ f ∈ tc.2.fields, ¬ NoneFlagAmbiguous env cf tc.1 f)
    (hm : PyDict.get? db tc.1 = none) : pgPanTable env lower cf sql useActive db tc = some (plainFrame tc.2.fields []) := by
  unfold pgPanTable
  rw [hm]
  simp only
  rw [show emptyFrame tc.2 = plainFrame tc.2.fields [] from rfl]
  rw [post_any_rows hf hne hpar _ [] (by simp)]
  · rfl
  · intro ht f hff
    by_cases hfl : cf.flag = .none
    · cases hb : infBias env cf tc.1 f with
      | none => exact absurd ((infBias_none_iff hfl).1 hb) (hamb ht hfl f hff)
      | some b => exact ⟨b, rfl⟩
    · exact ⟨none, by simp [infBias, hfl]⟩

/-- **C71, missing tables** are read as empty tables with their fields, and are no error: whether a database can be read does
not depend on them. -/
theorem pg_pan_missing_empty {env : TextEnv} {lower : String → String} {cenv : CaseEnv} {reserved : List (List Char)} {cf : IOConf}
    {sql : String → List (List Cell) → List (List Cell)} {useActive : Bool} {schema : List (String × TabClass)}
    (hn : (schema.map Prod.fst).Nodup) (hf : ∀ tc ∈ schema, tc.2.fields.Nodup ∧ tc.2.fields ≠ [])
    (hpar : ∀ tc ∈ schema, tc.1 = "parameters" → cf.params ≠ [] → ∃ k f, tc.2.pks = [k] ∧ tc.2.dfs = [f])
    (hamb : ∀ tc ∈ schema, tc.1 ≠ "parameters" → cf.flag = .none → ∀ f ∈ tc.2.fields, ¬ NoneFlagAmbiguous env cf tc.1 f)
    {db : PgDb} {found : List (String × TabClass)} (hfound : found = schema.filter (fun tc => decide (tc.1 ∈ PyDict.keys db)))
    (hnames : ∀ tc ∈ schema, pgCompatible cenv reserved tc.1.toList (tc.2.fields.map String.toList) = true)
    {dat : PyDict String Frame} (h : pgPanCreate env lower cenv reserved cf sql useActive found db = some dat) :
    ∃ dat2, pgPanCreate env lower cenv reserved cf sql useActive schema db = some dat2 ∧ PyDict.keys dat2 = schema.map Prod.fst ∧
      ∀ tc ∈ schema, PyDict.get? dat2 tc.1 =
        if tc.1 ∈ PyDict.keys db then PyDict.get? dat tc.1 else some (plainFrame tc.2.fields []) := by
  have hstep : ∀ (sch : List (String × TabClass)) d, sch.mapM (fun tc => (pgPanTable env lower cf sql useActive db tc).map (fun w => (tc.1, w))) = some d →
      PyDict.keys d = sch.map Prod.fst ∧ ((sch.map Prod.fst).Nodup → ∀ tc ∈ sch, PyDict.get? d tc.1 = pgPanTable env lower cf sql useActive db tc) := by
    intro sch d hd
    obtain ⟨h1, h2⟩ := mapM_getD _ ("", ⟨[], [], []⟩) _ _ hd
    have h3 : ∀ x ∈ sch, ∃ w, pgPanTable env lower cf sql useActive db x = some w := by
      intro x hx
      have := h2 x hx
      cases hp : pgPanTable env lower cf sql useActive db x with
      | none => rw [hp] at this; cases this
      | some w => exact ⟨w, rfl⟩
    have hkeys : PyDict.keys d = sch.map Prod.fst := by
      rw [← h1]
      unfold PyDict.keys
      rw [List.map_map]
      apply List.map_congr_left
      intro x hx
      obtain ⟨w, hw⟩ := h3 x hx
      simp [hw]
    refine ⟨hkeys, fun hn tc htc => ?_⟩
    obtain ⟨w, hw⟩ := h3 tc htc
    rw [hw]
    apply PyDict.get?_of_mem
    · rw [hkeys]; exact hn
    · rw [← h1]
      refine List.mem_map.2 ⟨tc, htc, ?_⟩
      rw [hw]
      rfl
  have hmem : ∀ tc ∈ schema, tc.1 ∈ PyDict.keys db → tc ∈ found := by
    intro tc htc hk
    rw [hfound]
    exact List.mem_filter.2 ⟨htc, by simpa using hk⟩
  have hsub : found.Sublist schema := by rw [hfound]; exact List.filter_sublist
  unfold pgPanCreate at h
  rw [if_pos (by
    rw [List.all_eq_true]
    exact fun tc htc => hnames tc (hsub.subset htc))] at h
  obtain ⟨_, k2⟩ := hstep found dat h
  have k2 := k2 (List.Sublist.nodup (hsub.map _) hn)
  have hall : ∀ tc ∈ schema, tc.1 ∉ PyDict.keys db → pgPanTable env lower cf sql useActive db tc = some (plainFrame tc.2.fields []) := by
    intro tc htc hk
    exact pg_pan_missing_table tc (hf tc htc).1 (hf tc htc).2 (hpar tc htc) (hamb tc htc) ((PyDict.get?_eq_none _ _).2 hk)
  obtain ⟨dat2, hd2⟩ := mapM_some_of_forall (fun tc : String × TabClass => (pgPanTable env lower cf sql useActive db tc).map (fun w => (tc.1, w)))
    schema (by
      intro tc htc
      by_cases hk : tc.1 ∈ PyDict.keys db
      · obtain ⟨_, h2⟩ := mapM_getD _ ("", ⟨[], [], []⟩) _ _ h
        rw [h2 tc (hmem tc htc hk)]
        rfl
      · rw [hall tc htc hk]
        rfl)
  obtain ⟨k3, k4⟩ := hstep schema dat2 hd2
  refine ⟨dat2, ?_, k3, ?_⟩
  · unfold pgPanCreate
    rw [if_pos (by
      rw [List.all_eq_true]
      exact hnames)]
    exact hd2
  · intro tc htc
    rw [k4 hn tc htc]
    by_cases hk : tc.1 ∈ PyDict.keys db
    · rw [if_pos hk, k2 tc (hmem tc htc hk)]
    · rw [if_neg hk, hall tc htc hk]

/-- **C71, active rows.**  Rows that are not active are not seen by a reader that names the active column. -/
theorem pg_pan_reads_active (env : TextEnv) (lower : String → String) (cenv : CaseEnv) (reserved : List (List Char)) (cf : IOConf)
    (sql : String → List (List Cell) → List (List Cell)) (schema : List (String × TabClass)) (db : PgDb) :
    pgPanCreate env lower cenv reserved cf sql true schema db =
      pgPanCreate env lower cenv reserved cf sql false schema
        (db.map (fun p => (p.1, { p.2 with rows := if p.2.active then p.2.rows.filter (·.1) else p.2.rows }))) := by
  have hget : ∀ t, PyDict.get? (db.map (fun p => (p.1, ({ p.2 with rows := if p.2.active then p.2.rows.filter (·.1) else p.2.rows } : PgTable)))) t =
      (PyDict.get? db t).map (fun tab => { tab with rows := if tab.active then tab.rows.filter (·.1) else tab.rows }) := by
    intro t
    induction db with
    | nil => rfl
    | cons p rest ih =>
      rw [List.map_cons]
      unfold PyDict.get?
      split
      · rfl
      · exact ih
  have htab : ∀ tc, pgPanTable env lower cf sql true db tc = pgPanTable env lower cf sql false
      (db.map (fun p => (p.1, { p.2 with rows := if p.2.active then p.2.rows.filter (·.1) else p.2.rows }))) tc := by
    intro tc
    unfold pgPanTable
    rw [hget]
    cases hg : PyDict.get? db tc.1 with
    | none => rfl
    | some tab =>
      simp only [Option.map_some]
      have : tab.rows.filter (fun r => !(true && tab.active) || r.1) =
          (if tab.active then tab.rows.filter (·.1) else tab.rows).filter (fun r => !(false && tab.active) || r.1) := by
        cases tab.active <;> simp
      rw [this]
  unfold pgPanCreate
  split
  · apply mapM_congr
    intro tc _
    rw [htab]
  · rfl

/-! ### Where the code falls short -/

/-- Finding: if `progress` says to stop, no error is raised and the rest of the data is lost: the old rows of the remaining
tables have been deleted, and their new rows are not written. -/
theorem pg_pan_stop_loses_rows :
    pgPanWrite unaryText asciiEnv [] pgExConf (fun _ _ w => some w) (fun _ => true) false false (fun _ => true) (fun _ => false) false
      ["a", "b"] [("a", ⟨["k"], [], []⟩), ("b", ⟨["k"], [], []⟩)]
      [("a", ⟨[], [.name "k"], [([], [.str "new"])]⟩), ("b", ⟨[], [.name "k"], [([], [.str "newer"])]⟩)]
      [("a", ⟨false, [(true, [.str "old"])]⟩), ("b", ⟨false, [(true, [.str "older"])]⟩)] =
    ([("a", ⟨false, [(false, [.str "new"])]⟩), ("b", ⟨false, []⟩)], false) := by
  decide +kernel

/-- Finding: the same failed write, if pandas commits each table and if it does not: one table has its new rows, or none
has; the old rows are lost. -/
theorem pg_pan_failed_write_loses_rows (each : Bool) :
    pgPanWrite unaryText asciiEnv [] pgExConf (fun t _ w => if t = "b" then none else some w) (fun _ => true) false false
      (fun _ => true) (fun _ => true) each
      ["a", "b"] [("a", ⟨["k"], [], []⟩), ("b", ⟨["k"], [], []⟩)]
      [("a", ⟨[], [.name "k"], [([], [.str "new"])]⟩), ("b", ⟨[], [.name "k"], [([], [.str "newer"])]⟩)]
      [("a", ⟨false, [(true, [.str "old"])]⟩), ("b", ⟨false, [(true, [.str "older"])]⟩)] =
    ([("a", ⟨false, if each then [(false, [.str "new"])] else []⟩), ("b", ⟨false, []⟩)], true) := by
  cases each <;> decide +kernel

/-! ### Non-vacuity -/

/-- A `PanDat` with a column that is no field, columns in another order, an index, and a null. -/
def pgPanEx : PyDict String Frame :=
  [("items", ⟨["i"], [.name "cat", .name "note", .name "name"],
      [([.num (.fin 0)], [.str "food", .none, .str "egg"]), ([.num (.fin 1)], [.nan, .str "n", .str "pen"])]⟩),
    ("cats", ⟨[], [.name "name"], [([], [.str "food"]), ([], [.str "tool"])]⟩)]

/-- A database that has one null. -/
def oneNullStore : Store := fun _ _ w => some (if w = .nan then .none else w)

/-- pandas has one null in the columns of the example. -/
def nanSql : String → List (List Cell) → List (List Cell) := fun _ rows => rows.map (List.map (fun x => if x = .none then .nan else x))

theorem nanSql_same (t : String) (rows : List (List Cell)) : Pairwise2 (Pairwise2 SameOrNull) rows (nanSql t rows) := by
  apply pairwise2_refl_map
  intro r _
  apply pairwise2_refl_map
  intro x _
  by_cases h : x = .none
  · rw [if_pos h]; exact .inr ⟨.inl h, .inr rfl⟩
  · rw [if_neg h]; exact .inl rfl

theorem pgEx_acyclic : Acyclic [⟨"items", "cats", [("cat", "name")]⟩] := by
  intro t ht
  obtain ⟨b, ⟨k, hk, e1, e2⟩, p⟩ := ht
  rw [List.mem_singleton] at hk
  subst hk
  have hb : b = "cats" := e2.symm
  have ht : t = "items" := e1.symm
  rw [hb, ht] at p
  generalize hx : "cats" = x at p
  generalize hy : "items" = y at p
  cases p with
  | refl => exact absurd (hy.trans hx.symm) (by decide)
  | step e _ =>
    subst hx hy
    obtain ⟨k, hk, e1, _⟩ := e
    rw [List.mem_singleton] at hk
    subst hk
    exact absurd e1 (by decide)

/-- The store keeps texts, and nulls as nulls. -/
def KeepsText (store : Store) : Prop :=
  ∀ t f x, ((∃ s, x = Cell.str s) ∨ x = .none ∨ x = .nan) → ∃ z, store t f x = some z ∧ SameOrNull x z

theorem oneNullStore_text : KeepsText oneNullStore := by
  intro t f x _
  refine ⟨_, rfl, ?_⟩
  by_cases e : x = .nan
  · rw [if_pos e]; exact .inr ⟨.inr e, .inl rfl⟩
  · rw [if_neg e]; exact .inl rfl

theorem pgPanEx_cell {store : Store} (hst : KeepsText store) (t f : String) (x : Cell)
    (hx : (∃ s, x = Cell.str s) ∨ x = .none ∨ x = .nan) : PgPanKeeps unaryText pgExConf store t f x := by
  have hnum : ∀ y, x ≠ .num y := by
    rintro y rfl
    rcases hx with ⟨s, h⟩ | h | h <;> cases h
  intro w hw
  obtain ⟨_, _, h⟩ := (show (x = .num .pinf → w = .num (.fin 1000)) ∧ (x = .num .ninf → w = .num (.fin (-1000))) ∧
      (x ≠ .num .pinf → x ≠ .num .ninf → w = x) from hw)
  rw [h (hnum _) (hnum _)]
  obtain ⟨z, h1, h2⟩ := hst t f x hx
  exact ⟨z, h1, .inl h2⟩

theorem pgPanEx_survives {store : Store} (hst : KeepsText store) (t f : String) (col : List Cell)
    (hx : ∀ x ∈ col, (∃ s, x = Cell.str s) ∨ x = .none ∨ x = .nan) :
    Survives unaryText pgExConf t f col ∧ ∀ x ∈ col, PgPanKeeps unaryText pgExConf store t f x := by
  have hnum : ∀ x ∈ col, ∀ y, x ≠ .num y := by
    rintro x hxm y rfl
    rcases hx _ hxm with ⟨s, h⟩ | h | h <;> cases h
  refine ⟨⟨?_, by simp [pgExConf], ?_⟩, fun x hxm => pgPanEx_cell hst t f x (hx x hxm)⟩
  · intro x _ td h
    simp [typeOf, pgExConf, PyDict.get?] at h
  · intro q e
    have : (InfFlag.num 1000) = .num q := e
    injection this with this
    subst this
    exact ⟨by decide +kernel, fun x hxm a e => absurd e (hnum x hxm _)⟩

theorem pgPanEx_ok {store : Store} (hst : KeepsText store) : ∀ tc ∈ pgExSchema, ∃ v, PyDict.get? pgPanEx tc.1 = some v ∧ FrameOK v ∧
    (∀ f ∈ tc.2.fields, Label.name f ∈ v.cols) ∧ PgPanSafe unaryText pgExConf store tc.1 tc.2 v := by
  intro tc htc
  simp only [pgExSchema, List.mem_cons, List.not_mem_nil, or_false] at htc
  rcases htc with e | e <;> subst e
  · refine ⟨_, rfl, ⟨by decide +kernel, by decide +kernel, by decide +kernel⟩, by decide +kernel, ?_, fun h => absurd h (by decide +kernel),
      fun h => absurd h (by decide +kernel)⟩
    intro _ f hf
    apply pgPanEx_survives hst
    intro x hx
    simp only [TabClass.fields, List.cons_append, List.nil_append, List.mem_cons, List.not_mem_nil, or_false] at hf
    rcases hf with rfl | rfl <;> revert hx
    · rw [show column ⟨["i"], [.name "cat", .name "note", .name "name"],
        [([.num (.fin 0)], [.str "food", .none, .str "egg"]), ([.num (.fin 1)], [.nan, .str "n", .str "pen"])]⟩ "name" = [.str "egg", .str "pen"]
        by decide +kernel]
      simp only [List.mem_cons, List.not_mem_nil, or_false]
      rintro (rfl | rfl) <;> simp
    · rw [show column ⟨["i"], [.name "cat", .name "note", .name "name"],
        [([.num (.fin 0)], [.str "food", .none, .str "egg"]), ([.num (.fin 1)], [.nan, .str "n", .str "pen"])]⟩ "cat" = [.str "food", .nan]
        by decide +kernel]
      simp only [List.mem_cons, List.not_mem_nil, or_false]
      rintro (rfl | rfl) <;> simp
  · refine ⟨_, rfl, ⟨by decide +kernel, by decide +kernel, by decide +kernel⟩, by decide +kernel, ?_, fun h => absurd h (by decide +kernel),
      fun h => absurd h (by decide +kernel)⟩
    intro _ f hf
    apply pgPanEx_survives hst
    intro x hx
    simp only [TabClass.fields, List.cons_append, List.nil_append, List.mem_cons, List.not_mem_nil, or_false] at hf
    subst hf
    revert hx
    rw [show column ⟨[], [.name "name"], [([], [.str "food"]), ([], [.str "tool"])]⟩ "name" = [.str "food", .str "tool"] by decide +kernel]
    simp only [List.mem_cons, List.not_mem_nil, or_false]
    rintro (rfl | rfl) <;> simp

theorem pgPanEx_stored (stored : String → List (List Cell)) (h : ∀ tc ∈ pgExSchema, ∀ v, PyDict.get? pgPanEx tc.1 = some v →
      StoredRows (panPgCell unaryText pgExConf oneNullStore tc.1 tc.2) tc.2.fields (fieldRows tc.2 v) (stored tc.1)) :
    stored "items" = [[.str "egg", .str "food"], [.str "pen", .none]] ∧ stored "cats" = [[.str "food"], [.str "tool"]] := by
  have h1 := (storedRows_iff _ _ _ _ (by decide +kernel)).mpr (h ("items", ⟨["name"], ["cat"], [("cat", .num (.fin 0))]⟩)
    (by simp [pgExSchema]) _ rfl)
  have h2 := (storedRows_iff _ _ _ _ (by decide +kernel)).mpr (h ("cats", ⟨["name"], [], []⟩) (by simp [pgExSchema]) _ rfl)
  constructor
  · refine Option.some.inj (h1.symm.trans ?_)
    decide +kernel
  · refine Option.some.inj (h2.symm.trans ?_)
    decide +kernel

example : ∃ db', pgPanWrite unaryText asciiEnv [] pgExConf oneNullStore (pgFksHold [⟨"items", "cats", [(1, 0)]⟩]) true false
      (fun _ => true) (fun _ => true) true ["cats", "items"] pgExSchema pgPanEx pgExOld = (db', false) ∧
      ∀ db'', SamePg db' db'' → ∃ dat2, pgPanCreate unaryText id asciiEnv [] pgExConf nanSql true pgExSchema db'' = some dat2 ∧
        ∀ tc ∈ pgExSchema, ∃ v rows rs, PyDict.get? pgPanEx tc.1 = some v ∧ List.Perm rows (fieldRows tc.2 v) ∧
          Pairwise2 (Pairwise2 SameOrNull) rows rs ∧ PyDict.get? dat2 tc.1 = some (plainFrame tc.2.fields rs) := by
  obtain ⟨db', h1, _, h2⟩ := pg_pan_round_trip unaryText unaryText_ok id asciiEnv [] pgExConf
    (by intro q e; cases e; decide +kernel) oneNullStore nanSql nanSql_same true false (fun _ => true) (fun _ => rfl) true pgExSchema
    (by decide +kernel) (by decide +kernel) [⟨"items", "cats", [("cat", "name")]⟩] (by decide +kernel) pgEx_acyclic
    2 (by decide) ["cats", "items"] (by decide +kernel) [⟨"items", "cats", [(1, 0)]⟩]
    (by
      intro p hp
      rw [List.mem_singleton] at hp
      subst hp
      exact ⟨_, List.mem_singleton.mpr rfl, rfl, rfl⟩)
    pgExOld (by decide +kernel) ((pgFksHold_iff _ _).mp (by decide +kernel)) pgPanEx (pgPanEx_ok oneNullStore_text)
    (by
      intro stored h
      obtain ⟨e1, e2⟩ := pgPanEx_stored stored h
      constructor
      · intro k hk r hr
        rw [List.mem_singleton] at hk
        subst hk
        simp only at hr ⊢
        rw [e1] at hr
        rw [e2]
        revert r
        decide +kernel
      · intro tc htc _
        simp only [pgExSchema, List.mem_cons, List.not_mem_nil, or_false] at htc
        rcases htc with e | e <;> subst e <;> simp only
        · rw [e1]; decide +kernel
        · rw [e2]; decide +kernel)
  refine ⟨db', h1, ?_⟩
  intro db'' hs
  obtain ⟨dat2, g1, _, g2⟩ := h2 db'' hs
  exact ⟨dat2, g1, g2⟩

/-- An entry of the parameters table that survives. -/
example : PgPanParam unaryText [(.str "cap", (some ⟨true, true, false, .fin 0, .pinf, false, .oneOf [], false, false⟩, .num (.fin 1)))]
    (fun _ _ w => some (.str (unaryText.text w))) (.str "cap") (.num (.fin 3)) := by
  refine ⟨(by rintro (h | h) <;> cases h), fun _ => rfl, _, _, fun _ => rfl, rfl, ?_, .inr (.inl ⟨rfl, .inr rfl, .inl ⟨_, rfl⟩⟩)⟩
  exact (valid_data_iff _ _ _).1 (by decide +kernel)

/-- Stopping after the first of two tables. -/
example : StopsAfter (fun i => decide (i ≠ 0)) 2 1 ∧ ¬ StopsAfter (fun i => decide (i ≠ 0)) 2 2 := by
  refine ⟨⟨by decide, by omega, .inr ⟨by decide, by decide⟩⟩, ?_⟩
  rintro ⟨_, h, _⟩
  exact absurd (h 0 (by decide)) (by decide)

/-- One of two tables is missing. -/
example : ∃ dat2, pgPanCreate unaryText id asciiEnv [] pgExConf nanSql true pgExSchema
      [("cats", ⟨true, [(true, [.str "x"]), (false, [.str "y"])]⟩)] = some dat2 ∧
    PyDict.get? dat2 "items" = some (plainFrame ["name", "cat"] []) ∧
    PyDict.get? dat2 "cats" = some (plainFrame ["name"] [[.str "x"]]) := by
  obtain ⟨dat2, h1, _, h2⟩ := pg_pan_missing_empty (env := unaryText) (lower := id) (cenv := asciiEnv) (reserved := []) (cf := pgExConf)
    (sql := nanSql) (useActive := true) (schema := pgExSchema) (by decide +kernel) (by decide +kernel)
    (by intro tc _ _ h; exact absurd rfl h) (by intro tc _ _ h; cases h)
    (db := [("cats", ⟨true, [(true, [.str "x"]), (false, [.str "y"])]⟩)]) rfl (by decide +kernel)
    (dat := [("cats", plainFrame ["name"] [[.str "x"]])]) (by decide +kernel)
  exact ⟨dat2, h1, h2 _ (List.mem_cons_self), h2 _ (List.mem_cons_of_mem _ List.mem_cons_self)⟩

end Ticdat

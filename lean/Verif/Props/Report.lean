import Verif.Props.PanTypes
import Verif.Props.PanFK
import Verif.Props.PanRowPred
import Verif.Spec.Report
/-!
# C62: the report of integrity errors
-/
set_option linter.unusedSectionVars false
set_option linter.unusedSimpArgs false
namespace Ticdat
open Spec

theorem pickFlagged_eq {A : Type} (fl : List Bool) (rs : List A) (h : fl.length = rs.length) :
    pickFlagged fl rs = (Spec.flagged fl).filterMap (fun i => rs[i]?) := by
  rw [flagged_eq]
  induction fl generalizing rs with
  | nil => cases rs <;> rfl
  | cons b fl ih =>
    cases rs with
    | nil => simp at h
    | cons r rs =>
      rw [flaggedFrom_cons, flaggedFrom_shift (0 + 1)]
      have := ih rs (by simpa using h)
      cases b <;> simp [pickFlagged, this, List.filterMap_map, Function.comp_def]

theorem mem_flagged (fl : List Bool) (i : Nat) : i ∈ Spec.flagged fl ↔ fl[i]? = some true := by
  unfold Spec.flagged
  simp only [List.mem_filter, List.mem_range, decide_eq_true_eq, and_iff_right_iff_imp]
  intro h
  exact (List.getElem?_eq_some_iff.1 h).1

theorem flagged_nodup (fl : List Bool) : (Spec.flagged fl).Nodup := List.Nodup.sublist List.filter_sublist List.nodup_range

/-- Flags by key, shown. -/
theorem shows_flags {Key B : Type} (entries : List (Key × List Bool)) (hn : (entries.map Prod.fst).Nodup) (rowsOf : Key → List (List Cell))
    (hl : ∀ e ∈ entries, e.2.length = (rowsOf e.1).length) (f : Key → List Cell → B) :
    ShowsOnce (entries.flatMap (fun e => (pickFlagged e.2 (rowsOf e.1)).map (f e.1)))
      (fun a : Key × Nat => ∃ fl, (a.1, fl) ∈ entries ∧ fl[a.2]? = some true)
      (fun a => f a.1 (((rowsOf a.1)[a.2]?).getD [])) := by
  refine ⟨entries.flatMap (fun e => (Spec.flagged e.2).map (fun i => (e.1, i))), ?_, ?_, ?_⟩
  · clear hl
    induction entries with
    | nil => simp
    | cons e es ih =>
      rw [List.map_cons, List.nodup_cons] at hn
      rw [List.flatMap_cons, List.nodup_append]
      refine ⟨?_, ih hn.2, ?_⟩
      · exact List.Pairwise.map _ (fun a b h he => h (by simpa using he)) (flagged_nodup e.2)
      · rintro a ha b hb rfl
        obtain ⟨i, _, rfl⟩ := List.mem_map.1 ha
        obtain ⟨e', he', hb'⟩ := List.mem_flatMap.1 hb
        obtain ⟨j, _, hj⟩ := List.mem_map.1 hb'
        exact hn.1 (List.mem_map.2 ⟨e', he', (Prod.mk.inj hj).1⟩)
  · rintro ⟨k, i⟩
    simp only [List.mem_flatMap, List.mem_map, mem_flagged, Prod.mk.injEq, Prod.exists]
    constructor
    · rintro ⟨k', fl, h, j, hj, rfl, rfl⟩; exact ⟨fl, h, hj⟩
    · rintro ⟨fl, h, hi⟩; exact ⟨k, fl, h, i, hi, rfl, rfl⟩
  · clear hn
    induction entries with
    | nil => rfl
    | cons e es ih =>
      rw [List.flatMap_cons, List.flatMap_cons, List.map_append, ← ih (fun x hx => hl x (List.mem_cons_of_mem _ hx))]
      congr 1
      have hlen := hl e List.mem_cons_self
      rw [pickFlagged_eq _ _ hlen, List.map_map]
      have : ∀ l : List Nat, (∀ i ∈ l, i < (rowsOf e.1).length) →
          (l.filterMap (fun i => (rowsOf e.1)[i]?)).map (f e.1) =
            l.map ((fun a : Key × Nat => f a.1 (((rowsOf a.1)[a.2]?).getD [])) ∘ fun i => (e.1, i)) := by
        intro l
        induction l with
        | nil => intro _; rfl
        | cons i l ihl =>
          intro h
          have hi := h i List.mem_cons_self
          rw [List.filterMap_cons, List.getElem?_eq_getElem hi]
          simp only [List.map_cons, ihl (fun j hj => h j (List.mem_cons_of_mem _ hj)), Function.comp_apply,
            List.getElem?_eq_getElem hi, Option.getD_some]
      refine this _ (fun i hi => ?_)
      rw [mem_flagged] at hi
      rw [← hlen]; exact (List.getElem?_eq_some_iff.1 hi).1

theorem Spec.ShowsOnce.congr {A B : Type} {out : List B} {P Q : A → Prop} {f g : A → B} (h : ShowsOnce out P f) (hpq : ∀ a, P a ↔ Q a)
    (hfg : ∀ a, P a → f a = g a) : ShowsOnce out Q g := by
  obtain ⟨occ, h1, h2, h3⟩ := h
  refine ⟨occ, h1, fun a => (h2 a).trans (hpq a), h3.trans (List.map_congr_left (fun a ha => hfg a ((h2 a).1 ha)))⟩

theorem Spec.ShowsOnce.length {A B : Type} {out : List B} {P : A → Prop} {f : A → B} (h : ShowsOnce out P f) : out.length = 0 ↔ ∀ a, ¬ P a := by
  obtain ⟨occ, _, h2, rfl⟩ := h
  rw [List.length_map, List.length_eq_zero_iff]
  constructor
  · rintro rfl a ha; simpa using (h2 a).2 ha
  · intro h
    cases occ with
    | nil => rfl
    | cons a _ => exact absurd ((h2 a).1 (by simp)) (h a)

theorem panRowsOf_getElem? (tabs : String → PTable) (t : String) (i : Nat) :
    (panRowsOf tabs t)[i]? = ((tabs t).rows[i]?).map (fun cells f => ((tabs t).cols.zip cells).lookup f) := by
  unfold panRowsOf PTable.rowAt; rw [List.getElem?_map]

theorem panRowsOf_cellAt {tabs : String → PTable} {t : String} {i : Nat} {r : PRow Cell} (h : (panRowsOf tabs t)[i]? = some r) :
    r = cellAt tabs t i := by
  rw [panRowsOf_getElem?] at h
  unfold cellAt
  cases h' : (tabs t).rows[i]? with
  | none => simp [h'] at h
  | some c => rw [h'] at h; simp at h; funext f; rw [← h]; rfl

theorem panRowsOf_lt {tabs : String → PTable} {t : String} {i : Nat} (h : i < (tabs t).rows.length) :
    (panRowsOf tabs t)[i]? = some (cellAt tabs t i) := by
  rw [panRowsOf_getElem?, List.getElem?_eq_getElem h]
  unfold cellAt
  rw [List.getElem?_eq_getElem h]; rfl

theorem panRowsOf_length (tabs : String → PTable) (t : String) : (panRowsOf tabs t).length = (tabs t).rows.length := by
  simp [panRowsOf]

theorem mem_panRowsOf (tabs : String → PTable) (t : String) (r : PRow Cell) :
    r ∈ panRowsOf tabs t ↔ ∃ i, i < (tabs t).rows.length ∧ r = cellAt tabs t i := by
  rw [List.mem_iff_getElem?]
  constructor
  · rintro ⟨i, h⟩
    refine ⟨i, ?_, panRowsOf_cellAt h⟩
    rw [← panRowsOf_length]; exact (List.getElem?_eq_some_iff.1 h).1
  · rintro ⟨i, h, rfl⟩; exact ⟨i, panRowsOf_lt h⟩

/-! ### Duplicates -/

theorem dupFlags_length (fs : List String) (rs : List (PRow Cell)) (seen : List (List (Option Cell))) :
    (dupFlags fs rs seen).length = rs.length := by
  induction rs generalizing seen with
  | nil => rfl
  | cons r rs ih => simp [dupFlags, ih]

theorem dupFlags_iff (fs : List String) (rs : List (PRow Cell)) (seen : List (List (Option Cell))) (i : Nat) :
    (dupFlags fs rs seen)[i]? = some true ↔ ∃ r, rs[i]? = some r ∧
      (fs.map r ∈ seen ∨ ∃ j, j < i ∧ ∃ q, rs[j]? = some q ∧ fs.map q = fs.map r) := by
  induction rs generalizing seen i with
  | nil => simp [dupFlags]
  | cons a rs ih =>
    cases i with
    | zero => simp [dupFlags]
    | succ i =>
      simp only [dupFlags, List.getElem?_cons_succ, ih, List.mem_cons]
      constructor
      · rintro ⟨r, hr, (h | h) | ⟨j, hj, q, hq, e⟩⟩
        · exact ⟨r, hr, Or.inr ⟨0, by omega, a, by simp, h.symm⟩⟩
        · exact ⟨r, hr, Or.inl h⟩
        · exact ⟨r, hr, Or.inr ⟨j + 1, by omega, q, by simpa using hq, e⟩⟩
      · rintro ⟨r, hr, h | ⟨j, hj, q, hq, e⟩⟩
        · exact ⟨r, hr, Or.inl (Or.inr h)⟩
        · cases j with
          | zero => simp at hq; subst hq; exact ⟨r, hr, Or.inl (Or.inl e.symm)⟩
          | succ j => exact ⟨r, hr, Or.inr ⟨j, by omega, q, by simpa using hq, e⟩⟩

theorem panFindDups_keys (s : Schema) (db : PanDB Cell) : ((panFindDups s db).map Prod.fst).Sublist (PyDict.keys s) := by
  unfold panFindDups
  generalize PyDict.keys s = ts
  induction ts with
  | nil => simp
  | cons t ts ih =>
    rw [List.filterMap_cons]
    split
    · exact ih.cons _
    · rename_i b hb
      split at hb
      · simp at hb
      · simp only at hb
        split at hb
        · simp at hb; subst hb; exact ih.cons₂ _
        · simp at hb

theorem mem_panFindDups (s : Schema) (db : PanDB Cell) (t : String) (fl : List Bool) :
    (t, fl) ∈ panFindDups s db ↔ t ∈ PyDict.keys s ∧ s.pks t ≠ [] ∧ fl = dupFlags (s.pks t) (db t) [] ∧ fl.any id = true := by
  unfold panFindDups
  rw [List.mem_filterMap]
  constructor
  · rintro ⟨t', ht, h⟩
    split at h
    · simp at h
    · rename_i hp
      simp only at h
      split at h
      · rename_i ha
        simp at h
        obtain ⟨rfl, rfl⟩ := h
        exact ⟨ht, hp, rfl, ha⟩
      · simp at h
  · rintro ⟨ht, hp, rfl, ha⟩
    refine ⟨t, ht, ?_⟩
    rw [if_neg hp]
    simp only
    rw [if_pos ha]

/-! ### Identifying cells -/

theorem idFields_eq (s : Schema) (t : String) : idFields s t = identifiers s t := by
  unfold idFields identifiers
  cases s.pks t <;> simp

theorem foldl_max_spec (g : String → Nat) (ts : List String) (n : Nat) :
    n ≤ ts.foldl (fun n t => max n (g t)) n ∧ (∀ t ∈ ts, g t ≤ ts.foldl (fun n t => max n (g t)) n) ∧
    (ts.foldl (fun n t => max n (g t)) n = n ∨ ∃ t ∈ ts, g t = ts.foldl (fun n t => max n (g t)) n) := by
  induction ts generalizing n with
  | nil => simp
  | cons t ts ih =>
    obtain ⟨h1, h2, h3⟩ := ih (max n (g t))
    refine ⟨?_, ?_, ?_⟩
    · simp only [List.foldl_cons]; omega
    · intro t' ht'
      simp only [List.foldl_cons]
      rcases List.mem_cons.1 ht' with rfl | h
      · omega
      · exact h2 t' h
    · simp only [List.foldl_cons]
      rcases h3 with h3 | ⟨t', ht', e⟩
      · rw [h3]
        by_cases hc : g t ≤ n
        · left; omega
        · right; exact ⟨t, by simp, by omega⟩
      · right; exact ⟨t', by simp [ht'], e⟩

theorem longestId_width {s : Schema} (hne : PyDict.keys s ≠ []) : IsWidth s (longestId s) := by
  obtain ⟨_, h2, h3⟩ := foldl_max_spec (fun t => (idFields s t).length) (PyDict.keys s) 0
  refine ⟨fun t ht => by rw [← idFields_eq]; exact h2 t ht, ?_⟩
  rcases h3 with h3 | ⟨t, ht, e⟩
  · obtain ⟨t, ts, hc⟩ := List.exists_cons_of_ne_nil hne
    have ht : t ∈ PyDict.keys s := by rw [hc]; simp
    refine ⟨t, ht, ?_⟩
    have h2' : (idFields s t).length ≤ longestId s := h2 t ht
    have h3' : longestId s = 0 := h3
    rw [← idFields_eq]; omega
  · exact ⟨t, ht, by rw [← idFields_eq]; exact e⟩

theorem zip_lookup_take {B : Type} (xs ys : List String) (cells : List B) (hn : (xs ++ ys).Nodup) (hl : xs.length ≤ cells.length) (d : B) :
    xs.map (fun f => (((xs ++ ys).zip cells).lookup f).getD d) = cells.take xs.length := by
  induction xs generalizing cells with
  | nil => simp
  | cons x xs ih =>
    cases cells with
    | nil => simp at hl
    | cons c cells =>
      rw [List.cons_append, List.nodup_cons] at hn
      simp only [List.map_cons, List.cons_append, List.zip_cons_cons, List.lookup_cons_self, Option.getD_some, List.length_cons,
        List.take_succ_cons, List.cons.injEq, true_and]
      rw [← ih cells hn.2 (by simpa using hl)]
      refine List.map_congr_left (fun f hf => ?_)
      rw [List.lookup_cons]
      have : (f == x) = false := by
        simp only [beq_eq_false_iff_ne, ne_eq]
        rintro rfl; exact hn.1 (List.mem_append_left _ hf)
      rw [this]

/-- The cells the code shows for a row are its identifying cells. -/
theorem errorRow_eq {s : Schema} (hs : SchemaOK s) {tabs : String → PTable} (hf : ReportFrames s tabs) {t : String}
    (ht : t ∈ PyDict.keys s) {i : Nat} {cells : List Cell} (hi : (tabs t).rows[i]? = some cells) (extra : List Cell) :
    errorRow s t (cells ++ extra) = idCells s tabs (longestId s) t i := by
  obtain ⟨hc, hr⟩ := hf t ht
  have hlen : cells.length = (s.pks t ++ s.dfs t).length := by rw [← hc]; exact hr _ (List.mem_of_getElem? hi)
  have hw := (longestId_width (List.ne_nil_of_mem ht)).1 t ht
  have hmap : (identifiers s t).map (fun f => (cellAt tabs t i f).getD .none) = cells.take (identifiers s t).length := by
    have hrow : ∀ f, cellAt tabs t i f = ((s.pks t ++ s.dfs t).zip cells).lookup f := by
      intro f; unfold cellAt; rw [hi, ← hc]; rfl
    have hnd := hs.fields_nodup t
    simp only [hrow]
    unfold identifiers
    split
    · rename_i h
      rw [h] at hnd hlen ⊢
      simp only [List.nil_append] at hnd hlen ⊢
      have := zip_lookup_take (s.dfs t) [] cells (by simpa using hnd) (by omega) Cell.none
      simpa using this
    · refine zip_lookup_take _ _ cells hnd ?_ _
      rw [hlen]; simp
  have hle : (identifiers s t).length ≤ cells.length := by
    rw [hlen]; unfold identifiers
    split
    · simp
    · simp
  unfold errorRow idCells
  rw [idFields_eq, hmap, List.take_append_of_le_length hle]
  have hl2 : (cells.take (identifiers s t).length).length = (identifiers s t).length := by rw [List.length_take]; omega
  generalize cells.take (identifiers s t).length = pre at hl2
  rw [List.take_append, List.take_replicate, List.take_of_length_le (by omega), hl2]
  congr 2
  omega

theorem errorRow_eq' {s : Schema} (hs : SchemaOK s) {tabs : String → PTable} (hf : ReportFrames s tabs) {t : String}
    (ht : t ∈ PyDict.keys s) {i : Nat} (hi : i < (tabs t).rows.length) :
    errorRow s t ((tabs t).rows[i]?.getD []) = idCells s tabs (longestId s) t i := by
  have := errorRow_eq hs hf ht (List.getElem?_eq_getElem hi) []
  rw [List.getElem?_eq_getElem hi]
  simpa using this

theorem panOK_of_fits {s : Schema} {tabs : String → PTable} (hf : ReportFrames s tabs) : PanOK s (panRowsOf tabs) := by
  intro t ht r hr f hff
  obtain ⟨cells, hc, rfl⟩ := List.mem_map.1 hr
  obtain ⟨h1, h2⟩ := hf t ht
  unfold PTable.rowAt
  rw [h1]
  have hlen := h2 cells hc
  rw [h1] at hlen
  cases h : ((s.pks t ++ s.dfs t).zip cells).lookup f with
  | some v => exact ⟨v, rfl⟩
  | none =>
    exfalso
    rw [List.lookup_eq_none_iff] at h
    obtain ⟨i, hi, e⟩ := List.getElem_of_mem hff
    have hi' : i < cells.length := by omega
    have := h (f, cells[i]) (by
      rw [List.mem_iff_getElem]
      exact ⟨i, by simp only [List.length_zip]; omega, by simp [e]⟩)
    simp at this

theorem positions_placed (tabs : String → PTable) : positions (panRowsOf tabs) = placed tabs := by
  funext t
  unfold positions placed
  apply List.ext_getElem?
  intro i
  simp only [List.getElem?_map, List.getElem?_zipIdx, List.getElem?_range']
  by_cases h : i < (tabs t).rows.length
  · rw [panRowsOf_lt h, List.getElem?_range h]; simp
  · have h1 : (panRowsOf tabs t)[i]? = none := by
      rw [List.getElem?_eq_none_iff, panRowsOf_length]; omega
    have h2 : (List.range (tabs t).rows.length)[i]? = none := by
      rw [List.getElem?_eq_none_iff, List.length_range]; omega
    rw [h1, h2]; rfl

/-- Lists by key, shown. -/
theorem shows_group {Key A B : Type} [DecidableEq Key] (d : PyDict Key (List A)) (hn : (PyDict.keys d).Nodup)
    (hv : ∀ k vs, d.get? k = some vs → vs.Nodup) (g : Key → A → Option B) (g' : Key → A → B)
    (hg : ∀ k vs, (k, vs) ∈ d → ∀ x ∈ vs, g k x = some (g' k x)) :
    ShowsOnce (List.flatMap (fun e => e.2.filterMap (g e.1)) d) (fun a : Key × A => ∃ vs, d.get? a.1 = some vs ∧ a.2 ∈ vs)
      (fun a => g' a.1 a.2) := by
  refine ⟨List.flatMap (fun e => e.2.map (fun x => (e.1, x))) d, ?_, ?_, ?_⟩
  · have hv' : ∀ e ∈ d, e.2.Nodup := fun e he => hv e.1 e.2 (PyDict.get?_of_mem hn he)
    clear hg hv
    induction d with
    | nil => simp
    | cons e es ih =>
      rw [PyDict.keys, List.map_cons, List.nodup_cons] at hn
      rw [List.flatMap_cons, List.nodup_append]
      refine ⟨?_, ih hn.2 (fun x hx => hv' x (List.mem_cons_of_mem _ hx)), ?_⟩
      · exact List.Pairwise.map _ (fun a b h he => h (by simpa using he)) (hv' e List.mem_cons_self)
      · rintro a ha b hb rfl
        obtain ⟨i, _, rfl⟩ := List.mem_map.1 ha
        obtain ⟨e', he', hb'⟩ := List.mem_flatMap.1 hb
        obtain ⟨j, _, hj⟩ := List.mem_map.1 hb'
        exact hn.1 (List.mem_map.2 ⟨e', he', (Prod.mk.inj hj).1⟩)
  · rintro ⟨k, x⟩
    simp only [List.mem_flatMap, List.mem_map, Prod.mk.injEq, Prod.exists]
    constructor
    · rintro ⟨k', vs, h, y, hy, rfl, rfl⟩; exact ⟨vs, PyDict.get?_of_mem hn h, hy⟩
    · rintro ⟨vs, h, hx⟩; exact ⟨k, vs, PyDict.get?_mem h, x, hx, rfl, rfl⟩
  · clear hn hv
    induction d with
    | nil => rfl
    | cons e es ih =>
      rw [List.flatMap_cons, List.flatMap_cons, List.map_append, ← ih (fun k vs h => hg k vs (List.mem_cons_of_mem _ h))]
      congr 1
      have h := hg e.1 e.2 List.mem_cons_self
      generalize e.2 = l at h
      induction l with
      | nil => rfl
      | cons x l ihl =>
        rw [List.filterMap_cons, h x List.mem_cons_self]
        simp only [List.map_cons]
        rw [ihl (fun y hy => h y (List.mem_cons_of_mem _ hy))]

/-- The entries of `find_data_row_failures` for a predicate, without repetition. -/
theorem pan_find_rows_nodup {K D : Type} {handled : Bool} {env : PredEnv K D} {preds : List ((String × PName) × RowPred Cell K)}
    (hnd : (preds.map Prod.fst).Nodup) (hag : MakersAgree env preds) (rowsOf : String → List (Rec Cell))
    (h : handled = true ∨ NoRaise env (positions rowsOf) preds) (d : PyDict (String × PName) (List (RowFail Nat)))
    (hd : panRowFailures handled env preds rowsOf none = some d) : ∀ k vs, d.get? k = some vs → vs.Nodup := by
  obtain ⟨h1, _⟩ := rowChecks_spec hag h
  have hgi := groupBy_inv eqvB_eq (rowEvents handled env (positions rowsOf) preds)
  have : d = groupBy (fun a b => decide (a = b)) (rowEvents handled env (positions rowsOf) preds) := by
    rw [pan_rows_same_as_tic preds hnd rowsOf none (by simp), scanChecks_eq none (by simp) _ h1] at hd
    simpa [takeLim, rowEvents, eq_comm] using hd
  subst this
  intro k vs hg
  exact (hgi.distinct k vs hg).imp (fun h e => by simp [e] at h)

/-- The failure rows of the report, as shown. -/
theorem rowReport_eq {s : Schema} (hs : SchemaOK s) {tabs : String → PTable} (hf : ReportFrames s tabs) {key : String × PName}
    (ht : key.1 ∈ PyDict.keys s) (x : RowFail Nat) (hx : ∀ i m, x = .row i m → i < (tabs key.1).rows.length) :
    rowReport s tabs key x = some (showFailure s tabs (longestId s) key x) := by
  cases x with
  | star m => rfl
  | row i m =>
    have hi := hx i m rfl
    have hcells := List.getElem?_eq_getElem hi
    unfold rowReport
    simp only [hcells, Option.map_some, Option.some.injEq]
    have hlen : (tabs key.1).rows[i].length = (s.pks key.1 ++ s.dfs key.1).length := by
      obtain ⟨hc, hr⟩ := hf key.1 ht
      rw [← hc]; exact hr _ (List.getElem_mem hi)
    cases m with
    | none =>
      have := errorRow_eq hs hf ht hcells []
      simp only [List.append_nil] at this
      simp only [failureRow, showFailure, this]
      have hne : ¬ (s.pks key.1 ++ s.dfs key.1).length < (tabs key.1).rows[i].length := by rw [hlen]; omega
      simp only [hne, if_false]
    | some m =>
      have := errorRow_eq hs hf ht hcells [.str m]
      simp only [failureRow, showFailure, this]
      have hlt : (s.pks key.1 ++ s.dfs key.1).length < ((tabs key.1).rows[i] ++ [Cell.str m]).length := by
        rw [← hlen]; simp
      simp only [hlt, if_true, List.getLast?_append, List.getLast?_singleton, Option.some_or, Option.getD_some]

/-- **C62.**  On data objects whose DataFrames have the columns of the schema, the report lists exactly, each once, the rows that
repeat the primary key of an earlier row, the bad values, the rows without parents and the predicate failures, and identifies each
row by its primary key (all fields if there is none).  Predicates must not raise, unless exceptions are handled as failures. -/
theorem integrity_report_exact {K D : Type} {parses : Cell → Bool} {handled : Bool} {env : PredEnv K D} {s : Schema} (hs : SchemaOK s)
    (hne : PyDict.keys s ≠ []) {dts : DataTypes} (hd : TypesOK s dts) {fks : List FK} (hfn : fks.Nodup)
    (hft : ∀ k ∈ fks, k.native ∈ PyDict.keys s) (hk : ∀ k ∈ fks, PanFKOK k)
    {preds : List ((String × PName) × RowPred Cell K)} (hp : PredsOK s preds) (hag : MakersAgree env preds)
    {tabs : String → PTable} (hf : ReportFrames s tabs) (hr : handled = true ∨ NoRaise env (placed tabs) preds) :
    ∃ rep n, integrityReport parses handled env s dts fks preds tabs = some rep ∧ IsWidth s n ∧
      ShowsOnce rep.duplicates (fun a : String × Nat => DuplicateRow s tabs a.1 a.2) (fun a => (a.1, idCells s tabs n a.1 a.2)) ∧
      ShowsOnce rep.dataTypes (fun a : (String × String) × Nat => BadValueRow parses s dts tabs a.1.1 a.1.2 a.2)
        (fun a => (a.1.1, a.1.2, idCells s tabs n a.1.1 a.2)) ∧
      ShowsOnce rep.foreignKeys (fun a : FK × Nat => a.1 ∈ fks ∧ OrphanRow tabs a.1 a.2)
        (fun a => (a.1, idCells s tabs n a.1.native a.2)) ∧
      ShowsOnce rep.dataRows (fun a : (String × PName) × RowFail Nat => ∃ p, (a.1, p) ∈ preds ∧ Entry env (placed tabs a.1.1) a.1 p a.2)
        (fun a => showFailure s tabs n a.1 a.2) := by
  obtain ⟨types, ht1, ht2, ht3, ht4⟩ := pan_types_exact (parses := parses) hs hd (panOK_of_fits hf)
  have hr' : handled = true ∨ NoRaise env (positions (panRowsOf tabs)) preds := by rw [positions_placed]; exact hr
  obtain ⟨rf, hr1, hr2, hr3, hr4⟩ := pan_find_rows_exact hp.nodup hag (panRowsOf tabs) hr'
  have hrn := pan_find_rows_nodup hp.nodup hag (panRowsOf tabs) hr' rf hr1
  rw [positions_placed] at hr3 hr4
  have hrun : integrityReport parses handled env s dts fks preds tabs = some
      ⟨(panFindDups s (panRowsOf tabs)).flatMap (fun e => (pickFlagged e.2 (tabs e.1).rows).map (fun r => (e.1, errorRow s e.1 r))),
       List.flatMap (fun e => (pickFlagged e.2 (tabs e.1.1).rows).map (fun r => (e.1.1, e.1.2, errorRow s e.1.1 r))) types,
       (panFindRows (panRowsOf tabs) none fks 0).flatMap (fun e =>
         (pickFlagged e.2 (tabs e.1.native).rows).map (fun r => (e.1, errorRow s e.1.native r))),
       List.flatMap (fun e => e.2.filterMap (rowReport s tabs e.1)) rf⟩ := by
    unfold integrityReport
    rw [if_neg hne]
    simp only [ht1, hr1]
    rfl
  refine ⟨_, longestId s, hrun, longestId_width hne, ?_, ?_, ?_, ?_⟩
  · refine (shows_flags (panFindDups s (panRowsOf tabs)) ((panFindDups_keys _ _).nodup hs.tables_nodup)
      (fun t => (tabs t).rows) ?_ (fun t r => (t, errorRow s t r))).congr ?_ ?_
    · rintro ⟨t, fl⟩ he
      obtain ⟨_, _, rfl, _⟩ := (mem_panFindDups _ _ _ _).1 he
      rw [dupFlags_length, panRowsOf_length]
    · rintro ⟨t, i⟩
      simp only [mem_panFindDups]
      constructor
      · rintro ⟨fl, ⟨h1, h2, rfl, _⟩, h4⟩
        obtain ⟨r, hri, h | ⟨j, hj, q, hq, e⟩⟩ := (dupFlags_iff _ _ _ _).1 h4
        · simp at h
        · refine ⟨h1, h2, ?_, j, hj, ?_⟩
          · rw [← panRowsOf_length]; exact (List.getElem?_eq_some_iff.1 hri).1
          · rw [← panRowsOf_cellAt hri, ← panRowsOf_cellAt hq]
            exact List.map_inj_left.1 e
      · rintro ⟨h1, h2, h3, j, hj, h5⟩
        have hfl : (dupFlags (s.pks t) (panRowsOf tabs t) [])[i]? = some true := by
          rw [dupFlags_iff]
          exact ⟨_, panRowsOf_lt h3, Or.inr ⟨j, hj, _, panRowsOf_lt (Nat.lt_trans hj h3), List.map_inj_left.2 h5⟩⟩
        exact ⟨_, ⟨h1, h2, rfl, List.any_eq_true.2 ⟨true, List.mem_of_getElem? hfl, rfl⟩⟩, hfl⟩
    · rintro ⟨t, i⟩ ⟨fl, he, hi⟩
      obtain ⟨h1, _, rfl, _⟩ := (mem_panFindDups _ _ _ _).1 he
      have hlt := (List.getElem?_eq_some_iff.1 hi).1
      rw [dupFlags_length, panRowsOf_length] at hlt
      simp only [errorRow_eq' hs hf h1 hlt]
  · have hmem : ∀ t f fl, ((t, f), fl) ∈ types → PyDict.get? types (t, f) = some fl := fun t f fl h => PyDict.get?_of_mem ht2 h
    refine (shows_flags types ht2 (fun a => (tabs a.1).rows) ?_ (fun a r => (a.1, a.2, errorRow s a.1 r))).congr ?_ ?_
    · rintro ⟨⟨t, f⟩, fl⟩ he
      rw [(ht4 t f fl (hmem _ _ _ he)).1, panRowsOf_length]
    · rintro ⟨⟨t, f⟩, i⟩
      constructor
      · rintro ⟨fl, he, hi⟩
        obtain ⟨h1, h2⟩ := ht4 t f fl (hmem _ _ _ he)
        have hlt := (List.getElem?_eq_some_iff.1 hi).1
        rw [h1, panRowsOf_length] at hlt
        exact (h2 i _ (panRowsOf_lt hlt)).1 hi
      · intro hb
        have hb' : PanBad parses s dts t f (cellAt tabs t i) := hb
        have hlt : i < (tabs t).rows.length := by
          obtain ⟨v, hv, _⟩ := hb
          cases h : (tabs t).rows[i]? with
          | none => simp [cellAt, h] at hv
          | some c => exact (List.getElem?_eq_some_iff.1 h).1
        have hkey := (ht3 t f).2 ⟨_, (mem_panRowsOf _ _ _).2 ⟨i, hlt, rfl⟩, hb'⟩
        obtain ⟨⟨tf, fl⟩, he, rfl⟩ := List.mem_map.1 hkey
        exact ⟨fl, he, ((ht4 t f fl (hmem _ _ _ he)).2 i _ (panRowsOf_lt hlt)).2 hb'⟩
    · rintro ⟨⟨t, f⟩, i⟩ ⟨fl, he, hi⟩
      obtain ⟨h1, h2⟩ := ht4 t f fl (hmem _ _ _ he)
      have hlt := (List.getElem?_eq_some_iff.1 hi).1
      rw [h1, panRowsOf_length] at hlt
      obtain ⟨v, _, hb⟩ := (h2 i _ (panRowsOf_lt hlt)).1 hi
      have htk : t ∈ PyDict.keys s := by
        obtain ⟨td, htd, _⟩ := effType_bad.2 hb
        exact (effType_fields hd htd).1
      simp only [errorRow_eq' hs hf htk hlt]
  · have hpf := pandat_find_fk_exact (panRowsOf tabs) fks hk
    have hkn : ((panFindRows (panRowsOf tabs) none fks 0).map Prod.fst).Nodup := by
      rw [panFindRows_none, List.map_map]
      have : (Prod.fst ∘ fun k => (k, List.map (panRowFails (panRowsOf tabs) k) (panRowsOf tabs k.native))) = id := rfl
      rw [this, List.map_id]
      exact List.Nodup.sublist List.filter_sublist hfn
    have horphan : ∀ (k : FK) i, i < (tabs k.native).rows.length →
        (PanFails (panRowsOf tabs) k (cellAt tabs k.native i) ↔ OrphanRow tabs k i) := by
      intro k i hi
      unfold PanFails OrphanRow Agrees
      simp only [hi, true_and]
      constructor
      · intro h j hj
        have := h _ ((mem_panRowsOf _ _ _).2 ⟨j, hj, rfl⟩)
        simpa using this
      · rintro h q hq hA
        obtain ⟨j, hj, rfl⟩ := (mem_panRowsOf _ _ _).1 hq
        obtain ⟨p, hp, hne⟩ := h j hj
        exact hne (hA p hp)
    refine (shows_flags (panFindRows (panRowsOf tabs) none fks 0) hkn (fun k => (tabs k.native).rows) ?_
      (fun k r => (k, errorRow s k.native r))).congr ?_ ?_
    · rintro ⟨k, fl⟩ he
      rw [(hpf.2 k fl he).1, panRowsOf_length]
    · rintro ⟨k, i⟩
      constructor
      · rintro ⟨fl, he, hi⟩
        obtain ⟨h1, h2⟩ := hpf.2 k fl he
        have hlt := (List.getElem?_eq_some_iff.1 hi).1
        rw [h1, panRowsOf_length] at hlt
        refine ⟨((hpf.1 k).1 (List.mem_map.2 ⟨_, he, rfl⟩)).1, ?_⟩
        exact (horphan k i hlt).1 ((h2 i _ (panRowsOf_lt hlt)).1 hi)
      · rintro ⟨hkm, ho⟩
        have hlt := ho.1
        have hfail := (horphan k i hlt).2 ho
        obtain ⟨⟨k', fl⟩, he, rfl⟩ := List.mem_map.1 ((hpf.1 k).2 ⟨hkm, _, (mem_panRowsOf _ _ _).2 ⟨i, hlt, rfl⟩, hfail⟩)
        exact ⟨fl, he, ((hpf.2 _ fl he).2 i _ (panRowsOf_lt hlt)).2 hfail⟩
    · rintro ⟨k, i⟩ ⟨fl, he, hi⟩
      obtain ⟨h1, h2⟩ := hpf.2 k fl he
      have hlt := (List.getElem?_eq_some_iff.1 hi).1
      rw [h1, panRowsOf_length] at hlt
      have hkm := ((hpf.1 k).1 (List.mem_map.2 ⟨_, he, rfl⟩)).1
      simp only [errorRow_eq' hs hf (hft k hkm) hlt]
  · have hentry : ∀ k vs x, rf.get? k = some vs → x ∈ vs → ∃ p, (k, p) ∈ preds ∧ Entry env (placed tabs k.1) k p x := by
      intro k vs x hg hx
      obtain ⟨p, hpm, _⟩ := (hr3 k).1 (List.mem_map.2 ⟨_, PyDict.get?_mem hg, rfl⟩)
      exact ⟨p, hpm, (hr4 k p vs hpm hg x).1 hx⟩
    refine (shows_group rf hr2 hrn (rowReport s tabs) (showFailure s tabs (longestId s)) ?_).congr ?_ (fun _ _ => rfl)
    · intro k vs hm x hx
      obtain ⟨p, hpm, hE⟩ := hentry k vs x (PyDict.get?_of_mem hr2 hm) hx
      refine rowReport_eq hs hf (hp.tables _ hpm) x ?_
      rintro i m rfl
      cases hE with
      | row _ hmem _ =>
        unfold placed at hmem
        obtain ⟨j, hj, e⟩ := List.mem_map.1 hmem
        rw [← (Prod.mk.inj e).1]
        exact List.mem_range.1 hj
    · rintro ⟨k, x⟩
      constructor
      · rintro ⟨vs, hg, hx⟩; exact hentry k vs x hg hx
      · rintro ⟨p, hpm, hE⟩
        obtain ⟨⟨k', vs⟩, hm, rfl⟩ := List.mem_map.1 ((hr3 k).2 ⟨p, hpm, x, hE⟩)
        have hg := PyDict.get?_of_mem hr2 hm
        exact ⟨vs, hg, (hr4 _ p vs hpm hg x).2 hE⟩

/-- **C62, clean data.**  The report has no rows iff there is nothing to report: this is what `standard_main` tests before it
solves. -/
theorem integrity_report_empty {K D : Type} {parses : Cell → Bool} {handled : Bool} {env : PredEnv K D} {s : Schema} (hs : SchemaOK s)
    (hne : PyDict.keys s ≠ []) {dts : DataTypes} (hd : TypesOK s dts) {fks : List FK} (hfn : fks.Nodup)
    (hft : ∀ k ∈ fks, k.native ∈ PyDict.keys s) (hk : ∀ k ∈ fks, PanFKOK k)
    {preds : List ((String × PName) × RowPred Cell K)} (hp : PredsOK s preds) (hag : MakersAgree env preds)
    {tabs : String → PTable} (hf : ReportFrames s tabs) (hr : handled = true ∨ NoRaise env (placed tabs) preds) :
    ∃ rep, integrityReport parses handled env s dts fks preds tabs = some rep ∧ (rep.count = 0 ↔
      (∀ t i, ¬ DuplicateRow s tabs t i) ∧ (∀ t f i, ¬ BadValueRow parses s dts tabs t f i) ∧
      (∀ k ∈ fks, ∀ i, ¬ OrphanRow tabs k i) ∧ (∀ key p x, (key, p) ∈ preds → ¬ Entry env (placed tabs key.1) key p x)) := by
  obtain ⟨rep, n, h1, _, h3, h4, h5, h6⟩ := integrity_report_exact (parses := parses) hs hne hd hfn hft hk hp hag hf hr
  refine ⟨rep, h1, ?_⟩
  have e3 := h3.length
  have e4 := h4.length
  have e5 := h5.length
  have e6 := h6.length
  have : rep.count = 0 ↔ rep.duplicates.length = 0 ∧ rep.dataTypes.length = 0 ∧ rep.foreignKeys.length = 0 ∧ rep.dataRows.length = 0 := by
    unfold Report.count; omega
  rw [this, e3, e4, e5, e6]
  constructor
  · rintro ⟨a, b, c, d⟩
    exact ⟨fun t i => a (t, i), fun t f i => b ((t, f), i), fun k hk i h => c (k, i) ⟨hk, h⟩, fun key p x hm hE => d (key, x) ⟨p, hm, hE⟩⟩
  · rintro ⟨a, b, c, d⟩
    exact ⟨fun x => a _ _, fun x => b _ _ _, fun x h => c _ h.1 _ h.2, fun x ⟨p, hm, hE⟩ => d _ p _ hm hE⟩

/-! ### A case, and what happens to other columns -/

/-- Foods, and nutrition with a foreign key to foods. -/
def repSchema : Schema := [("foods", ⟨["name"], ["cost"]⟩), ("nutrition", ⟨["food", "category"], ["qty"]⟩)]

/-- `cost` must be known. -/
def repPred : RowPred Cell Unit :=
  { run := fun _ r => if r "cost" = some .none then .ret (.obj false "no cost") else .ret .tru, maker := none, message := true }

def repFK : FK := ⟨"nutrition", "foods", [("food", "name")]⟩

def repEnv : PredEnv Unit Unit := ⟨fun _ _ => .dict (), (), none, []⟩

def repTabs : String → PTable := fun t =>
  if t = "foods" then ⟨["name", "cost"], [[.str "egg", .num (.fin 2)], [.str "egg", .none]]⟩
  else if t = "nutrition" then ⟨["food", "category", "qty"], [[.str "egg", .str "fat", .num (.fin 1)], [.str "ham", .str "fat", .num (.fin 1)]]⟩
  else ⟨[], []⟩

/-- The hypotheses of `integrity_report_exact` hold in a case with three kinds of failures, all of which are shown. -/
example : SchemaOK repSchema ∧ PyDict.keys repSchema ≠ [] ∧ TypesOK repSchema [] ∧ [repFK].Nodup ∧
    (∀ k ∈ [repFK], k.native ∈ PyDict.keys repSchema) ∧ (∀ k ∈ [repFK], PanFKOK k) ∧
    PredsOK repSchema [(("foods", PName.str "known"), repPred)] ∧ MakersAgree repEnv [(("foods", PName.str "known"), repPred)] ∧
    ReportFrames repSchema repTabs ∧
    integrityReport (fun _ => true) true repEnv repSchema [] [repFK] [(("foods", .str "known"), repPred)] repTabs =
      some ⟨[("foods", [.str "egg", .none])], [], [(repFK, [.str "ham", .str "fat"])],
        [("foods", .str "known", .str "no cost", [.str "egg", .none])]⟩ := by
  have hk : PyDict.keys repSchema = ["foods", "nutrition"] := rfl
  refine ⟨⟨by decide, ?_⟩, by decide, ⟨by decide, by simp, by simp [PyDict.keys], by simp⟩, by simp, by simp [repFK, hk], ?_,
    ⟨by simp, by simp [hk]⟩, ?_, ?_, by decide +kernel⟩
  · intro t
    by_cases h1 : t = "foods"
    · subst h1; decide
    by_cases h2 : t = "nutrition"
    · subst h2; decide
    have e1 : ("foods" = t) = False := by simp [Ne.symm h1]
    have e2 : ("nutrition" = t) = False := by simp [Ne.symm h2]
    simp [Schema.pks, Schema.dfs, repSchema, PyDict.get?, e1, e2]
  · simp [PanFKOK, repFK, NoClobber]
  · intro a ha b hb h; simp at ha; subst ha; simp [repPred] at h
  · intro t ht
    rw [hk] at ht
    simp at ht
    rcases ht with rfl | rfl
    · exact ⟨by decide, by decide⟩
    · exact ⟨by decide, by decide⟩

/-- **Finding.**  With a further column in the DataFrame, the report gives the value of the last column as the error message of a
predicate that has none (utils.py:413-415). -/
theorem report_extra_column_message :
    (integrityReport (fun _ => true) true repEnv [("foods", ⟨["name"], ["cost"]⟩)] [] []
      [(("foods", .str "known"), { repPred with message := false })]
      (fun _ => ⟨["name", "cost", "note"], [[.str "egg", .none, .str "organic"]]⟩)).map Report.dataRows =
    some [("foods", .str "known", .str "organic", [.str "egg"])] := by decide +kernel

/-- **Finding.**  The identifying cells are the leading columns of the DataFrame (utils.py:372-374), so with the columns in another
order (which `PanDat` accepts) the report identifies a row by other cells: here the foods `egg` and `ham` are both shown as `7`. -/
theorem report_column_order :
    (integrityReport (fun _ => true) true repEnv repSchema [] [repFK] ([] : List ((String × PName) × RowPred Cell Unit))
      (fun t => if t = "nutrition" then ⟨["qty", "food", "category"], [[.num (.fin 7), .str "egg", .str "fat"], [.num (.fin 7), .str "ham", .str "fat"]]⟩
        else ⟨["name", "cost"], []⟩)).map Report.foreignKeys =
    some [(repFK, [.num (.fin 7), .str "egg"]), (repFK, [.num (.fin 7), .str "ham"])] := by decide +kernel

end Ticdat

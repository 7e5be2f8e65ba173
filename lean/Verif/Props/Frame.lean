import Verif.Spec.Frame
import Verif.Props.Init
import Verif.Props.Copy
/-!
# C51: building a `TicDat` from DataFrames
-/
set_option linter.unusedSimpArgs false
namespace Ticdat
open Spec

theorem get?_zip {K V : Type} [DecidableEq K] (l : List K) (vs : List V) (h : vs.length = l.length) (k : K) :
    PyDict.get? (l.zip vs) k = if k ∈ l then vs[l.idxOf k]? else none := by
  induction l generalizing vs with
  | nil => simp [PyDict.get?]
  | cons a l ih =>
    cases vs with
    | nil => simp at h
    | cons v vs =>
      simp only [List.zip_cons_cons, PyDict.get?]
      by_cases he : a = k
      · subst he; simp
      · have hne : ¬ k = a := fun e => he e.symm
        rw [if_neg he, ih vs (by simpa using h)]
        simp only [List.mem_cons, hne, false_or]
        split
        · have hb : (a == k) = false := by simp [he]
          rw [List.idxOf_cons, hb]
          rfl
        · rfl

theorem FrameOK.cell_eq {v : Frame} (hv : FrameOK v) {r : List Cell × List Cell} (hr : r ∈ v.rows) (l : Label) :
    v.cell r.2 l = if l ∈ v.cols then some (colCell v r l) else none := by
  have hlen := (hv.rows r hr).2
  unfold Frame.cell
  have hk : PyDict.keys (v.cols.zip r.2) = v.cols := by
    unfold PyDict.keys
    exact List.map_fst_zip (by omega)
  rw [PyDict.ofList_of_nodup _ (by rw [hk]; exact hv.cols), get?_zip _ _ hlen]
  split
  · rename_i hm
    have : v.cols.idxOf l < r.2.length := by rw [hlen]; exact List.idxOf_lt_length_of_mem hm
    unfold colCell
    rw [List.getElem?_eq_getElem this]
    rfl
  · rfl

/-- The default values that a frame has no column for. -/
def addedDefaults (defaults : PyDict String Cell) (v : Frame) : PyDict String Cell := defaults.filter (fun p => !v.has p.1)

theorem withDefaults_eq (defaults : PyDict String Cell) (hd : (PyDict.keys defaults).Nodup) (v : Frame) :
    v.withDefaults defaults = ⟨v.index, v.cols ++ (addedDefaults defaults v).map (fun p => Label.name p.1),
      v.rows.map (fun r => (r.1, r.2 ++ (addedDefaults defaults v).map Prod.snd))⟩ := by
  unfold Frame.withDefaults addedDefaults
  induction defaults generalizing v with
  | nil => simp
  | cons p rest ih =>
    have hn := List.nodup_cons.mp hd
    rw [List.foldl_cons, ih hn.2]
    unfold Frame.addCol
    by_cases hp : v.has p.1 = true
    · simp [hp]
    · have hf : ∀ (w : Frame), w.cols = v.cols ++ [Label.name p.1] →
          List.filter (fun q : String × Cell => !w.has q.1) rest = List.filter (fun q => !v.has q.1) rest := by
        intro w hw
        apply List.filter_congr
        intro q hq
        have : q.1 ≠ p.1 := fun e => hn.1 (List.mem_map.mpr ⟨q, hq, e⟩)
        unfold Frame.has
        rw [hw]
        simp [this]
      simp only [hp, if_false, Bool.false_eq_true]
      rw [hf _ rfl]
      simp [hp, List.map_map, Function.comp_def]

theorem withDefaults_ok {defaults : PyDict String Cell} (hd : (PyDict.keys defaults).Nodup) {v : Frame} (hv : FrameOK v) :
    FrameOK (v.withDefaults defaults) := by
  rw [withDefaults_eq defaults hd v]
  refine ⟨?_, hv.index, ?_⟩
  · rw [List.nodup_append]
    refine ⟨hv.cols, ?_, ?_⟩
    · have : (PyDict.keys (addedDefaults defaults v)).Nodup := List.Nodup.sublist (List.Sublist.map _ List.filter_sublist) hd
      have h2 : (addedDefaults defaults v).map (fun p => Label.name p.1) = (PyDict.keys (addedDefaults defaults v)).map Label.name := by
        simp [PyDict.keys]
      rw [h2]
      exact List.Pairwise.map _ (fun a b hab e => hab (Label.name.inj e)) this
    · intro a ha b hb e
      obtain ⟨p, hp, rfl⟩ := List.mem_map.mp hb
      have := (List.mem_filter.mp hp).2
      simp [Frame.has, ← e, ha] at this
  · intro r hr
    obtain ⟨q, hq, rfl⟩ := List.mem_map.mp hr
    have := hv.rows q hq
    simp [this.1, this.2]

theorem withDefaults_has {defaults : PyDict String Cell} (hd : (PyDict.keys defaults).Nodup) (v : Frame) (f : String) :
    (v.withDefaults defaults).has f = true ↔ Label.name f ∈ v.cols ∨ f ∈ PyDict.keys defaults := by
  rw [withDefaults_eq defaults hd v]
  unfold Frame.has addedDefaults PyDict.keys
  simp only [decide_eq_true_eq, List.mem_append, List.mem_map, List.mem_filter]
  constructor
  · rintro (h | ⟨p, hp, he⟩)
    · exact .inl h
    · exact .inr ⟨p, hp.1, Label.name.inj he⟩
  · rintro (h | ⟨p, hp, he⟩)
    · exact .inl h
    · by_cases hc : Label.name f ∈ v.cols
      · exact .inl hc
      · exact .inr ⟨p, ⟨hp, by unfold Frame.has; rw [he]; simp [hc]⟩, by rw [he]⟩

/-- The row of the frame with defaults that comes from a row of the frame. -/
def extRow (defaults : PyDict String Cell) (v : Frame) (r : List Cell × List Cell) : List Cell × List Cell :=
  (r.1, r.2 ++ (addedDefaults defaults v).map Prod.snd)

theorem get?_filter_by_key {K V : Type} [DecidableEq K] (d : PyDict K V) (q : K → Bool) (k : K) (h : q k = true) :
    PyDict.get? (d.filter (fun p => q p.1)) k = PyDict.get? d k := by
  induction d with
  | nil => rfl
  | cons p rest ih =>
    rw [List.filter_cons]
    by_cases hp : p.1 = k
    · rw [hp, h]; simp [PyDict.get?, hp]
    · split
      · simp [PyDict.get?, hp, ih]
      · rw [ih]; simp [PyDict.get?, hp]

theorem withDefaults_cell {c : TabClass} (hd : (PyDict.keys c.defaults).Nodup) {v : Frame} (hv : FrameOK v)
    {r : List Cell × List Cell} (hr : r ∈ v.rows) (f : String) :
    (v.withDefaults c.defaults).cell (extRow c.defaults v r).2 (.name f) =
      if Label.name f ∈ v.cols then some (colCell v r (.name f)) else PyDict.get? c.defaults f := by
  have hok := withDefaults_ok hd hv
  have hlen := (hv.rows r hr).2
  have hzip : (v.withDefaults c.defaults).cols.zip (extRow c.defaults v r).2 =
      v.cols.zip r.2 ++ (addedDefaults c.defaults v).map (fun p => (Label.name p.1, p.2)) := by
    rw [withDefaults_eq c.defaults hd v]
    unfold extRow
    rw [List.zip_append (by omega), List.zip_map']
  have hks : (PyDict.keys ((v.withDefaults c.defaults).cols.zip (extRow c.defaults v r).2)).Nodup := by
    unfold PyDict.keys
    rw [List.map_fst_zip]
    · exact hok.cols
    · rw [withDefaults_eq c.defaults hd v]; simp [extRow, hlen]
  unfold Frame.cell
  rw [PyDict.ofList_of_nodup _ hks, hzip]
  have happ : ∀ (a b : List (Label × Cell)) (k : Label), PyDict.get? (a ++ b) k = (PyDict.get? a k).or (PyDict.get? b k) := by
    intro a b k
    induction a with
    | nil => simp [PyDict.get?]
    | cons p rest ih =>
      rw [List.cons_append]
      simp only [PyDict.get?]
      split
      · simp
      · exact ih
  have hmap : ∀ (d : PyDict String Cell), PyDict.get? (d.map (fun p => (Label.name p.1, p.2))) (.name f) = PyDict.get? d f := by
    intro d
    induction d with
    | nil => rfl
    | cons p rest ih =>
      simp only [List.map_cons, PyDict.get?, ih]
      by_cases h : p.1 = f <;> simp [h]
  rw [happ, get?_zip _ _ hlen, hmap]
  split
  · rename_i hm
    have : v.cols.idxOf (Label.name f) < r.2.length := by rw [hlen]; exact List.idxOf_lt_length_of_mem hm
    unfold colCell
    rw [List.getElem?_eq_getElem this]
    rfl
  · rename_i hm
    unfold addedDefaults
    rw [get?_filter_by_key c.defaults (fun k => !v.has k) f (by simp [Frame.has, hm])]
    rfl

theorem resetIndex_eq {v u : Frame} (h : v.resetIndex = some u) :
    (∀ f ∈ v.index, Label.name f ∉ v.cols) ∧
      u = ⟨[], v.index.map .name ++ v.cols, v.rows.map (fun r => ([], r.1 ++ r.2))⟩ := by
  unfold Frame.resetIndex at h
  split at h
  · cases h
  · rename_i hn
    refine ⟨fun f hf hm => hn ?_, (Option.some.inj h).symm⟩
    rw [List.any_eq_true]
    exact ⟨f, hf, by simp [Frame.has, hm]⟩

theorem resetIndex_ok {v u : Frame} (hv : FrameOK v) (h : v.resetIndex = some u) : FrameOK u := by
  obtain ⟨hn, rfl⟩ := resetIndex_eq h
  refine ⟨?_, List.nodup_nil, ?_⟩
  · rw [List.nodup_append]
    refine ⟨List.Pairwise.map _ (fun a b hab e => hab (Label.name.inj e)) hv.index, hv.cols, ?_⟩
    intro a ha b hb e
    obtain ⟨f, hf, rfl⟩ := List.mem_map.mp ha
    exact hn f hf (e ▸ hb)
  · intro r hr
    obtain ⟨q, hq, rfl⟩ := List.mem_map.mp hr
    have := hv.rows q hq
    simp [this.1, this.2]

theorem resetIndex_cell {v u : Frame} (hv : FrameOK v) (h : v.resetIndex = some u) {r : List Cell × List Cell}
    (hr : r ∈ v.rows) (f : String) :
    u.cell (r.1 ++ r.2) (.name f) =
      if f ∈ v.index then some (indexCell v r f) else v.cell r.2 (.name f) := by
  have hok := resetIndex_ok hv h
  obtain ⟨hn, rfl⟩ := resetIndex_eq h
  have hl1 := (hv.rows r hr).1
  have hl2 := (hv.rows r hr).2
  have hm : (([] : List Cell), r.1 ++ r.2) ∈ v.rows.map (fun r => (([] : List Cell), r.1 ++ r.2)) := List.mem_map.mpr ⟨r, hr, rfl⟩
  have e1 := FrameOK.cell_eq hok (r := ([], r.1 ++ r.2)) hm (.name f)
  simp only at e1
  rw [e1, FrameOK.cell_eq hv hr]
  simp only [List.mem_append, List.mem_map, Label.name.injEq, exists_eq_right]
  by_cases hf : f ∈ v.index
  · rw [if_pos (.inl hf), if_pos hf]
    congr 1
    unfold colCell indexCell
    have hi : (v.index.map Label.name ++ v.cols).idxOf (Label.name f) = v.index.idxOf f := by
      rw [List.idxOf_append, if_pos (List.mem_map.mpr ⟨f, hf, rfl⟩)]
      generalize v.index = l
      induction l with
      | nil => rfl
      | cons a l ih =>
        rw [List.map_cons, List.idxOf_cons, List.idxOf_cons, ih]
        have : (Label.name a == Label.name f) = (a == f) := by
          rw [Bool.eq_iff_iff, beq_iff_eq, beq_iff_eq, Label.name.injEq]
        rw [this]
    simp only
    rw [hi, List.getElem?_append_left (by rw [hl1]; exact List.idxOf_lt_length_of_mem hf)]
  · simp only [hf, false_or, if_false]
    split
    · rename_i hc
      congr 1
      unfold colCell
      simp only
      rw [List.idxOf_append, if_neg (by simp [hf]), List.getElem?_append_right (by rw [hl1]; simp)]
      simp [hl1]
    · rfl

theorem frameKey_eq (c : TabClass) (u : Frame) (cells : List Cell) (cell : String → Cell)
    (h : ∀ f ∈ c.pks, u.cell cells (.name f) = some (cell f)) : frameKey c u cells = some (keyFrom c.pks cell) := by
  unfold frameKey keyFrom
  generalize c.pks = pks at h
  match pks, h with
  | [], _ => rfl
  | [p], h => simp only; rw [h p (by simp)]; rfl
  | p :: q :: ps, h => simp only; rw [mapM_eq_map h]; rfl

theorem frameData_eq (c : TabClass) (u : Frame) (cells : List Cell) (cell : String → Cell)
    (h : ∀ f ∈ c.dfs, u.cell cells (.name f) = some (cell f)) : frameData c u cells = some (dataFrom c.dfs cell) := by
  unfold frameData dataFrom
  rw [mapM_eq_map (k := fun f => (f, cell f)) (fun f hf => by rw [h f hf]; rfl)]

theorem keyFrom_shape (pks : List String) (hp : pks ≠ []) (cell : String → Cell) : keyOK pks.length (keyFrom pks cell) = true := by
  unfold keyFrom
  split
  · simp [keyOK]
  · rename_i hne
    simp only [keyOK, List.length_map, decide_true, Bool.or_true, Bool.and_true, decide_eq_true_eq]
    match pks, hp, hne with
    | [], hp, _ => exact absurd rfl hp
    | [p], _, hne => exact absurd rfl (hne p)
    | _ :: _ :: _, _, _ => simp

theorem initRow_full (c : TabClass) (hn : c.dfs.Nodup) (row : RowVal) (h : PyDict.keys row = c.dfs) :
    initRow c (.dict row) = some row := by
  rw [initRow_iff c hn (.dict row) (by show (PyDict.keys row).Nodup; rw [h]; exact hn)]
  exact ⟨fun f hf => h ▸ hf, (filledRow_full c row hn h).symm⟩

theorem dataFrom_keys (dfs : List String) (cell : String → Cell) : PyDict.keys (dataFrom dfs cell) = dfs := by
  simp [PyDict.keys, dataFrom, Function.comp_def]

/-- `PyDict.ofList` of rows is the table that the rows make. -/
theorem tableOfRows_ofList {R : Type} (c : TabClass) (hp : c.pks ≠ []) (rows : List R) (cell : R → String → Cell) :
    TableOfRows c rows cell (.keyed (PyDict.ofList (rows.map (fun r => (keyFrom c.pks (cell r), dataFrom c.dfs (cell r)))))) := by
  unfold TableOfRows
  rw [if_neg hp]
  refine ⟨_, rfl, PyDict.ofList_keys_nodup _, fun k => ?_, fun hnd => ?_⟩
  · rw [get?_ofList_last, List.filter_map, List.getLast?_map, Option.map_map]
    rfl
  · apply PyDict.ofList_of_nodup
    unfold PyDict.keys
    rw [List.map_map]
    exact hnd

theorem frameGood_iff (c : TabClass) (hd : (PyDict.keys c.defaults).Nodup) (v : Frame) :
    frameGood c (v.withDefaults c.defaults) = true ↔ "name" ∉ c.dfs ∧ ("name" ∈ c.pks → c.pks.length ≤ 1) ∧
      (∀ f ∈ c.dfs, Provided c v f) ∧ (c.pks = [] ∨ c.pks = v.index ∨ ∀ f ∈ c.pks, Provided c v f) := by
  have hi : (v.withDefaults c.defaults).index = v.index := by rw [withDefaults_eq c.defaults hd v]
  unfold frameGood Provided
  simp only [hi, Bool.and_eq_true, Bool.not_eq_true', decide_eq_false_iff_not, List.all_eq_true,
    withDefaults_has hd, Bool.and_eq_false_iff, gt_iff_lt, Nat.not_lt, ne_eq, Decidable.not_not, Bool.not_eq_false']
  constructor
  · rintro ⟨⟨⟨h1, h2⟩, h3⟩, h4⟩
    refine ⟨h1, fun hn => h2.resolve_left (fun h => h hn), h3, ?_⟩
    rcases h4 with (h | h) | h
    · exact .inl h
    · exact .inr (.inl h)
    · exact .inr (.inr h)
  · rintro ⟨h1, h2, h3, h4⟩
    refine ⟨⟨⟨h1, ?_⟩, h3⟩, ?_⟩
    · by_cases hn : "name" ∈ c.pks
      · exact .inr (h2 hn)
      · exact .inl hn
    · rcases h4 with h | h | h
      · exact .inl (.inl h)
      · exact .inl (.inr h)
      · exact .inr h

theorem provided_cell {c : TabClass} (hd : (PyDict.keys c.defaults).Nodup) {v : Frame} (hv : FrameOK v)
    {r : List Cell × List Cell} (hr : r ∈ v.rows) {f : String} (hf : Provided c v f) :
    (v.withDefaults c.defaults).cell (extRow c.defaults v r).2 (.name f) = some (frameCell c v r f) := by
  rw [withDefaults_cell hd hv hr f]
  unfold frameCell
  by_cases hc : Label.name f ∈ v.cols
  · simp only [hc, if_true]
  · simp only [hc, if_false]
    cases hg : PyDict.get? c.defaults f with
    | some d => rfl
    | none => exact absurd (hf.resolve_left hc) ((PyDict.get?_eq_none _ _).mp hg)

theorem not_provided_cell {c : TabClass} {v : Frame} {r : List Cell × List Cell} {f : String} (hf : ¬ Provided c v f) :
    frameCell c v r f = indexCell v r f := by
  unfold frameCell
  rw [if_neg (fun h => hf (.inl h)), (PyDict.get?_eq_none _ _).mpr (fun h => hf (.inr h))]

theorem frameRow_eq (c : TabClass) (hp : c.pks ≠ []) (hn : c.dfs.Nodup) (u : Frame) (cells : List Cell) (cell : String → Cell)
    (h : ∀ f ∈ c.pks ++ c.dfs, u.cell cells (.name f) = some (cell f)) :
    frameRow c u cells = some (keyFrom c.pks cell, dataFrom c.dfs cell) := by
  unfold frameRow
  rw [frameKey_eq c u cells cell (fun f hf => h f (List.mem_append_left _ hf)),
    frameData_eq c u cells cell (fun f hf => h f (List.mem_append_right _ hf))]
  simp only [Option.bind_some]
  rw [if_pos (by unfold TabClass.pkLen; exact keyFrom_shape c.pks hp cell),
    initRow_full c hn _ (dataFrom_keys c.dfs cell)]
  rfl

/-- The table that rows make, as the code computes it. -/
def rowsTable {R : Type} (c : TabClass) (rows : List R) (cell : R → String → Cell) : TabVal :=
  if c.pks = [] then .plain (rows.map (fun r => dataFrom c.dfs (cell r)))
  else .keyed (PyDict.ofList (rows.map (fun r => (keyFrom c.pks (cell r), dataFrom c.dfs (cell r)))))

theorem rowsTable_spec {R : Type} (c : TabClass) (rows : List R) (cell : R → String → Cell) :
    TableOfRows c rows cell (rowsTable c rows cell) := by
  unfold rowsTable
  by_cases hp : c.pks = []
  · rw [if_pos hp]; unfold TableOfRows; rw [if_pos hp]
  · rw [if_neg hp]; exact tableOfRows_ofList c hp rows cell

theorem rowsTable_size {R : Type} (c : TabClass) (rows : List R) (cell : R → String → Cell) :
    rows.length > (rowsTable c rows cell).size ↔ c.pks ≠ [] ∧ ¬ (rows.map (fun r => keyFrom c.pks (cell r))).Nodup := by
  unfold rowsTable
  by_cases hp : c.pks = []
  · rw [if_pos hp]; simp [TabVal.size, hp]
  · rw [if_neg hp]
    obtain ⟨h1, h2⟩ := ofList_length (rows.map (fun r => (keyFrom c.pks (cell r), dataFrom c.dfs (cell r))))
    rw [List.map_map, List.length_map] at h2
    rw [List.length_map] at h1
    have h2 : _ ↔ (rows.map (fun r => keyFrom c.pks (cell r))).Nodup := h2
    rw [← h2]
    simp only [TabVal.size, hp, ne_eq, not_false_eq_true, true_and]
    omega

/-- The table built from an acceptable frame. -/
theorem initFrame_fits (c : TabClass) (hn : (c.pks ++ c.dfs).Nodup) (hd : (PyDict.keys c.defaults).Nodup) (v : Frame)
    (hv : FrameOK v) (hf : FrameFits c v) : initFrame c v = some (rowsTable c v.rows (frameCell c v)) := by
  obtain ⟨h1, h2, h3, h4⟩ := hf
  have hdn : c.dfs.Nodup := (List.nodup_append.mp hn).2.1
  have hrows : (v.withDefaults c.defaults).rows = v.rows.map (extRow c.defaults v) := by
    rw [withDefaults_eq c.defaults hd v]; rfl
  have hidx : (v.withDefaults c.defaults).index = v.index := by rw [withDefaults_eq c.defaults hd v]
  have hgood : frameGood c (v.withDefaults c.defaults) = true :=
    (frameGood_iff c hd v).mpr ⟨h1, fun h => Nat.le_of_eq (h2 h), h3, h4.elim (fun h => .inr (.inr h)) (fun h => .inr (.inl h.1))⟩
  unfold initFrame
  rw [if_pos hgood]
  by_cases hp : c.pks = []
  · unfold rowsTable
    simp only [hp, ne_eq, not_true_eq_false, if_false]
    rw [hrows, List.mapM_map]
    have := mapM_eq_map (l := v.rows) (k := fun r => dataFrom c.dfs (frameCell c v r))
      (g := fun r => (frameData c (v.withDefaults c.defaults) (extRow c.defaults v r).2).bind (fun d => initRow c (.dict d)))
      (fun r hr => by
        rw [frameData_eq c _ _ (frameCell c v r) (fun f hf => provided_cell hd hv hr (h3 f hf))]
        exact initRow_full c hdn _ (dataFrom_keys c.dfs _))
    rw [show (v.rows.mapM ((fun r => (frameData c (v.withDefaults c.defaults) r.2).bind (fun d => initRow c (.dict d))) ∘
      extRow c.defaults v)) = _ from this]
    rfl
  · rw [if_pos hp]
    unfold rowsTable
    rw [if_neg hp]
    by_cases hall : ∀ f ∈ c.pks, Provided c v f
    · have hsrc : frameSource c (v.withDefaults c.defaults) = some (v.withDefaults c.defaults) := by
        unfold frameSource
        rw [if_pos (List.all_eq_true.mpr (fun f hf => (withDefaults_has hd v f).mpr (hall f hf)))]
      rw [hsrc, Option.bind_some, hrows, List.mapM_map]
      have := mapM_eq_map (l := v.rows) (k := fun r => (keyFrom c.pks (frameCell c v r), dataFrom c.dfs (frameCell c v r)))
        (g := fun r => frameRow c (v.withDefaults c.defaults) (extRow c.defaults v r).2)
        (fun r hr => frameRow_eq c hp hdn _ _ (frameCell c v r) (fun f hf => provided_cell hd hv hr
          ((List.mem_append.mp hf).elim (hall f) (h3 f))))
      rw [show (v.rows.mapM ((fun r => frameRow c (v.withDefaults c.defaults) r.2) ∘ extRow c.defaults v)) = _ from this]
      rfl
    · obtain ⟨hi, hnone⟩ := h4.resolve_left hall
      have hfirst : c.pks.all (v.withDefaults c.defaults).has = false := by
        rw [← Bool.not_eq_true, List.all_eq_true]
        intro h
        exact hall (fun f hf => (withDefaults_has hd v f).mp (h f hf))
      have hreset : ∃ u, (v.withDefaults c.defaults).resetIndex = some u := by
        unfold Frame.resetIndex
        rw [hidx, ← hi]
        rw [if_neg]
        · exact ⟨_, rfl⟩
        · rw [List.any_eq_true]
          rintro ⟨f, hf, hh⟩
          exact hnone f hf ((withDefaults_has hd v f).mp hh)
      obtain ⟨u, hu⟩ := hreset
      have hurows : u.rows = v.rows.map (fun r => (([] : List Cell), (extRow c.defaults v r).1 ++ (extRow c.defaults v r).2)) := by
        rw [(resetIndex_eq hu).2, hrows]
        simp [List.map_map, Function.comp_def]
      unfold frameSource
      rw [hfirst]
      simp only [Bool.false_eq_true, if_false]
      rw [hu, Option.bind_some, hurows, List.mapM_map]
      have := mapM_eq_map (l := v.rows) (k := fun r => (keyFrom c.pks (frameCell c v r), dataFrom c.dfs (frameCell c v r)))
        (g := fun r => frameRow c u ((extRow c.defaults v r).1 ++ (extRow c.defaults v r).2))
        (fun r hr => frameRow_eq c hp hdn _ _ (frameCell c v r) (fun f hf => by
          have hr' : extRow c.defaults v r ∈ (v.withDefaults c.defaults).rows := by
            rw [hrows]; exact List.mem_map.mpr ⟨r, hr, rfl⟩
          rw [resetIndex_cell (withDefaults_ok hd hv) hu hr' f, hidx]
          by_cases hpk : f ∈ c.pks
          · rw [if_pos (hi ▸ hpk), not_provided_cell (hnone f hpk)]
            unfold indexCell
            rw [hidx]
            rfl
          · rw [if_neg (fun h => hpk (hi ▸ h))]
            exact provided_cell hd hv hr (h3 f ((List.mem_append.mp hf).resolve_left hpk))))
      rw [show (v.rows.mapM ((fun r => frameRow c u r.2) ∘
        (fun r => (([] : List Cell), (extRow c.defaults v r).1 ++ (extRow c.defaults v r).2)))) = _ from this]
      rfl

/-- **C51, tables.**  A table is built from a DataFrame exactly if each data field is a column or has a default value and
the primary key is made of columns (or defaults) or is the index; each row of the DataFrame then gives its key and its
data fields to the table. -/
theorem init_from_frame (c : TabClass) (hn : (c.pks ++ c.dfs).Nodup) (hd : (PyDict.keys c.defaults).Nodup) (v : Frame)
    (hv : FrameOK v) : (initFrame c v ≠ none ↔ FrameFits c v) ∧
      ∀ tab, initFrame c v = some tab → TableOfRows c v.rows (frameCell c v) tab := by
  have hiff : initFrame c v ≠ none → FrameFits c v := by
    intro h
    have hgood : frameGood c (v.withDefaults c.defaults) = true := by
      refine Classical.byContradiction (fun hc => h ?_)
      unfold initFrame
      rw [if_neg hc]
    obtain ⟨h1, h2, h3, h4⟩ := (frameGood_iff c hd v).mp hgood
    refine ⟨h1, fun hm => Nat.le_antisymm (h2 hm) (List.length_pos_of_mem hm), h3, ?_⟩
    by_cases hall : ∀ f ∈ c.pks, Provided c v f
    · exact .inl hall
    · right
      have hp : c.pks ≠ [] := by intro e; rw [e] at hall; exact hall (fun f hf => by cases hf)
      have hi : c.pks = v.index := by
        rcases h4 with h | h | h
        · exact absurd h hp
        · exact h
        · exact absurd h hall
      refine ⟨hi, fun f hf hpr => h ?_⟩
      have hidx : (v.withDefaults c.defaults).index = v.index := by rw [withDefaults_eq c.defaults hd v]
      have hfirst : c.pks.all (v.withDefaults c.defaults).has = false := by
        rw [← Bool.not_eq_true, List.all_eq_true]
        intro h
        exact hall (fun f hf => (withDefaults_has hd v f).mp (h f hf))
      have hreset : (v.withDefaults c.defaults).resetIndex = none := by
        unfold Frame.resetIndex
        rw [hidx, ← hi, if_pos (List.any_eq_true.mpr ⟨f, hf, (withDefaults_has hd v f).mpr hpr⟩)]
      unfold initFrame frameSource
      rw [if_pos hgood, if_pos hp, hfirst]
      simp only [Bool.false_eq_true, if_false]
      rw [hreset]
      rfl
  refine ⟨⟨hiff, fun hf => ?_⟩, fun tab htab => ?_⟩
  · rw [initFrame_fits c hn hd v hv hf]; simp
  · have ht := initFrame_fits c hn hd v hv (hiff (by rw [htab]; simp))
    rw [htab] at ht
    cases ht
    exact rowsTable_spec c _ _

theorem initFrame_val (c : TabClass) (hn : (c.pks ++ c.dfs).Nodup) (hd : (PyDict.keys c.defaults).Nodup) (v : Frame)
    (hv : FrameOK v) (tab : TabVal) :
    initFrame c v = some tab ↔ FrameFits c v ∧ tab = rowsTable c v.rows (frameCell c v) := by
  constructor
  · intro h
    have hf := (init_from_frame c hn hd v hv).1.mp (by rw [h]; simp)
    rw [initFrame_fits c hn hd v hv hf] at h
    exact ⟨hf, (Option.some.inj h).symm⟩
  · rintro ⟨hf, rfl⟩
    exact initFrame_fits c hn hd v hv hf

/-- **C51, whole objects.**  Building a data object from DataFrames succeeds exactly if every DataFrame is for a table of
the schema and can be made into that table and, with the default policy for duplicates, no two rows of one have the same
primary key.  The object then has every table of the schema: empty if nothing was passed for it, otherwise with the rows
of its DataFrame.  This is also `copy_to_tic_dat` of a `PanDat`. -/
theorem init_frames (policy : DupPolicy) (schema : List (String × TabClass)) (hs : (schema.map Prod.fst).Nodup)
    (hn : ∀ tc ∈ schema, (tc.2.pks ++ tc.2.dfs).Nodup ∧ (PyDict.keys tc.2.defaults).Nodup)
    (input : PyDict String Frame) (hi : (PyDict.keys input).Nodup) (hv : ∀ p ∈ input, FrameOK p.2) :
    (initFrames policy schema input ≠ none ↔ (∀ t ∈ PyDict.keys input, t ∈ schema.map Prod.fst) ∧
      ∀ tc ∈ schema, ∀ v, PyDict.get? input tc.1 = some v → FrameFits tc.2 v ∧
        (policy = .assert → tc.2.pks ≠ [] → (v.rows.map (fun r => keyFrom tc.2.pks (frameCell tc.2 v r))).Nodup)) ∧
    ∀ tabs, initFrames policy schema input = some tabs → PyDict.keys tabs = schema.map Prod.fst ∧
      ∀ tc ∈ schema, ∃ tab, PyDict.get? tabs tc.1 = some tab ∧
        (PyDict.get? input tc.1 = none → tab = emptyTable tc.2) ∧
        ∀ v, PyDict.get? input tc.1 = some v → TableOfRows tc.2 v.rows (frameCell tc.2 v) tab := by
  -- the tables, if every frame fits
  have hval : (∀ tc ∈ schema, ∀ v, PyDict.get? input tc.1 = some v → FrameFits tc.2 v) →
      schema.mapM (initFrameEntry input) = some (schema.map (fun tc => (tc.1, match PyDict.get? input tc.1 with
        | none => emptyTable tc.2
        | some v => rowsTable tc.2 v.rows (frameCell tc.2 v)))) := by
    intro h
    apply mapM_eq_map
    intro tc htc
    unfold initFrameEntry
    cases hg : PyDict.get? input tc.1 with
    | none => rfl
    | some v =>
      simp only
      rw [initFrame_fits tc.2 (hn tc htc).1 (hn tc htc).2 v (hv (tc.1, v) (PyDict.get?_mem hg)) (h tc htc v hg)]
      rfl
  have hfits : initFrames policy schema input ≠ none → (∀ t ∈ PyDict.keys input, t ∈ schema.map Prod.fst) ∧
      ∀ tc ∈ schema, ∀ v, PyDict.get? input tc.1 = some v → FrameFits tc.2 v := by
    intro h
    unfold initFrames at h
    split at h
    · rename_i hin
      refine ⟨fun t ht => ?_, fun tc htc v hg => ?_⟩
      · obtain ⟨p, hp, rfl⟩ := List.mem_map.mp ht
        exact of_decide_eq_true (List.all_eq_true.mp hin p hp)
      · refine Classical.byContradiction (fun hc => h ?_)
        rw [mapM_none_of (g := initFrameEntry input) htc]
        unfold initFrameEntry
        rw [hg]
        simp only [Option.map_eq_none_iff]
        have := (init_from_frame tc.2 (hn tc htc).1 (hn tc htc).2 v (hv (tc.1, v) (PyDict.get?_mem hg))).1
        exact Classical.byContradiction (fun hne => hc (this.mp hne))
    · exact absurd rfl h
  have hget : ∀ tc ∈ schema, PyDict.get? (schema.map (fun tc => (tc.1, match PyDict.get? input tc.1 with
        | none => emptyTable tc.2
        | some v => rowsTable tc.2 v.rows (frameCell tc.2 v)))) tc.1 = some (match PyDict.get? input tc.1 with
        | none => emptyTable tc.2
        | some v => rowsTable tc.2 v.rows (frameCell tc.2 v)) := by
    intro tc htc
    apply PyDict.get?_of_mem
    · unfold PyDict.keys
      rw [List.map_map]
      exact hs
    · exact List.mem_map.mpr ⟨tc, htc, rfl⟩
  have hany : (∀ t ∈ PyDict.keys input, t ∈ schema.map Prod.fst) →
      (input.any (fun p => decide (p.2.rows.length > ((PyDict.get? (schema.map (fun tc => (tc.1,
        match PyDict.get? input tc.1 with
        | none => emptyTable tc.2
        | some v => rowsTable tc.2 v.rows (frameCell tc.2 v)))) p.1).map TabVal.size).getD 0)) = true ↔
      ∃ tc ∈ schema, ∃ v, PyDict.get? input tc.1 = some v ∧ tc.2.pks ≠ [] ∧
        ¬ (v.rows.map (fun r => keyFrom tc.2.pks (frameCell tc.2 v r))).Nodup) := by
    intro hin
    rw [List.any_eq_true]
    constructor
    · rintro ⟨p, hp, hsz⟩
      have hsz := of_decide_eq_true hsz
      obtain ⟨tc, htc, he⟩ := List.mem_map.mp (hin p.1 (List.mem_map.mpr ⟨p, hp, rfl⟩))
      have hg : PyDict.get? input tc.1 = some p.2 := by rw [he]; exact PyDict.get?_of_mem hi hp
      have hgt := hget tc htc
      rw [he] at hgt hg
      rw [hgt, hg] at hsz
      refine ⟨tc, htc, p.2, by rw [he]; exact hg, ?_⟩
      exact (rowsTable_size tc.2 p.2.rows (frameCell tc.2 p.2)).mp hsz
    · rintro ⟨tc, htc, v, hg, hdup⟩
      refine ⟨(tc.1, v), PyDict.get?_mem hg, decide_eq_true ?_⟩
      simp only
      rw [hget tc htc, hg]
      exact (rowsTable_size tc.2 v.rows (frameCell tc.2 v)).mpr hdup
  have hinall : (∀ t ∈ PyDict.keys input, t ∈ schema.map Prod.fst) →
      input.all (fun p => decide (p.1 ∈ schema.map Prod.fst)) = true := by
    intro h
    rw [List.all_eq_true]
    intro p hp
    exact decide_eq_true (h p.1 (List.mem_map.mpr ⟨p, hp, rfl⟩))
  refine ⟨⟨fun h => ?_, fun h => ?_⟩, fun tabs htabs => ?_⟩
  · obtain ⟨h1, h2⟩ := hfits h
    refine ⟨h1, fun tc htc v hg => ⟨h2 tc htc v hg, fun hpol hp => ?_⟩⟩
    refine Classical.byContradiction (fun hc => h ?_)
    unfold initFrames
    rw [if_pos (hinall h1), hval h2]
    simp only
    rw [if_pos]
    rw [Bool.and_eq_true]
    exact ⟨decide_eq_true hpol, (hany h1).mpr ⟨tc, htc, v, hg, hp, hc⟩⟩
  · unfold initFrames
    rw [if_pos (hinall h.1), hval (fun tc htc v hg => (h.2 tc htc v hg).1)]
    simp only
    rw [if_neg]
    · simp
    · rw [Bool.and_eq_true]
      rintro ⟨hpol, ha⟩
      obtain ⟨tc, htc, v, hg, hp, hdup⟩ := (hany h.1).mp ha
      exact hdup ((h.2 tc htc v hg).2 (of_decide_eq_true hpol) hp)
  · obtain ⟨h1, h2⟩ := hfits (by rw [htabs]; simp)
    unfold initFrames at htabs
    rw [if_pos (hinall h1), hval h2] at htabs
    simp only at htabs
    split at htabs
    · cases htabs
    · cases htabs
      refine ⟨by unfold PyDict.keys; rw [List.map_map]; rfl, fun tc htc => ⟨_, hget tc htc, ?_, ?_⟩⟩
      · intro hg; rw [hg]
      · intro v hg
        rw [hg]
        exact rowsTable_spec _ _ _

/-! ## Example -/

/-- A table with two key fields, one data field with a default and one without. -/
def shipClass : TabClass := ⟨["from", "to"], ["cost", "cap"], [("cost", .num (.fin 1))]⟩

/-- The key in the index; one data field is left to its default; an extra column. -/
def shipFrame : Frame := ⟨["from", "to"], [.name "memo", .name "cap"],
  [([.str "a", .str "b"], [.str "x", .num (.fin 3)]), ([.str "a", .str "c"], [.str "y", .num (.fin 4)])]⟩

theorem shipFrame_ok : FrameOK shipFrame := ⟨by decide, by decide, by decide⟩

theorem shipFrame_fits : FrameFits shipClass shipFrame := by
  refine ⟨by decide, by decide, ?_, .inr ⟨rfl, ?_⟩⟩
  · intro f hf
    simp only [shipClass, List.mem_cons, List.not_mem_nil, or_false] at hf
    rcases hf with rfl | rfl
    · exact .inr (by decide)
    · exact .inl (by decide)
  · intro f hf
    simp only [shipClass, List.mem_cons, List.not_mem_nil, or_false] at hf
    unfold Provided
    rcases hf with rfl | rfl <;> decide

example : ∃ tab, initFrame shipClass shipFrame = some tab ∧ TableOfRows shipClass shipFrame.rows (frameCell shipClass shipFrame) tab := by
  have h := init_from_frame shipClass (by decide) (by decide) shipFrame shipFrame_ok
  obtain ⟨tab, ht⟩ := Option.ne_none_iff_exists'.mp (h.1.mpr shipFrame_fits)
  exact ⟨tab, ht, h.2 tab ht⟩

example : initFrame shipClass shipFrame = some (.keyed
    [(.tup [.str "a", .str "b"], [("cost", .num (.fin 1)), ("cap", .num (.fin 3))]),
     (.tup [.str "a", .str "c"], [("cost", .num (.fin 1)), ("cap", .num (.fin 4))])]) := by rfl

/-- The hypotheses of `init_frames` hold, with the policy that refuses duplicates. -/
example : initFrames .assert [("ship", shipClass), ("other", shipClass)] [("ship", shipFrame)] ≠ none := by
  refine (init_frames .assert _ (by decide) (fun tc h => ?_) _ (by decide) (fun p h => ?_)).1.mpr ⟨by decide, fun tc h v hg => ?_⟩
  · simp only [List.mem_cons, List.not_mem_nil, or_false] at h
    rcases h with rfl | rfl <;> exact ⟨by decide, by decide⟩
  · simp only [List.mem_cons, List.not_mem_nil, or_false] at h
    subst h
    exact shipFrame_ok
  · simp only [List.mem_cons, List.not_mem_nil, or_false] at h
    rcases h with rfl | rfl
    · cases Option.some.inj hg
      exact ⟨shipFrame_fits, fun _ _ => by decide +kernel⟩
    · cases hg

end Ticdat

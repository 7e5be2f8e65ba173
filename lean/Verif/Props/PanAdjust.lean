import Verif.Props.PanRead
import Verif.Props.PanCells
/-!
# Column by column adjustments, and the round trip of a `PanDat` through a file (C59)
-/
set_option linter.unusedSectionVars false
set_option linter.unusedSimpArgs false
namespace Ticdat
open Spec

theorem colOf_eq {v : Frame} (hv : FrameOK v) {f : String} (hf : Label.name f ∈ v.cols) : v.colOf f = some (column v f) :=
  mapM_eq_map (fun r hr => by rw [FrameOK.cell_eq hv hr, if_pos hf])

theorem idxOf_label_inj {l : List Label} {f g : Label} (hf : f ∈ l) (h : l.idxOf f = l.idxOf g) : f = g := by
  have hlt := List.idxOf_lt_length_iff.2 hf
  have h1 := List.getElem_idxOf hlt
  have hlt' : l.idxOf g < l.length := h ▸ hlt
  have h2 := List.getElem_idxOf hlt'
  rw [← h1, ← h2]
  simp only [h]

theorem setCol_ok {v : Frame} (hv : FrameOK v) (f : String) (col : List Cell) : FrameOK (v.setCol f col) := by
  refine ⟨hv.cols, hv.index, ?_⟩
  intro r hr
  unfold Frame.setCol at hr
  obtain ⟨i, hi, e⟩ := List.mem_iff_getElem.1 hr
  rw [List.getElem_zipWith] at e
  have hi' : i < v.rows.length := by simp at hi; omega
  have := hv.rows _ (List.getElem_mem hi')
  subst e
  simpa [Frame.setCol] using this

theorem setCol_column {v : Frame} (hv : FrameOK v) {f : String} (hf : Label.name f ∈ v.cols) {col : List Cell}
    (hl : col.length = v.rows.length) :
    column (v.setCol f col) f = col ∧
    (∀ l, l ≠ .name f → (v.setCol f col).rows.map (fun r => colCell (v.setCol f col) r l) = v.rows.map (fun r => colCell v r l)) ∧
    (v.setCol f col).rows.map Prod.fst = v.rows.map Prod.fst := by
  refine ⟨?_, ?_, ?_⟩
  · apply List.ext_getElem
    · simp [column, Frame.setCol, hl]
    · intro i h1 h2
      have hi : i < v.rows.length := by omega
      have hlen := (hv.rows _ (List.getElem_mem hi)).2
      have hidx : v.cols.idxOf (.name f) < (v.rows[i]).2.length := hlen ▸ List.idxOf_lt_length_iff.2 hf
      simp [column, Frame.setCol, colCell, hidx]
  · intro l hne
    apply List.ext_getElem
    · simp [Frame.setCol, hl]
    · intro i h1 h2
      have hidx : v.cols.idxOf (.name f) ≠ v.cols.idxOf l ∨ l ∉ v.cols := by
        by_cases hm : l ∈ v.cols
        · left
          intro e
          exact hne (idxOf_label_inj hf e).symm
        · exact .inr hm
      simp only [Frame.setCol, List.getElem_map, List.getElem_zipWith, colCell]
      rcases hidx with h | h
      · rw [List.getElem?_set_ne h]
      · have hi : i < v.rows.length := by simpa using h2
        have hlen := (hv.rows _ (List.getElem_mem hi)).2
        have hz : v.cols.idxOf l = v.cols.length := List.idxOf_eq_length h
        rw [List.getElem?_eq_none (by simp [hlen, hz]), List.getElem?_eq_none (by simp [hlen, hz])]
  · apply List.ext_getElem
    · simp [Frame.setCol, hl]
    · intro i h1 h2
      simp [Frame.setCol]

/-- What `Frame.adjust` does, column by column. -/
theorem adjust_spec (adj : String → List Cell → Option (List Cell))
    (hadj : ∀ f col w, adj f col = some w → w.length = col.length) (fs : List String) (hn : fs.Nodup) (v : Frame)
    (hv : FrameOK v) (hin : ∀ f ∈ fs, Label.name f ∈ v.cols) :
    (v.adjust adj fs = none ↔ ∃ f ∈ fs, adj f (column v f) = none) ∧
    ∀ w, v.adjust adj fs = some w → FrameOK w ∧ w.index = v.index ∧ w.cols = v.cols ∧
      w.rows.map Prod.fst = v.rows.map Prod.fst ∧ (∀ f ∈ fs, adj f (column v f) = some (column w f)) ∧
      ∀ l, (∀ f ∈ fs, l ≠ .name f) → w.rows.map (fun r => colCell w r l) = v.rows.map (fun r => colCell v r l) := by
  induction fs generalizing v with
  | nil =>
    simp only [Frame.adjust]
    refine ⟨by simp, ?_⟩
    intro w hw
    obtain rfl := Option.some.inj hw
    exact ⟨hv, rfl, rfl, rfl, by simp, fun _ _ => rfl⟩
  | cons f fs ih =>
    obtain ⟨h1, h2⟩ := List.nodup_cons.1 hn
    have hf := hin f List.mem_cons_self
    have hstep : v.adjust adj (f :: fs) = (adj f (column v f)).bind (fun col' => (v.setCol f col').adjust adj fs) := by
      simp only [Frame.adjust, colOf_eq hv hf]; rfl
    rw [hstep]
    cases ha : adj f (column v f) with
    | none =>
      refine ⟨by simp [ha], by simp⟩
    | some col =>
      have hl : col.length = v.rows.length := (hadj _ _ _ ha).trans (by simp [column])
      have hv1 := setCol_ok hv f col
      obtain ⟨c1, c2, c3⟩ := setCol_column hv hf hl
      have hcols : (v.setCol f col).cols = v.cols := rfl
      have hidx : (v.setCol f col).index = v.index := rfl
      obtain ⟨i1, i2⟩ := ih h2 (v.setCol f col) hv1 (fun g hg => by rw [hcols]; exact hin g (List.mem_cons_of_mem _ hg))
      have hsame : ∀ g ∈ fs, column (v.setCol f col) g = column v g := by
        intro g hg
        exact c2 _ (fun e => h1 (by injection e with e; exact e ▸ hg))
      rw [Option.bind_some]
      constructor
      · rw [i1]
        constructor
        · rintro ⟨g, hg, h⟩
          exact ⟨g, List.mem_cons_of_mem _ hg, hsame g hg ▸ h⟩
        · rintro ⟨g, hg, h⟩
          rcases List.mem_cons.1 hg with e | hg
          · subst e; rw [ha] at h; simp at h
          · exact ⟨g, hg, by rw [hsame g hg]; exact h⟩
      · intro w hw
        obtain ⟨g1, g2, g3, g4, g5, g6⟩ := i2 w hw
        refine ⟨g1, g2, g3, g4.trans c3, ?_, ?_⟩
        · intro g hg
          rcases List.mem_cons.1 hg with e | hg
          · subst e
            rw [ha]
            have := g6 (.name g) (fun x hx e => h1 (by injection e with e; exact e ▸ hx))
            unfold column
            rw [this]
            exact congrArg some c1.symm
          · rw [← hsame g hg]; exact g5 g hg
        · intro l hl'
          rw [g6 l (fun g hg => hl' g (List.mem_cons_of_mem _ hg))]
          exact c2 l (hl' f List.mem_cons_self)

/-- A frame is its columns. -/
theorem frame_ext {u w : Frame} (hu : FrameOK u) (hw : FrameOK w) (hi : u.index = w.index) (hc : u.cols = w.cols)
    (hf : u.rows.map Prod.fst = w.rows.map Prod.fst)
    (h : ∀ l ∈ u.cols, u.rows.map (fun r => colCell u r l) = w.rows.map (fun r => colCell w r l)) : u = w := by
  have hlen : u.rows.length = w.rows.length := by simpa using congrArg List.length hf
  have hrows : u.rows = w.rows := by
    apply List.ext_getElem hlen
    intro i h1 h2
    have hfst : (u.rows[i]).1 = (w.rows[i]).1 := by
      have := congrArg (fun l => l[i]?) hf
      simpa [List.getElem?_eq_getElem h1, List.getElem?_eq_getElem h2] using this
    have l1 := (hu.rows _ (List.getElem_mem h1)).2
    have l2 := (hw.rows _ (List.getElem_mem h2)).2
    have hsnd : (u.rows[i]).2 = (w.rows[i]).2 := by
      apply List.ext_getElem (by rw [l1, l2, hc])
      intro j k1 k2
      have hj : j < u.cols.length := l1 ▸ k1
      have := congrArg (fun l => l[i]?) (h (u.cols[j]) (List.getElem_mem hj))
      simp only [List.getElem?_map, List.getElem?_eq_getElem h1, List.getElem?_eq_getElem h2, Option.map_some,
        Option.some.injEq, colCell, ← hc] at this
      have hidx : u.cols.idxOf u.cols[j] = j := hu.cols.idxOf_getElem j hj
      rw [hidx, List.getElem?_eq_getElem k1, List.getElem?_eq_getElem k2] at this
      simpa using this
    exact Prod.ext hfst hsnd
  cases u; cases w
  simp only at hi hc hrows
  subst hi hc hrows
  rfl

theorem panReadCol_json {env : TextEnv} {lower : String → String} {cf : IOConf} {t f : String} (col : List Cell) :
    panReadCol env lower cf true t f col = (panReadCol env lower cf false t f col).map (fun r =>
      if ((cf.types.at t f).map (fun td => !td.datetime && !td.numberAllowed && td.strings.truthy && td.nullable)).getD false then
        r.map (fun x => match x with
          | .str s => if lower s = "none" then .none else x
          | x => x)
      else r) := by
  unfold panReadCol
  cases cf.flag with
  | na => cases infBias env cf t f <;> rfl
  | none => cases infBias env cf t f <;> rfl
  | num q => rfl

theorem panReadCol_len {env : TextEnv} {lower : String → String} {cf : IOConf} {json : Bool} {t f : String} {col w : List Cell}
    (h : panReadCol env lower cf json t f col = some w) : w.length = col.length := by
  have key : ∀ w, panReadCol env lower cf false t f col = some w → w.length = col.length := by
    intro w h
    unfold panReadCol at h
    cases hf : cf.flag with
    | num q =>
      simp only [hf, Bool.false_and] at h
      obtain rfl := Option.some.inj h
      repeat' split
      all_goals simp
    | na =>
      cases hb : infBias env cf t f with
      | none => simp [hf, hb] at h
      | some b =>
        simp only [hf, hb, Bool.false_and, Bool.false_eq_true, if_false, Option.map_some] at h
        obtain rfl := Option.some.inj h
        cases b <;> (simp only []; repeat' split) <;> simp
    | none =>
      cases hb : infBias env cf t f with
      | none => simp [hf, hb] at h
      | some b =>
        simp only [hf, hb, Bool.false_and, Bool.false_eq_true, if_false, Option.map_some] at h
        obtain rfl := Option.some.inj h
        cases b <;> (simp only []; repeat' split) <;> simp
  cases json with
  | false => exact key w h
  | true =>
    rw [panReadCol_json] at h
    obtain ⟨r, hr, e⟩ := Option.map_eq_some_iff.1 h
    have := key r hr
    subst e
    split
    · simpa using this
    · exact this

theorem panWriteCol_len {env : TextEnv} {cf : IOConf} {t f : String} {col w : List Cell}
    (h : panWriteCol env cf t f col = some w) : w.length = col.length := by
  unfold panWriteCol at h
  split at h
  · obtain rfl := Option.some.inj h; rfl
  · split at h
    · obtain rfl := Option.some.inj h; simp
    · obtain rfl := Option.some.inj h; rfl
  · obtain ⟨b, _, e⟩ := Option.map_eq_some_iff.1 h
    subst e
    split
    · split <;> simp
    · rfl

theorem readCell_none {env : TextEnv} {cf : IOConf} {t f : String} {b : Option Bool}
    (h : Null (panReadCell env cf t f b .none)) : panReadCell env cf t f b .none = .none := by
  unfold panReadCell at *
  rw [flagInf_null (.inl rfl), panMulti_null (.inl rfl)] at *
  cases b with
  | some pos =>
    have e : panNullInf (some pos) .none = .num (infOf pos) := rfl
    rw [e, panDate_num] at h
    rcases h with h | h <;> cases h
  | none =>
    have e : panNullInf none .none = .none := rfl
    rw [e] at h ⊢
    unfold panDate at *
    split
    · rename_i hc
      rw [if_pos hc] at h
      split
      · rename_i d hd
        rw [hd] at h
        rcases h with h | h <;> cases h
      · rfl
    · rfl

/-- A column that survives, through json. -/
theorem survives_json {env : TextEnv} {lower : String → String} {cf : IOConf} {t f : String} {col : List Cell}
    (h : Survives env cf t f col) (hj : PanJsonSafe env lower cf t f col) :
    ∃ w, panWriteCol env cf t f col = some w ∧
      panReadCol env lower cf true t f (w.map (jsonPanCell env)) = some (col.map nullAsNone) := by
  have hfin : ∀ r, panReadCol env lower cf false t f r = some (col.map nullAsNone) →
      panReadCol env lower cf true t f r = some (col.map nullAsNone) := by
    intro r hr
    rw [panReadCol_json, hr, Option.map_some]
    congr 1
    split
    · rename_i hs
      apply map_eq_self
      intro x hx
      obtain ⟨y, hy, e⟩ := List.mem_map.1 hx
      rw [at_eq_typeOf] at hs
      cases htd : typeOf cf.types t f with
      | none => rw [htd] at hs; simp at hs
      | some td =>
        rw [htd] at hs
        simp only [Option.map_some, Option.getD_some, Bool.and_eq_true, Bool.not_eq_true'] at hs
        cases y with
        | str s =>
          subst e
          have := (hj _ hy).2 td htd hs.2 hs.1.1.2 s rfl
          simp [nullAsNone, this]
        | _ => subst e; rfl
    · rfl
  obtain ⟨hq, ⟨b, hb⟩, hx⟩ := survives_cells h
  refine ⟨col.map (panWriteCell cf b), by rw [panWriteCol_cells env cf hq, hb, Option.map_some], hfin _ ?_⟩
  rw [panReadCol_cells, hb, Option.map_some, List.map_map, List.map_map]
  congr 1
  apply List.map_congr_left
  intro x hxm
  simp only [Function.comp_apply]
  by_cases hdt : ∃ d, x = .dt d
  · obtain ⟨d, rfl⟩ := hdt
    obtain ⟨h1, td, h2, h3⟩ := (hj _ hxm).1 d rfl
    have e1 : panWriteCell cf b (.dt d) = .dt d := by
      unfold panWriteCell
      cases cf.flag with
      | none => cases b <;> rfl
      | _ => rfl
    have e2 : jsonPanCell env (.dt d) = .str (env.text (.dt d)) := rfl
    have e3 : ∀ s, panFlagInf cf (.str s) = .str s := by
      intro s; unfold panFlagInf; cases cf.flag <;> rfl
    have e4 : ∀ s, panMulti env cf t f (.str s) = .str s := by
      intro s; unfold panMulti; simp [at_eq_typeOf, h2, h3]
    have e5 : ∀ s, panNullInf b (.str s) = .str s := by
      intro s; cases b <;> rfl
    rw [e1, e2]
    unfold panReadCell
    rw [e3, e4, e5]
    unfold panDate
    simp [at_eq_typeOf, h2, h3, dateAdjust, h1, nullAsNone]
  · have hwd : ∀ d, panWriteCell cf b x ≠ .dt d := by
      intro d e
      apply hdt
      unfold panWriteCell at e
      cases hf : cf.flag with
      | na => rw [hf] at e; exact ⟨d, e⟩
      | num q => rw [hf] at e; cases x <;> simp at e; exact ⟨d, by rw [e]⟩
      | none =>
        rw [hf] at e
        cases b with
        | none => exact ⟨d, e⟩
        | some pos =>
          simp only at e
          split at e
          · cases e
          · exact ⟨d, e⟩
    have hjc : jsonPanCell env (panWriteCell cf b x) = nullAsNone (panWriteCell cf b x) := by
      cases hw : panWriteCell cf b x with
      | dt d => exact absurd hw (hwd d)
      | _ => rfl
    rw [hjc]
    have hsame : ∀ z : Cell, SameOrNull z (nullAsNone z) := by
      intro z
      cases z with
      | nan => exact .inr ⟨.inr rfl, .inl rfl⟩
      | _ => exact .inl rfl
    have hc := cell_survives hb (hx x hxm) _ (hsame (panWriteCell cf b x))
    by_cases hn : Null x
    · have hxn : nullAsNone x = .none := by rcases hn with rfl | rfl <;> rfl
      rw [hxn]
      have hr : Null (panReadCell env cf t f b (nullAsNone (panWriteCell cf b x))) := by
        rcases hc.1 with h | ⟨_, h⟩
        · rw [← h]; exact hn
        · exact h
      have hw : nullAsNone (panWriteCell cf b x) = .none := by
        have : panWriteCell cf b x = x := by
          unfold panWriteCell
          cases cf.flag with
          | none =>
            cases b with
            | none => rfl
            | some pos => rcases hn with rfl | rfl <;> rfl
          | na => rfl
          | num q => rcases hn with rfl | rfl <;> rfl
        rw [this]; exact hxn
      rw [hw] at hr ⊢
      exact readCell_none hr
    · have := sameOrNull_not_null hc.1 hn
      rw [this]
      cases x with
      | nan => exact absurd (.inr rfl) hn
      | _ => rfl

theorem fieldNames_nodup {fields : List String} (hn : fields.Nodup) : (fields.map Label.name).Nodup := by
  rw [List.nodup_iff_pairwise_ne, List.pairwise_map]
  exact hn.imp (fun h e => h (by injection e))

theorem plainFrame_ok {fields : List String} (hn : fields.Nodup) {rows : List (List Cell)}
    (h : ∀ r ∈ rows, r.length = fields.length) : FrameOK (plainFrame fields rows) := by
  refine ⟨fieldNames_nodup hn, List.nodup_nil, ?_⟩
  intro r hr
  obtain ⟨x, hx, e⟩ := List.mem_map.1 hr
  subst e
  simp [plainFrame, h x hx]

theorem idxOf_name (fields : List String) (f : String) : (fields.map Label.name).idxOf (.name f) = fields.idxOf f := by
  induction fields with
  | nil => rfl
  | cons g fields ih =>
    rw [List.map_cons, List.idxOf_cons, List.idxOf_cons, ih]
    by_cases e : g = f
    · subst e; simp
    · have h1 : (Label.name g == Label.name f) = false := beq_eq_false_iff_ne.2 (fun h => e (by injection h))
      rw [h1, beq_eq_false_iff_ne.2 e]

theorem column_plain {R : Type} {fields : List String} (rows : List R) (cell : R → String → Cell)
    {f : String} (hf : f ∈ fields) :
    column (plainFrame fields (rows.map (fun r => fields.map (cell r)))) f = rows.map (fun r => cell r f) := by
  unfold column plainFrame
  simp only [List.map_map]
  apply List.map_congr_left
  intro r _
  have hlt := List.idxOf_lt_length_iff.2 hf
  simp only [Function.comp_apply, colCell, idxOf_name, List.getElem?_map, List.getElem?_eq_getElem hlt,
    List.getElem_idxOf hlt, Option.map_some, Option.getD_some]

/-- A table whose columns are known. -/
theorem eq_plain {R : Type} {fields : List String} (hn : fields.Nodup) (hne : fields ≠ []) {w : Frame} (hw : FrameOK w)
    (hi : w.index = []) (hc : w.cols = fields.map .name) (rows : List R) (cell : R → String → Cell)
    (h : ∀ f ∈ fields, column w f = rows.map (fun r => cell r f)) :
    w = plainFrame fields (rows.map (fun r => fields.map (cell r))) := by
  have hlen : w.rows.length = rows.length := by
    obtain ⟨f, hf⟩ := List.exists_mem_of_ne_nil _ hne
    simpa [column] using congrArg List.length (h f hf)
  apply frame_ext hw (plainFrame_ok hn (fun r hr => by
    obtain ⟨x, _, e⟩ := List.mem_map.1 hr; subst e; simp)) hi hc
  · apply List.ext_getElem
    · simp [plainFrame, hlen]
    · intro i h1 h2
      have hi1 : i < w.rows.length := by simpa using h1
      have := (hw.rows _ (List.getElem_mem hi1)).1
      rw [hi] at this
      simp [plainFrame, List.length_eq_zero_iff.1 this]
  · intro l hl
    rw [hc] at hl
    obtain ⟨f, hf, e⟩ := List.mem_map.1 hl
    subst e
    have := (h f hf).trans (column_plain rows cell hf).symm
    exact this

/-- What the writers hand to pandas. -/
theorem pre_spec {env : TextEnv} {cf : IOConf} {t : String} {c : TabClass} (hn : c.fields.Nodup) {v : Frame} (hv : FrameOK v)
    (hall : ∀ f ∈ c.fields, Label.name f ∈ v.cols) :
    (panPre env cf t c v = none ↔ ∃ f ∈ c.fields, panWriteCol env cf t f (column v f) = none) ∧
    ∀ w, panPre env cf t c v = some w → FrameOK w ∧ w.cols = c.fields.map .name ∧ w.rows.length = v.rows.length ∧
      ∀ f ∈ c.fields, panWriteCol env cf t f (column v f) = some (column w f) := by
  have hsel := select_eq hv (c.fields.map .name) (fun l hl => by
    obtain ⟨f, hf, e⟩ := List.mem_map.1 hl; subst e; exact hall f hf)
  generalize hv1 : ({ v with cols := c.fields.map .name, rows := v.rows.map (fun r => (r.1, (c.fields.map Label.name).map (colCell v r))) } : Frame) = v1 at *
  have hok : FrameOK v1 := by
    subst hv1
    refine ⟨fieldNames_nodup hn, hv.index, ?_⟩
    intro r hr
    obtain ⟨x, hx, e⟩ := List.mem_map.1 hr
    subst e
    exact ⟨(hv.rows x hx).1, by simp⟩
  have hcol : ∀ f ∈ c.fields, column v1 f = column v f := by
    intro f hf
    subst hv1
    unfold column
    simp only [List.map_map]
    apply List.map_congr_left
    intro r _
    have hlt := List.idxOf_lt_length_iff.2 hf
    simp only [Function.comp_apply, colCell, idxOf_name, List.getElem?_map, List.getElem?_eq_getElem hlt,
      List.getElem_idxOf hlt, Option.map_some, Option.getD_some]
  have hin : ∀ f ∈ c.fields, Label.name f ∈ v1.cols := by
    subst hv1
    intro f hf
    exact List.mem_map.2 ⟨f, hf, rfl⟩
  obtain ⟨h1, h2⟩ := adjust_spec (panWriteCol env cf t) (fun _ _ _ => panWriteCol_len) c.fields hn v1 hok hin
  unfold panPre
  rw [hsel, Option.bind_some]
  constructor
  · rw [h1]
    constructor
    · rintro ⟨f, hf, h⟩; exact ⟨f, hf, hcol f hf ▸ h⟩
    · rintro ⟨f, hf, h⟩; exact ⟨f, hf, (hcol f hf).symm ▸ h⟩
  · intro w hw
    obtain ⟨g1, g2, g3, g4, g5, g6⟩ := h2 w hw
    refine ⟨g1, by rw [g3, ← hv1], ?_, ?_⟩
    · have := congrArg List.length g4
      rw [← hv1] at this
      simpa using this
    · intro f hf; rw [← hcol f hf]; exact g5 f hf

/-- **C59.**  A `PanDat` table whose values survive the infinity flag is read back from a file as it was written: the fields
in the order of the schema, the rows in their order, every value the same; whether or not default values are filled in. -/
theorem pan_file_round_trip {env : TextEnv} {lower : String → String} {cf : IOConf} {t : String} {c : TabClass}
    (hn : c.fields.Nodup) (hne : c.fields ≠ []) (hd : (PyDict.keys c.defaults).Nodup)
    (hsub : ∀ f ∈ PyDict.keys c.defaults, f ∈ c.fields) {v : Frame} (hv : FrameOK v)
    (hall : ∀ f ∈ c.fields, Label.name f ∈ v.cols) (hs : ∀ f ∈ c.fields, Survives env cf t f (column v f)) :
    ∃ w, panPre env cf t c v = some w ∧ ∀ file fill missing, Holds c w file → MissingFields c file missing →
      (panReadTable c fill missing file).bind (panPost env lower cf false t c) = some (fieldsOf c v) := by
  obtain ⟨p1, p2⟩ := pre_spec (env := env) (cf := cf) (t := t) hn hv hall
  cases hw : panPre env cf t c v with
  | none =>
    obtain ⟨f, hf, h⟩ := p1.1 hw
    obtain ⟨x, hx, _⟩ := survives_col (lower := lower) (hs f hf)
    rw [hx] at h; simp at h
  | some w =>
    obtain ⟨g1, g2, g3, g4⟩ := p2 w hw
    refine ⟨w, rfl, ?_⟩
    intro file fill missing hfile hm
    have hr := (pan_read_table c hn hne hd hsub fill file hfile.ok hfile.index missing hm).2
      (fun f hf => .inl (hfile.cols f hf))
    rw [hr, Option.bind_some]
    have hok : FrameOK (plainFrame c.fields (file.rows.map (fun r => c.fields.map (fileCell c file r)))) :=
      plainFrame_ok hn (fun r hr => by obtain ⟨x, _, e⟩ := List.mem_map.1 hr; subst e; simp)
    have hcol : ∀ f ∈ c.fields,
        column (plainFrame c.fields (file.rows.map (fun r => c.fields.map (fileCell c file r)))) f = column w f := by
      intro f hf
      rw [column_plain _ _ hf, ← hfile.same f hf]
      unfold column fileCell
      simp only [hfile.cols f hf, if_true]
    obtain ⟨a1, a2⟩ := adjust_spec (panReadCol env lower cf false t) (fun _ _ _ => panReadCol_len) c.fields hn _ hok
      (fun f hf => List.mem_map.2 ⟨f, hf, rfl⟩)
    have hread : ∀ f ∈ c.fields, panReadCol env lower cf false t f (column w f) = some (column v f) := by
      intro f hf
      obtain ⟨x, hx, hx'⟩ := survives_col (lower := lower) (hs f hf)
      rw [g4 f hf] at hx
      rw [Option.some.inj hx]
      exact hx'
    unfold panPost
    cases hu : Frame.adjust (panReadCol env lower cf false t)
        (plainFrame c.fields (file.rows.map (fun r => c.fields.map (fileCell c file r)))) c.fields with
    | none =>
      obtain ⟨f, hf, h⟩ := a1.1 hu
      rw [hcol f hf, hread f hf] at h
      simp at h
    | some u =>
      obtain ⟨b1, b2, b3, _, b5, _⟩ := a2 u hu
      congr 1
      apply eq_plain hn hne b1 b2 b3
      intro f hf
      have := b5 f hf
      rw [hcol f hf, hread f hf] at this
      exact (Option.some.inj this).symm

/-- **C59, json.**  The same for json rows without field names, where the one null of json takes the place of NaN. -/
theorem pan_json_round_trip {env : TextEnv} {lower : String → String} {cf : IOConf} {t : String} {c : TabClass}
    (hn : c.fields.Nodup) (hne : c.fields ≠ []) (hd : (PyDict.keys c.defaults).Nodup)
    (hsub : ∀ f ∈ PyDict.keys c.defaults, f ∈ c.fields) {v : Frame} (hv : FrameOK v)
    (hall : ∀ f ∈ c.fields, Label.name f ∈ v.cols) (hs : ∀ f ∈ c.fields, Survives env cf t f (column v f))
    (hj : ∀ f ∈ c.fields, PanJsonSafe env lower cf t f (column v f)) :
    ∃ rows, panWriteLol env cf t c v = some rows ∧
      (panReadLol c rows).bind (panPost env lower cf true t c) =
        some (plainFrame c.fields (v.rows.map (fun r => c.fields.map (fun f => nullAsNone (colCell v r (.name f)))))) := by
  obtain ⟨p1, p2⟩ := pre_spec (env := env) (cf := cf) (t := t) hn hv hall
  cases hw : panPre env cf t c v with
  | none =>
    obtain ⟨f, hf, h⟩ := p1.1 hw
    obtain ⟨x, hx, _⟩ := survives_col (lower := lower) (hs f hf)
    rw [hx] at h; simp at h
  | some w =>
    obtain ⟨g1, g2, g3, g4⟩ := p2 w hw
    have hrows : panWriteLol env cf t c v =
        some (w.rows.map (fun r => c.fields.map (fun f => jsonPanCell env (colCell w r (.name f))))) := by
      unfold panWriteLol
      rw [hw, Option.bind_some]
      apply mapM_eq_map
      intro r hr
      apply mapM_eq_map
      intro f hf
      rw [FrameOK.cell_eq g1 hr, if_pos (by rw [g2]; exact List.mem_map.2 ⟨f, hf, rfl⟩)]
      rfl
    refine ⟨_, hrows, ?_⟩
    have hlen : ∀ r ∈ w.rows.map (fun r => c.fields.map (fun f => jsonPanCell env (colCell w r (.name f)))),
        r.length = c.fields.length := by
      intro r hr; obtain ⟨x, _, e⟩ := List.mem_map.1 hr; subst e; simp
    have hread : panReadLol c (w.rows.map (fun r => c.fields.map (fun f => jsonPanCell env (colCell w r (.name f))))) =
        some (plainFrame c.fields (w.rows.map (fun r => c.fields.map (fun f => jsonPanCell env (colCell w r (.name f)))))) := by
      rw [(pan_read_lol c hn hne hd hsub _).2]
      · congr 2
        apply map_eq_self
        intro r hr
        apply List.ext_getElem
        · simp [hlen r hr]
        · intro i h1 h2
          simp [List.getElem?_eq_getElem h2]
      · cases hr : w.rows with
        | nil => exact .inl rfl
        | cons r rest => exact .inr ⟨_, List.mem_cons_self, by simp⟩
    rw [hread, Option.bind_some]
    have hok := plainFrame_ok hn hlen
    have hcol : ∀ f ∈ c.fields,
        column (plainFrame c.fields (w.rows.map (fun r => c.fields.map (fun f => jsonPanCell env (colCell w r (.name f)))))) f =
          (column w f).map (jsonPanCell env) := by
      intro f hf
      rw [column_plain (cell := fun r f => jsonPanCell env (colCell w r (.name f))) _ hf]
      simp [column]
    obtain ⟨a1, a2⟩ := adjust_spec (panReadCol env lower cf true t) (fun _ _ _ => panReadCol_len) c.fields hn _ hok
      (fun f hf => List.mem_map.2 ⟨f, hf, rfl⟩)
    have hread : ∀ f ∈ c.fields, panReadCol env lower cf true t f ((column w f).map (jsonPanCell env)) =
        some ((column v f).map nullAsNone) := by
      intro f hf
      obtain ⟨x, hx, hx'⟩ := survives_json (hs f hf) (hj f hf)
      rw [g4 f hf] at hx
      rw [Option.some.inj hx]
      exact hx'
    unfold panPost
    cases hu : Frame.adjust (panReadCol env lower cf true t)
        (plainFrame c.fields (w.rows.map (fun r => c.fields.map (fun f => jsonPanCell env (colCell w r (.name f)))))) c.fields with
    | none =>
      obtain ⟨f, hf, h⟩ := a1.1 hu
      rw [hcol f hf, hread f hf] at h
      simp at h
    | some u =>
      obtain ⟨b1, b2, b3, _, b5, _⟩ := a2 u hu
      congr 1
      apply eq_plain hn hne b1 b2 b3 (cell := fun r f => nullAsNone (colCell v r (.name f)))
      intro f hf
      have := b5 f hf
      rw [hcol f hf, hread f hf] at this
      rw [← Option.some.inj this]
      simp [column]

end Ticdat

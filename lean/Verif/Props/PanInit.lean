import Verif.Props.ToPandas
/-!
# C53: building a `PanDat` from DataFrames
-/
set_option linter.unusedSimpArgs false
namespace Ticdat
open Spec

/-- Two frames with the same rows, as far as some columns and the index go. -/
def SameCells (v u : Frame) (cell : List Cell × List Cell → Label → Cell) (ls : List Label) : Prop :=
  u.rows.length = v.rows.length ∧ ∀ (i : Nat) r r', v.rows[i]? = some r → u.rows[i]? = some r' → ∀ l ∈ ls, colCell u r' l = cell r l

theorem select_eq {v : Frame} (hv : FrameOK v) (ls : List Label) (hsub : ∀ l ∈ ls, l ∈ v.cols) :
    v.select ls = some ⟨v.index, ls, v.rows.map (fun r => (r.1, ls.map (colCell v r)))⟩ := by
  unfold Frame.select
  rw [mapM_eq_map (k := fun r => (r.1, ls.map (colCell v r))) (fun r hr => by
    rw [mapM_eq_map (k := colCell v r) (fun l hl => by rw [FrameOK.cell_eq hv hr, if_pos (hsub l hl)])]
    rfl)]
  rfl

theorem filter_not_mem_append {A : Type} [DecidableEq A] (a b : List A) (h : (a ++ b).Nodup) :
    (a ++ b).filter (fun l => !decide (l ∈ a)) = b := by
  rw [List.filter_append]
  have h1 : a.filter (fun l => !decide (l ∈ a)) = [] := by
    rw [List.filter_eq_nil_iff]
    intro x hx
    simp [hx]
  have h2 : b.filter (fun l => !decide (l ∈ a)) = b := by
    rw [List.filter_eq_self]
    intro x hx
    have : x ∉ a := fun ha => (List.nodup_append.mp h).2.2 x ha x hx rfl
    simp [this]
  rw [h1, h2, List.nil_append]

/-- The fields come first, nothing else changes. -/
theorem panOrder_spec (c : TabClass) (hn : c.fields.Nodup) (w : Frame) (hw : FrameOK w) (hall : ∀ f ∈ c.fields, Label.name f ∈ w.cols) :
    ∃ u, panOrder c w = some u ∧ FrameOK u ∧ u.index = w.index ∧
      u.cols = c.fields.map .name ++ w.cols.filter (fun l => !decide (l ∈ c.fields.map Label.name)) ∧
      SameCells w u (colCell w) w.cols := by
  unfold panOrder
  have hsub : ∀ l ∈ c.fields.map Label.name ++ w.cols.filter (fun l => !decide (l ∈ c.fields.map Label.name)), l ∈ w.cols := by
    intro l hl
    rcases List.mem_append.mp hl with h | h
    · obtain ⟨f, hf, rfl⟩ := List.mem_map.mp h
      exact hall f hf
    · exact (List.mem_filter.mp h).1
  have hsup : ∀ l ∈ w.cols, l ∈ c.fields.map Label.name ++ w.cols.filter (fun l => !decide (l ∈ c.fields.map Label.name)) := by
    intro l hl
    by_cases h : l ∈ c.fields.map Label.name
    · exact List.mem_append_left _ h
    · exact List.mem_append_right _ (List.mem_filter.mpr ⟨hl, by simp only [h, decide_false]; rfl⟩)
  have hnd : (c.fields.map Label.name ++ w.cols.filter (fun l => !decide (l ∈ c.fields.map Label.name))).Nodup := by
    rw [List.nodup_append]
    refine ⟨names_nodup hn, List.Nodup.sublist List.filter_sublist hw.cols, ?_⟩
    intro a ha b hb e
    have := (List.mem_filter.mp hb).2
    rw [← e] at this
    simp only [ha, decide_true, Bool.not_true, Bool.false_eq_true] at this
  simp only
  split
  · rw [show c.pks ++ c.dfs = c.fields from rfl, select_eq hw _ hsub]
    refine ⟨_, rfl, ⟨hnd, hw.index, ?_⟩, rfl, rfl, by simp, ?_⟩
    · intro r hr
      obtain ⟨q, hq, rfl⟩ := List.mem_map.mp hr
      exact ⟨(hw.rows q hq).1, by simp⟩
    · intro i r r' hr hr' l hl
      simp only [List.getElem?_map, hr, Option.map_some, Option.some.injEq] at hr'
      subst hr'
      have hm := hsup l hl
      unfold colCell
      simp only
      have hlt := List.idxOf_lt_length_of_mem hm
      rw [List.getElem?_map, List.getElem?_eq_getElem hlt, List.getElem_idxOf]
      rfl
  · rename_i htake
    have htake : w.cols.take c.fields.length = c.fields.map Label.name := by
      have := Decidable.not_not.mp htake
      simpa [TabClass.fields] using this
    refine ⟨w, rfl, hw, rfl, ?_, rfl, ?_⟩
    · have hsplit : w.cols = c.fields.map Label.name ++ w.cols.drop c.fields.length := by
        rw [← htake, List.take_append_drop]
      have := filter_not_mem_append (c.fields.map Label.name) (w.cols.drop c.fields.length) (by rw [← hsplit]; exact hw.cols)
      rw [← hsplit] at this
      rw [this]
      exact hsplit
    · intro i r r' hr hr' l hl
      rw [hr] at hr'
      cases hr'
      rfl

theorem panIndex_cond (c : TabClass) (v : Frame) :
    (c.pks ≠ [] && !c.pks.any v.has && (c.pks.all (fun p => decide (p ∈ v.index)) && v.index.all (fun p => decide (p ∈ c.pks)))) = true ↔
      PanIndexed c v := by
  simp only [Bool.and_eq_true, decide_eq_true_eq, Bool.not_eq_true', List.all_eq_true, ← Bool.not_eq_true, List.any_eq_true,
    Frame.has, PanIndexed]
  constructor
  · rintro ⟨⟨h1, h2⟩, h3, h4⟩
    exact ⟨h1, fun f hf hm => h2 ⟨f, hf, hm⟩, fun f => ⟨h3 f, h4 f⟩⟩
  · rintro ⟨h1, h2, h3⟩
    exact ⟨⟨h1, fun ⟨f, hf, hm⟩ => h2 f hf hm⟩, fun f hf => (h3 f).mp hf, fun f hf => (h3 f).mpr hf⟩

theorem positional_iff (v : Frame) : v.positional = true ↔ Numbered v := by
  unfold Frame.positional Numbered
  exact decide_eq_true_iff

theorem numbered_no_name {v : Frame} (h : Numbered v) (f : String) : Label.name f ∉ v.cols := by
  intro hm
  rw [h] at hm
  obtain ⟨n, _, e⟩ := List.mem_map.mp hm
  cases e

/-- Default values are added: cells. -/
theorem withDefaults_cells {c : TabClass} (hd : (PyDict.keys c.defaults).Nodup) {v : Frame} (hv : FrameOK v) :
    (∀ (i : Nat) r r', v.rows[i]? = some r → (v.withDefaults c.defaults).rows[i]? = some r' →
      (∀ l ∈ v.cols, colCell (v.withDefaults c.defaults) r' l = colCell v r l) ∧
      ∀ f, Label.name f ∉ v.cols → f ∈ PyDict.keys c.defaults →
        colCell (v.withDefaults c.defaults) r' (.name f) = (PyDict.get? c.defaults f).getD (.num (.fin 0))) := by
  intro i r r' hr hr'
  have hok := withDefaults_ok hd hv
  have hrm := List.mem_of_getElem? hr
  have hrm' := List.mem_of_getElem? hr'
  have he : r' = extRow c.defaults v r := by
    rw [withDefaults_eq c.defaults hd v] at hr'
    simp only [List.getElem?_map, hr, Option.map_some, Option.some.injEq] at hr'
    exact hr'.symm
  refine ⟨fun l hl => ?_, fun f hf hk => ?_⟩
  · subst he
    have hlen := (hv.rows r hrm).2
    rw [withDefaults_eq c.defaults hd v]
    unfold colCell extRow
    simp only
    rw [List.idxOf_append, if_pos hl, List.getElem?_append_left (by rw [hlen]; exact List.idxOf_lt_length_of_mem hl)]
  · have h1 := withDefaults_cell hd hv hrm f
    rw [← he, if_neg hf, FrameOK.cell_eq hok hrm', if_pos] at h1
    · rw [← h1]; rfl
    · have := (withDefaults_has hd v f).mpr (.inr hk)
      unfold Frame.has at this
      exact of_decide_eq_true this

theorem withDefaults_cols {c : TabClass} (hd : (PyDict.keys c.defaults).Nodup) (hsub : ∀ f ∈ PyDict.keys c.defaults, f ∈ c.fields)
    (v : Frame) : (v.withDefaults c.defaults).cols.filter (fun l => !decide (l ∈ c.fields.map Label.name)) =
      v.cols.filter (fun l => !decide (l ∈ c.fields.map Label.name)) := by
  rw [withDefaults_eq c.defaults hd v]
  simp only [List.filter_append]
  have : List.filter (fun l => !decide (l ∈ c.fields.map Label.name))
      (List.map (fun p => Label.name p.1) (addedDefaults c.defaults v)) = [] := by
    rw [List.filter_eq_nil_iff]
    intro l hl
    obtain ⟨p, hp, rfl⟩ := List.mem_map.mp hl
    have hm := hsub p.1 (List.mem_map.mpr ⟨p, (List.mem_filter.mp hp).1, rfl⟩)
    have : Label.name p.1 ∈ c.fields.map Label.name := List.mem_map.mpr ⟨p.1, hm, rfl⟩
    simp only [this, decide_true, Bool.not_true]
    simp
  rw [this, List.append_nil]

/-- What the two theorems on `PanDat.__init__` say about the frame `u` made of `v`. -/
structure PanResult (c : TabClass) (v u : Frame) : Prop where
  ok : FrameOK u
  cols : u.cols = c.fields.map .name ++ otherCols c v
  len : u.rows.length = v.rows.length
  fields : ∀ (i : Nat) r r', v.rows[i]? = some r → u.rows[i]? = some r' → ∀ f ∈ c.fields, colCell u r' (.name f) = panCell c v r f
  others : ∀ (i : Nat) r r', v.rows[i]? = some r → u.rows[i]? = some r' → ∀ l, l ∈ otherCols c v → colCell u r' l = colCell v r l

/-- From a frame `w` that has all the fields to the result. -/
theorem panResult_of (c : TabClass) (hn : c.fields.Nodup) (v w : Frame) (hw : FrameOK w)
    (hall : ∀ f ∈ c.fields, Label.name f ∈ w.cols) (hlen : w.rows.length = v.rows.length)
    (hother : w.cols.filter (fun l => !decide (l ∈ c.fields.map Label.name)) = otherCols c v)
    (hf : ∀ (i : Nat) r r', v.rows[i]? = some r → w.rows[i]? = some r' → ∀ f ∈ c.fields, colCell w r' (.name f) = panCell c v r f)
    (ho : ∀ (i : Nat) r r', v.rows[i]? = some r → w.rows[i]? = some r' → ∀ l, l ∈ otherCols c v → colCell w r' l = colCell v r l) :
    ∃ u, panOrder c w = some u ∧ PanResult c v u := by
  obtain ⟨u, hu, hok, _, hcols, hl, hcell⟩ := panOrder_spec c hn w hw hall
  have hmid : ∀ (i : Nat) r r'', v.rows[i]? = some r → u.rows[i]? = some r'' →
      ∃ r', w.rows[i]? = some r' ∧ ∀ l ∈ w.cols, colCell u r'' l = colCell w r' l := by
    intro i r r'' hr hr''
    have hi : i < w.rows.length := by
      have := (List.getElem?_eq_some_iff.mp hr).1
      omega
    exact ⟨w.rows[i], List.getElem?_eq_getElem hi, hcell i _ _ (List.getElem?_eq_getElem hi) hr''⟩
  refine ⟨u, hu, hok, by rw [hcols, hother], by rw [hl, hlen], ?_, ?_⟩
  · intro i r r'' hr hr'' f hff
    obtain ⟨r', hr', hc⟩ := hmid i r r'' hr hr''
    rw [hc _ (hall f hff)]
    exact hf i r r' hr hr' f hff
  · intro i r r'' hr hr'' l hlm
    obtain ⟨r', hr', hc⟩ := hmid i r r'' hr hr''
    have hm : l ∈ w.cols := by
      rw [← hother] at hlm
      exact (List.mem_filter.mp hlm).1
    rw [hc _ hm]
    exact ho i r r' hr hr' l hlm

/-- **C53.**  A table of a `PanDat` is made of a DataFrame exactly if its columns are numbered and there are enough of
them, or each field of the table is a column, or has a default value, or the primary key is the index.  The result has the
fields of the table as its first columns, in the order of the schema, followed by the other columns; every row is kept,
with the value of each field and of each other column. -/
theorem pan_init_iff (c : TabClass) (hn : c.fields.Nodup) (hd : (PyDict.keys c.defaults).Nodup)
    (hsub : ∀ f ∈ PyDict.keys c.defaults, f ∈ c.fields) (v : Frame) (hv : FrameOK v) :
    (panInit c v ≠ none ↔ PanFits c v) ∧ ∀ u, panInit c v = some u → PanResult c v u := by
  have key : ∀ w : Frame, panIndex c v = some w → FrameOK w →
      ((∀ f ∈ c.fields, (panFill c w).has f = true) ↔ PanFits c v) →
      (PanFits c v → ∃ u, panOrder c (panFill c w) = some u ∧ PanResult c v u) →
      (panInit c v ≠ none ↔ PanFits c v) ∧ ∀ u, panInit c v = some u → PanResult c v u := by
    intro w hw _ hfit hres
    have heq : panInit c v = if (c.pks ++ c.dfs).all (panFill c w).has then panOrder c (panFill c w) else none := by
      unfold panInit; rw [hw]; rfl
    by_cases h : PanFits c v
    · obtain ⟨u, hu, hr⟩ := hres h
      have hall : (c.pks ++ c.dfs).all (panFill c w).has = true := List.all_eq_true.mpr (hfit.mpr h)
      rw [heq, if_pos hall, hu]
      exact ⟨by simp [h], fun u' e => by cases e; exact hr⟩
    · have hall : ¬ (c.pks ++ c.dfs).all (panFill c w).has = true := fun hc => h (hfit.mp (List.all_eq_true.mp hc))
      rw [heq, if_neg hall]
      exact ⟨by simp [h], fun u' e => by cases e⟩
  by_cases hI : PanIndexed c v
  · -- the index becomes columns
    have hreset : ∃ w, v.resetIndex = some w := by
      unfold Frame.resetIndex
      rw [if_neg]
      · exact ⟨_, rfl⟩
      · rw [List.any_eq_true]
        rintro ⟨f, hf, hm⟩
        exact hI.2.1 f ((hI.2.2 f).mpr hf) (of_decide_eq_true hm)
    obtain ⟨w, hw⟩ := hreset
    have hpi : panIndex c v = some w := by
      unfold panIndex
      rw [if_pos ((panIndex_cond c v).mpr hI), hw]
    have hwok := resetIndex_ok hv hw
    have hweq := (resetIndex_eq hw).2
    have hnum : w.positional = false := by
      rw [← Bool.not_eq_true, positional_iff]
      intro h
      obtain ⟨p, hp⟩ := List.exists_mem_of_ne_nil _ hI.1
      refine numbered_no_name h p ?_
      rw [hweq]
      exact List.mem_append_left _ (List.mem_map.mpr ⟨p, (hI.2.2 p).mp hp, rfl⟩)
    have hfill : panFill c w = w.withDefaults c.defaults := by
      unfold panFill
      simp only [hnum, Bool.false_and, Bool.false_eq_true, if_false]
    have hwcol : ∀ f, Label.name f ∈ w.cols ↔ f ∈ c.pks ∨ Label.name f ∈ v.cols := by
      intro f
      rw [hweq]
      simp only [List.mem_append, List.mem_map, Label.name.injEq, exists_eq_right, hI.2.2 f]
    apply key w hpi hwok
    · rw [hfill]
      constructor
      · intro h
        left
        refine ⟨hI, fun f hf => ?_⟩
        rcases (withDefaults_has hd w f).mp (h f (List.mem_append_right _ hf)) with h | h
        · rcases (hwcol f).mp h with h | h
          · exact absurd rfl ((List.nodup_append.mp hn).2.2 f h f hf)
          · exact .inl h
        · exact .inr h
      · rintro (⟨_, h⟩ | ⟨h, _⟩ | ⟨h, _⟩)
        · intro f hf
          rw [withDefaults_has hd w f]
          rcases List.mem_append.mp hf with hp | hp
          · exact .inl ((hwcol f).mpr (.inl hp))
          · rcases h f hp with h | h
            · exact .inl ((hwcol f).mpr (.inr h))
            · exact .inr h
        · exact absurd hI h
        · exact absurd hI h
    · intro hfits
      have hprov : ∀ f ∈ c.dfs, Provided c v f := by
        rcases hfits with ⟨_, h⟩ | ⟨h, _⟩ | ⟨h, _⟩
        · exact h
        · exact absurd hI h
        · exact absurd hI h
      rw [hfill]
      have hrows : (w.withDefaults c.defaults).rows.length = v.rows.length := by
        rw [withDefaults_eq c.defaults hd w, hweq]; simp
      have hcells := withDefaults_cells hd hwok (c := c)
      -- the row of `w` in between
      have hmid : ∀ (i : Nat) r, v.rows[i]? = some r → w.rows[i]? = some ([], r.1 ++ r.2) := by
        intro i r hr
        rw [hweq]
        simp [List.getElem?_map, hr]
      have hother : otherCols c v = v.cols.filter (fun l => !decide (l ∈ c.fields.map .name)) := by
        unfold otherCols
        rw [if_neg (fun h => h.1 hI)]
      apply panResult_of c hn v (w.withDefaults c.defaults) (withDefaults_ok hd hwok)
      · intro f hf
        have : (w.withDefaults c.defaults).has f = true := by
          rw [withDefaults_has hd w f]
          rcases List.mem_append.mp hf with hp | hp
          · exact .inl ((hwcol f).mpr (.inl hp))
          · rcases hprov f hp with h | h
            · exact .inl ((hwcol f).mpr (.inr h))
            · exact .inr h
        exact of_decide_eq_true this
      · exact hrows
      · rw [withDefaults_cols hd hsub, hother, hweq]
        simp only [List.filter_append]
        have : List.filter (fun l => !decide (l ∈ c.fields.map Label.name)) (List.map Label.name v.index) = [] := by
          rw [List.filter_eq_nil_iff]
          intro l hl
          obtain ⟨p, hp, rfl⟩ := List.mem_map.mp hl
          have : Label.name p ∈ c.fields.map Label.name :=
            List.mem_map.mpr ⟨p, List.mem_append_left _ ((hI.2.2 p).mpr hp), rfl⟩
          simp only [this, decide_true, Bool.not_true]
          simp
        rw [this, List.nil_append]
      · intro i r r' hr hr' f hf
        have hrw := hmid i r hr
        obtain ⟨h1, h2⟩ := hcells i _ r' hrw hr'
        have hrm := List.mem_of_getElem? hr
        have hrmw := List.mem_of_getElem? hrw
        have hrc := resetIndex_cell hv hw hrm f
        have e1 := FrameOK.cell_eq hwok hrmw (.name f)
        simp only at e1
        unfold panCell
        by_cases hp : f ∈ c.pks
        · rw [if_pos ⟨hI, hp⟩]
          have hc : Label.name f ∈ w.cols := (hwcol f).mpr (.inl hp)
          rw [h1 _ hc]
          rw [if_pos ((hI.2.2 f).mp hp), e1, if_pos hc] at hrc
          exact Option.some.inj hrc
        · have hdf := (List.mem_append.mp hf).resolve_left hp
          rw [if_neg (fun h => hp h.2), if_neg (fun h => h.1 hI)]
          by_cases hc : Label.name f ∈ v.cols
          · rw [if_pos hc, h1 _ ((hwcol f).mpr (.inr hc))]
            rw [if_neg (fun h => hp ((hI.2.2 f).mpr h)), e1, if_pos ((hwcol f).mpr (.inr hc)), FrameOK.cell_eq hv hrm,
              if_pos hc] at hrc
            exact Option.some.inj hrc
          · rw [if_neg hc]
            refine h2 f (fun h => ?_) ((hprov f hdf).resolve_left hc)
            rcases (hwcol f).mp h with h | h
            · exact hp h
            · exact hc h
      · intro i r r' hr hr' l hl
        have hrw := hmid i r hr
        obtain ⟨h1, _⟩ := hcells i _ r' hrw hr'
        rw [hother] at hl
        obtain ⟨hlc, hlf⟩ := List.mem_filter.mp hl
        have hni : l ∉ v.index.map Label.name := by
          intro hm
          obtain ⟨p, hp, rfl⟩ := List.mem_map.mp hm
          have : Label.name p ∈ c.fields.map Label.name :=
            List.mem_map.mpr ⟨p, List.mem_append_left _ ((hI.2.2 p).mpr hp), rfl⟩
          simp only [this, decide_true, Bool.not_true] at hlf
          simp at hlf
        have hlw : l ∈ w.cols := by rw [hweq]; exact List.mem_append_right _ hlc
        rw [h1 _ hlw]
        have hl1 := (hv.rows r (List.mem_of_getElem? hr)).1
        unfold colCell
        rw [hweq]
        simp only
        rw [List.idxOf_append, if_neg hni, List.length_map, List.getElem?_append_right (by omega)]
        congr 2
        omega
  · have hpi : panIndex c v = some v := by
      unfold panIndex
      rw [if_neg (fun h => hI ((panIndex_cond c v).mp h))]
    by_cases hN : Numbered v
    · -- numbered columns
      by_cases hlen : c.fields.length ≤ v.cols.length
      · have hren : FrameOK (v.rename c.fields) := by
          refine ⟨?_, hv.index, ?_⟩
          · show (c.fields.map Label.name ++ v.cols.drop c.fields.length).Nodup
            rw [List.nodup_append]
            refine ⟨names_nodup hn, List.Nodup.sublist (List.drop_sublist _ _) hv.cols, ?_⟩
            intro a ha b hb e
            obtain ⟨f, _, rfl⟩ := List.mem_map.mp ha
            exact numbered_no_name hN f (e ▸ List.mem_of_mem_drop hb)
          · intro r hr
            have := hv.rows r hr
            refine ⟨this.1, ?_⟩
            simp only [Frame.rename, List.length_append, List.length_map, List.length_drop]
            omega
        have hfill : panFill c v = (v.rename c.fields).withDefaults c.defaults := by
          unfold panFill
          have hpos := (positional_iff v).mpr hN
          have hge : decide (v.cols.length ≥ (c.pks ++ c.dfs).length) = true := decide_eq_true hlen
          simp only [hpos, hge, Bool.true_and, if_true]
          by_cases he : c.fields = []
          · have hdn : c.defaults = [] := by
              cases hdd : c.defaults with
              | nil => rfl
              | cons p rest =>
                have := hsub p.1 (by rw [hdd]; simp [PyDict.keys])
                rw [he] at this; cases this
            rw [show c.pks ++ c.dfs = c.fields from rfl, hdn]
            split <;> rfl
          · have hnp : (v.rename (c.pks ++ c.dfs)).positional = false := by
              rw [← Bool.not_eq_true, positional_iff]
              intro h
              obtain ⟨f, hf⟩ := List.exists_mem_of_ne_nil _ he
              exact numbered_no_name h f (List.mem_append_left _ (List.mem_map.mpr ⟨f, hf, rfl⟩))
            rw [hnp]
            rfl
        have hcolm : ∀ f ∈ c.fields, Label.name f ∈ (v.rename c.fields).cols :=
          fun f hf => List.mem_append_left _ (List.mem_map.mpr ⟨f, hf, rfl⟩)
        have hfits : PanFits c v := .inr (.inl ⟨hI, hN, hlen⟩)
        have hother : otherCols c v = v.cols.drop c.fields.length := by
          unfold otherCols
          rw [if_pos ⟨hI, hN⟩]
        apply key v hpi hv
        · rw [hfill]
          exact iff_of_true (fun f hf => (withDefaults_has hd _ f).mpr (.inl (hcolm f hf))) hfits
        · intro _
          rw [hfill]
          apply panResult_of c hn v _ (withDefaults_ok hd hren)
          · intro f hf
            exact of_decide_eq_true ((withDefaults_has hd _ f).mpr (.inl (hcolm f hf)))
          · rw [withDefaults_eq c.defaults hd]; simp [Frame.rename]
          · rw [withDefaults_cols hd hsub, hother]
            exact filter_not_mem_append _ _ hren.cols
          · intro i r r' hr hr' f hf
            rw [((withDefaults_cells hd hren i r r' hr hr').1 _ (hcolm f hf))]
            unfold panCell
            rw [if_neg (fun h => hI h.1), if_pos ⟨hI, hN⟩]
            unfold colCell
            simp only [Frame.rename]
            rw [List.idxOf_append, if_pos (List.mem_map.mpr ⟨f, hf, rfl⟩), idxOf_map_name]
          · intro i r r' hr hr' l hl
            rw [hother] at hl
            have hlm : l ∈ (v.rename c.fields).cols := List.mem_append_right _ hl
            rw [((withDefaults_cells hd hren i r r' hr hr').1 _ hlm)]
            unfold colCell
            have hnm : l ∉ c.fields.map Label.name := by
              intro hm
              exact (List.nodup_append.mp hren.cols).2.2 l hm l hl rfl
            have hnt : l ∉ v.cols.take c.fields.length := by
              intro hm
              have h5 := hv.cols
              rw [← List.take_append_drop c.fields.length v.cols] at h5
              exact (List.nodup_append.mp h5).2.2 l hm l hl rfl
            have e1 : (v.rename c.fields).cols.idxOf l = (v.cols.drop c.fields.length).idxOf l + c.fields.length := by
              simp only [Frame.rename]
              rw [List.idxOf_append, if_neg hnm, List.length_map]
            have e2 : v.cols.idxOf l = (v.cols.drop c.fields.length).idxOf l + c.fields.length := by
              have e3 : v.cols.idxOf l = (v.cols.take c.fields.length ++ v.cols.drop c.fields.length).idxOf l := by
                rw [List.take_append_drop]
              rw [e3, List.idxOf_append, if_neg hnt, List.length_take]
              omega
            rw [e1, e2]
      · have hfill : panFill c v = v := by
          unfold panFill
          have hpos := (positional_iff v).mpr hN
          have hge : decide (v.cols.length ≥ (c.pks ++ c.dfs).length) = false := decide_eq_false hlen
          simp only [hpos, hge, Bool.and_false, Bool.false_eq_true, if_false, if_true]
        have hne : c.fields ≠ [] := by intro e; rw [e] at hlen; exact hlen (Nat.zero_le _)
        have hnf : ¬ PanFits c v := by
          rintro (⟨h, _⟩ | ⟨_, _, h⟩ | ⟨_, h, _⟩)
          · exact hI h
          · exact hlen h
          · exact h hN
        apply key v hpi hv
        · rw [hfill]
          refine iff_of_false (fun h => ?_) hnf
          obtain ⟨f, hf⟩ := List.exists_mem_of_ne_nil _ hne
          exact numbered_no_name hN f (of_decide_eq_true (h f hf))
        · intro h; exact absurd h hnf
    · -- named columns
      have hfill : panFill c v = v.withDefaults c.defaults := by
        unfold panFill
        have hpos : v.positional = false := by rw [← Bool.not_eq_true, positional_iff]; exact hN
        simp only [hpos, Bool.false_and, Bool.false_eq_true, if_false]
      have hother : otherCols c v = v.cols.filter (fun l => !decide (l ∈ c.fields.map .name)) := by
        unfold otherCols
        rw [if_neg (fun h => hN h.2)]
      apply key v hpi hv
      · rw [hfill]
        constructor
        · intro h
          exact .inr (.inr ⟨hI, hN, fun f hf => (withDefaults_has hd v f).mp (h f hf)⟩)
        · rintro (⟨h, _⟩ | ⟨_, h, _⟩ | ⟨_, _, h⟩)
          · exact absurd h hI
          · exact absurd h hN
          · exact fun f hf => (withDefaults_has hd v f).mpr (h f hf)
      · rintro (⟨h, _⟩ | ⟨_, h, _⟩ | ⟨_, _, h⟩)
        · exact absurd h hI
        · exact absurd h hN
        · rw [hfill]
          apply panResult_of c hn v _ (withDefaults_ok hd hv)
          · intro f hf
            exact of_decide_eq_true ((withDefaults_has hd _ f).mpr (h f hf))
          · rw [withDefaults_eq c.defaults hd]; simp
          · rw [withDefaults_cols hd hsub, hother]
          · intro i r r' hr hr' f hf
            obtain ⟨h1, h2⟩ := withDefaults_cells hd hv i r r' hr hr'
            unfold panCell
            rw [if_neg (fun h => hI h.1), if_neg (fun h => hN h.2)]
            by_cases hc : Label.name f ∈ v.cols
            · rw [if_pos hc]; exact h1 _ hc
            · rw [if_neg hc]; exact h2 f hc ((h f hf).resolve_left hc)
          · intro i r r' hr hr' l hl
            rw [hother] at hl
            exact (withDefaults_cells hd hv i r r' hr hr').1 l (List.mem_filter.mp hl).1

/-- The tables of a `PanDat` are accepted by `good_pan_dat_object`. -/
theorem pan_init_good (c : TabClass) (hn : c.fields.Nodup) (hd : (PyDict.keys c.defaults).Nodup)
    (hsub : ∀ f ∈ PyDict.keys c.defaults, f ∈ c.fields) (v : Frame) (hv : FrameOK v) (u : Frame) (hu : panInit c v = some u) :
    goodPanTable c u = true := by
  have := ((pan_init_iff c hn hd hsub v hv).2 u hu).cols
  unfold goodPanTable
  rw [List.all_eq_true]
  intro f hf
  unfold Frame.has
  rw [this]
  exact decide_eq_true (List.mem_append_left _ (List.mem_map.mpr ⟨f, hf, rfl⟩))

/-- `copy_pan_dat`: a table of a `PanDat`, in which the fields come first, is copied as it is. -/
theorem pan_copy_same (c : TabClass) (hd : (PyDict.keys c.defaults).Nodup) (hsub : ∀ f ∈ PyDict.keys c.defaults, f ∈ c.fields)
    (u : Frame) (rest : List Label) (hu : u.cols = c.fields.map .name ++ rest) : panInit c u = some u := by
  have hhas : ∀ f ∈ c.fields, u.has f = true := by
    intro f hf
    unfold Frame.has
    rw [hu]
    exact decide_eq_true (List.mem_append_left _ (List.mem_map.mpr ⟨f, hf, rfl⟩))
  have hpi : panIndex c u = some u := by
    unfold panIndex
    rw [if_neg]
    rw [panIndex_cond]
    rintro ⟨h1, h2, _⟩
    obtain ⟨p, hp⟩ := List.exists_mem_of_ne_nil _ h1
    exact h2 p hp (of_decide_eq_true (hhas p (List.mem_append_left _ hp)))
  have hdef : u.withDefaults c.defaults = u := by
    rw [withDefaults_eq c.defaults hd u]
    have : addedDefaults c.defaults u = [] := by
      unfold addedDefaults
      rw [List.filter_eq_nil_iff]
      intro p hp
      have := hhas p.1 (hsub p.1 (List.mem_map.mpr ⟨p, hp, rfl⟩))
      simp [this]
    simp [this, extRow]
  have hfill : panFill c u = u := by
    unfold panFill
    by_cases he : c.fields = []
    · have hr : u.rename (c.pks ++ c.dfs) = u := by
        rw [show c.pks ++ c.dfs = c.fields from rfl, he]
        rfl
      simp only [hr, hdef, ite_self]
    · have hnp : u.positional = false := by
        rw [← Bool.not_eq_true, positional_iff]
        intro h
        obtain ⟨f, hf⟩ := List.exists_mem_of_ne_nil _ he
        exact numbered_no_name h f (of_decide_eq_true (hhas f hf))
      simp only [hnp, Bool.false_and, Bool.false_eq_true, if_false, hdef]
  unfold panInit
  rw [hpi, Option.bind_some, hfill, show c.pks ++ c.dfs = c.fields from rfl, if_pos (List.all_eq_true.mpr hhas)]
  unfold panOrder
  simp only
  rw [if_neg]
  rw [Decidable.not_not, hu, show c.pks ++ c.dfs = c.fields from rfl, List.take_left]

theorem rowsTable_same {R S : Type} (c : TabClass) (rows : List R) (rows' : List S) (cell : R → String → Cell)
    (cell' : S → String → Cell) (hlen : rows'.length = rows.length)
    (h : ∀ (i : Nat) r r', rows[i]? = some r → rows'[i]? = some r' → ∀ f ∈ c.fields, cell' r' f = cell r f) :
    rowsTable c rows' cell' = rowsTable c rows cell := by
  have key : ∀ {T : Type} (g : (String → Cell) → T), (∀ a b : String → Cell, (∀ f ∈ c.fields, a f = b f) → g a = g b) →
      rows'.map (fun r => g (cell' r)) = rows.map (fun r => g (cell r)) := by
    intro T g hg
    apply List.ext_getElem
    · simp [hlen]
    · intro i h1 h2
      simp only [List.getElem_map]
      have h1' : i < rows'.length := by simpa using h1
      have h2' : i < rows.length := by simpa using h2
      exact hg _ _ (h i _ _ (List.getElem?_eq_getElem h2') (List.getElem?_eq_getElem h1'))
  have hkey : ∀ a b : String → Cell, (∀ f ∈ c.fields, a f = b f) → keyFrom c.pks a = keyFrom c.pks b := by
    intro a b hab
    have hab : ∀ f ∈ c.pks, a f = b f := fun f hf => hab f (List.mem_append_left _ hf)
    revert hab
    generalize c.pks = pks
    intro hab
    unfold keyFrom
    split
    · rw [hab _ (List.mem_singleton.mpr rfl)]
    · rw [List.map_congr_left hab]
  have hdata : ∀ a b : String → Cell, (∀ f ∈ c.fields, a f = b f) → dataFrom c.dfs a = dataFrom c.dfs b := by
    intro a b hab
    unfold dataFrom
    exact List.map_congr_left (fun f hf => by rw [hab f (List.mem_append_right _ hf)])
  unfold rowsTable
  split
  · rw [key (dataFrom c.dfs) hdata]
  · rw [key (fun g => (keyFrom c.pks g, dataFrom c.dfs g)) (fun a b hab => by rw [hkey a b hab, hdata a b hab])]

/-- **C53, and on to `TicDat`.**  `copy_to_tic_dat` of a table of a `PanDat` (by a factory with the same schema, but no
default values) succeeds unless a field has the reserved name "name"; it gives the table that has the key and the data of
each row of the DataFrame that the `PanDat` was made of. -/
theorem pan_init_to_tic (c : TabClass) (hn : c.fields.Nodup) (hd : (PyDict.keys c.defaults).Nodup)
    (hsub : ∀ f ∈ PyDict.keys c.defaults, f ∈ c.fields) (v : Frame) (hv : FrameOK v) (u : Frame) (hu : panInit c v = some u) :
    (initFrame { c with defaults := [] } u ≠ none ↔ "name" ∉ c.dfs ∧ ("name" ∈ c.pks → c.pks.length = 1)) ∧
      ∀ tab, initFrame { c with defaults := [] } u = some tab → TableOfRows c v.rows (panCell c v) tab := by
  have hr := (pan_init_iff c hn hd hsub v hv).2 u hu
  have hcol : ∀ f ∈ c.fields, Label.name f ∈ u.cols := by
    intro f hf
    rw [hr.cols]
    exact List.mem_append_left _ (List.mem_map.mpr ⟨f, hf, rfl⟩)
  constructor
  · rw [(init_from_frame { c with defaults := [] } hn (by simp [PyDict.keys]) u hr.ok).1]
    constructor
    · rintro ⟨h1, h2, _⟩; exact ⟨h1, h2⟩
    · rintro ⟨h1, h2⟩
      exact ⟨h1, h2, fun f hf => .inl (hcol f (List.mem_append_right _ hf)),
        .inl (fun f hf => .inl (hcol f (List.mem_append_left _ hf)))⟩
  · intro tab htab
    have := ((initFrame_val { c with defaults := [] } hn (by simp [PyDict.keys]) u hr.ok tab).mp htab).2
    have e : rowsTable { c with defaults := [] } u.rows (frameCell { c with defaults := [] } u) =
        rowsTable c v.rows (panCell c v) := by
      rw [← rowsTable_same c v.rows u.rows (panCell c v) (frameCell { c with defaults := [] } u) hr.len]
      · rfl
      · intro i r r' h1 h2 f hf
        rw [← hr.fields i r r' h1 h2 f hf]
        unfold frameCell
        rw [if_pos (hcol f hf)]
    rw [this, e]
    exact rowsTable_spec c _ _

/-- As documented for `copy_to_pandas`: with `drop_pk_columns=False` or `reset_index=True` its result is accepted by
`good_pan_dat_object`, and a `PanDat` made of it has the same DataFrames. -/
theorem to_pandas_good_pan (env : PandasEnv) (c : TabClass) (hd : (PyDict.keys c.defaults).Nodup)
    (hsub : ∀ f ∈ PyDict.keys c.defaults, f ∈ c.fields) (drop : Option Bool) (reset : Bool) (h : reset = true ∨ drop = some false)
    (tab : TabVal) (htab : ∀ rows, tab = .plain rows → c.pks = []) (v : Frame) (hv : copyToPandas env c drop reset tab = some v) :
    goodPanTable c v = true ∧ panInit c v = some v := by
  have hcols : v.cols = c.fields.map .name ++ [] := by
    rw [List.append_nil]
    unfold copyToPandas at hv
    split at hv
    · cases hv; rfl
    · obtain ⟨rows, _, rfl⟩ := Option.map_eq_some_iff.mp hv
      cases tab with
      | keyed d =>
        simp only [keyedFrame]
        rcases h with rfl | rfl
        · rfl
        · cases reset <;> rfl
      | plain rs => simp only [TabClass.fields, htab rs rfl, List.nil_append]
  refine ⟨?_, pan_copy_same c hd hsub v [] hcols⟩
  unfold goodPanTable
  rw [List.all_eq_true]
  intro f hf
  unfold Frame.has
  rw [hcols, List.append_nil]
  exact decide_eq_true (List.mem_map.mpr ⟨f, hf, rfl⟩)

/-- Without these arguments the key of a non-empty table with data fields is in the index only, and the result is not
accepted. -/
theorem to_pandas_default_not_good_pan (env : PandasEnv) (c : TabClass) (hn : c.fields.Nodup) (hp : c.pks ≠ []) (hd : c.dfs ≠ [])
    (d : PyDict KeyArg RowVal) (hne : d ≠ []) (v : Frame) (hv : copyToPandas env c none false (.keyed d) = some v) :
    goodPanTable c v = false := by
  unfold copyToPandas at hv
  rw [if_neg (by simp [TabVal.size, hne])] at hv
  obtain ⟨rows, _, rfl⟩ := Option.map_eq_some_iff.mp hv
  obtain ⟨p, hpm⟩ := List.exists_mem_of_ne_nil _ hp
  rw [← Bool.not_eq_true]
  unfold goodPanTable
  rw [List.all_eq_true]
  intro h
  have := h p (List.mem_append_left _ hpm)
  unfold Frame.has keyedFrame at this
  simp only [Bool.false_eq_true, if_false, Option.getD_none, ne_eq, hd, not_false_eq_true, decide_true, if_true] at this
  have := of_decide_eq_true this
  obtain ⟨f, hf, e⟩ := List.mem_map.mp this
  cases e
  exact (List.nodup_append.mp hn).2.2 p hpm p hf rfl

example : ∃ v, copyToPandas plainPandas costClass none true costTab = some v ∧ goodPanTable costClass v = true ∧
    panInit costClass v = some v := by
  refine ⟨_, rfl, to_pandas_good_pan plainPandas costClass (by decide) (by decide) none true (.inl rfl) costTab ?_ _ rfl⟩
  intro rows h
  cases h

/-! ## Examples and findings -/

def routeClass : TabClass := ⟨["from", "to"], ["cost", "cap"], [("cost", .num (.fin 0)), ("cap", .num (.fin 9))]⟩

/-- The key in the index, in another order; an extra column before the field; one field left to its default. -/
def routeFrame : Frame := ⟨["to", "from"], [.name "memo", .name "cost"],
  [([.str "b", .str "a"], [.str "x", .num (.fin 3)]), ([.str "c", .str "a"], [.str "y", .num (.fin 4)])]⟩

theorem routeFrame_ok : FrameOK routeFrame := ⟨by decide, by decide, by decide⟩

theorem routeFrame_fits : PanFits routeClass routeFrame :=
  .inl ⟨⟨by decide, by decide, fun f => by simp [routeClass, routeFrame, or_comm]⟩, fun f hf => by
    simp only [routeClass, List.mem_cons, List.not_mem_nil, or_false] at hf
    rcases hf with rfl | rfl
    · exact .inl (by decide)
    · exact .inr (by decide)⟩

example : ∃ u, panInit routeClass routeFrame = some u ∧ PanResult routeClass routeFrame u := by
  have h := pan_init_iff routeClass (by decide) (by decide) (by decide) routeFrame routeFrame_ok
  obtain ⟨u, hu⟩ := Option.ne_none_iff_exists'.mp (h.1.mpr routeFrame_fits)
  exact ⟨u, hu, h.2 u hu⟩

example : panInit routeClass routeFrame = some ⟨[], [.name "from", .name "to", .name "cost", .name "cap", .name "memo"],
    [([], [.str "a", .str "b", .num (.fin 3), .num (.fin 9), .str "x"]),
     ([], [.str "a", .str "c", .num (.fin 4), .num (.fin 9), .str "y"])]⟩ := by rfl

example : panInit routeClass ⟨[], (List.range 5).map .pos, [([], [.str "a", .str "b", .num (.fin 3), .num (.fin 9), .str "x"])]⟩ =
    some ⟨[], [.name "from", .name "to", .name "cost", .name "cap", .pos 4],
      [([], [.str "a", .str "b", .num (.fin 3), .num (.fin 9), .str "x"])]⟩ := by rfl

/-- A `TicDat` refuses a DataFrame whose index has the key fields in another order; a `PanDat` accepts it. -/
theorem index_order_matters_for_tic :
    (panInit routeClass routeFrame).isSome = true ∧ initFrame routeClass routeFrame = none := by constructor <;> rfl

/-- Finding: default values are not used for a DataFrame without columns, because its (empty) columns count as numbered
(pandatfactory.py:1003-1010); with one unrelated column the same rows are accepted. -/
theorem pan_no_columns_no_defaults :
    let c : TabClass := ⟨[], ["a"], [("a", .num (.fin 5))]⟩
    panInit c ⟨[], [], [([], []), ([], [])]⟩ = none ∧
      panInit c ⟨[], [.name "x"], [([], [.str "q"]), ([], [.str "q"])]⟩ =
        some ⟨[], [.name "a", .name "x"], [([], [.num (.fin 5), .str "q"]), ([], [.num (.fin 5), .str "q"])]⟩ := by
  constructor <;> rfl

/-- Finding: with the key in the index, numbered columns are not taken as the data fields: the default values are used
instead and the given values end up in extra columns. -/
theorem pan_index_numbered_data :
    let c : TabClass := ⟨["k"], ["a"], [("a", .num (.fin 5))]⟩
    panInit c ⟨["k"], [.pos 0], [([.str "x"], [.num (.fin 7)])]⟩ =
      some ⟨[], [.name "k", .name "a", .pos 0], [([], [.str "x", .num (.fin 5), .num (.fin 7)])]⟩ := by rfl

/-- With a default value for the key field and the key in the index, a `PanDat` has the index as key while a `TicDat` made of
the same DataFrame has the default value as key of all rows. -/
theorem pan_tic_disagree_on_default_key :
    let c : TabClass := ⟨["k"], ["a"], [("k", .str "none"), ("a", .num (.fin 5))]⟩
    let v : Frame := ⟨["k"], [.name "a"], [([.str "x"], [.num (.fin 7)])]⟩
    (panInit c v).bind (initFrame { c with defaults := [] }) = some (.keyed [(.one (.str "x"), [("a", .num (.fin 7))])]) ∧
      initFrame c v = some (.keyed [(.one (.str "none"), [("a", .num (.fin 7))])]) := by
  constructor <;> rfl

/-- Finding: a `PanDat` with a data field called "name" cannot be copied to a `TicDat`. -/
theorem pan_name_field_no_tic :
    let c : TabClass := ⟨["k"], ["name"], []⟩
    let v : Frame := ⟨[], [.name "k", .name "name"], [([], [.str "x", .str "y"])]⟩
    panInit c v = some v ∧ initFrame c v = none := by constructor <;> rfl

end Ticdat

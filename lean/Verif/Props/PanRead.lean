import Verif.Props.PanInit
import Verif.Props.PanIO
import Verif.Props.TrailingNan
import Verif.Spec.PanRead
/-!
# C58, C59, C60: reading and writing `PanDat` objects
-/
set_option linter.unusedSectionVars false
set_option linter.unusedSimpArgs false
namespace Ticdat
open Spec

theorem fillDict_get? (defaults : PyDict String Cell) (missing : List String) (hn : missing.Nodup) (f : String) :
    PyDict.get? (missing.filterMap (fun f => (PyDict.get? defaults f).map (fun d => (f, d)))) f =
      if f ∈ missing then PyDict.get? defaults f else none := by
  induction missing with
  | nil => rfl
  | cons g missing ih =>
    obtain ⟨h1, h2⟩ := List.nodup_cons.1 hn
    have ih := ih h2
    cases hg : PyDict.get? defaults g with
    | none =>
      rw [List.filterMap_cons_none (by rw [hg]; rfl), ih]
      by_cases e : f = g
      · subst e; simp [h1, hg]
      · simp [e]
    | some d =>
      rw [List.filterMap_cons_some (by rw [hg]; rfl)]
      by_cases e : f = g
      · subst e; simp [PyDict.get?, hg]
      · simp only [PyDict.get?, Ne.symm e, if_false, ih, List.mem_cons, e, false_or]

theorem fillDict_keys (defaults : PyDict String Cell) (missing : List String) :
    PyDict.keys (missing.filterMap (fun f => (PyDict.get? defaults f).map (fun d => (f, d)))) =
      missing.filter (fun f => (PyDict.get? defaults f).isSome) := by
  induction missing with
  | nil => rfl
  | cons g missing ih =>
    unfold PyDict.keys at *
    cases hg : PyDict.get? defaults g with
    | none => rw [List.filterMap_cons_none (by rw [hg]; rfl), ih]; simp [hg]
    | some d => rw [List.filterMap_cons_some (by rw [hg]; rfl)]; simp [hg, ih]

theorem not_indexed_of_nil {c : TabClass} {v : Frame} (h : v.index = []) : ¬ PanIndexed c v := by
  rintro ⟨h1, _, h3⟩
  obtain ⟨p, hp⟩ := List.exists_mem_of_ne_nil _ h1
  have := (h3 p).1 hp
  rw [h] at this
  simp at this

theorem panIndex_of_nil {c : TabClass} {v : Frame} (h : v.index = []) : panIndex c v = some v := by
  unfold panIndex
  rw [if_neg]
  rw [panIndex_cond]
  rintro hi
  obtain ⟨h1, h2, h3⟩ := hi
  obtain ⟨p, hp⟩ := List.exists_mem_of_ne_nil _ h1
  have := (h3 p).1 hp
  rw [h] at this
  simp at this

theorem panFill_index {c : TabClass} (hd : (PyDict.keys c.defaults).Nodup) (v : Frame) : (panFill c v).index = v.index := by
  unfold panFill
  simp only
  split <;> split <;> simp only [withDefaults_eq c.defaults hd, Frame.rename]

/-- A frame that fits, made a table and cut to the fields. -/
theorem init_select {c : TabClass} (hn : c.fields.Nodup) (hd : (PyDict.keys c.defaults).Nodup)
    (hsub : ∀ f ∈ PyDict.keys c.defaults, f ∈ c.fields) {v : Frame} (hv : FrameOK v) (hi : v.index = [])
    (hfit : PanFits c v) :
    (panInit c v).bind (fun w => w.select (c.fields.map .name)) =
      some (plainFrame c.fields (v.rows.map (fun r => c.fields.map (panCell c v r)))) := by
  obtain ⟨h1, h2⟩ := pan_init_iff c hn hd hsub v hv
  cases hu : panInit c v with
  | none => exact absurd hu (h1.2 hfit)
  | some u =>
    have hr := h2 u hu
    have hcols : ∀ l ∈ c.fields.map Label.name, l ∈ u.cols := by
      intro l hl; rw [hr.cols]; exact List.mem_append_left _ hl
    rw [Option.bind_some, select_eq hr.ok _ hcols]
    have hidx : u.index = [] := by
      have hfill : (panFill c v).index = [] := (panFill_index hd v).trans hi
      unfold panInit at hu
      rw [panIndex_of_nil hi, Option.bind_some] at hu
      split at hu
      · unfold panOrder at hu
        simp only at hu
        split at hu
        · unfold Frame.select at hu
          obtain ⟨rows, _, e⟩ := Option.map_eq_some_iff.1 hu
          rw [← e]; exact hfill
        · rw [← Option.some.inj hu]; exact hfill
      · simp at hu
    unfold plainFrame
    rw [hidx]
    congr 2
    apply List.ext_getElem
    · simp [hr.len]
    · intro i g1 g2
      have hi1 : i < u.rows.length := by simpa using g1
      have hi2 : i < v.rows.length := by simpa using g2
      simp only [List.getElem_map]
      have hfst : (u.rows[i]).1 = [] := by
        have := (hr.ok.rows _ (List.getElem_mem hi1)).1
        rw [hidx] at this
        exact List.length_eq_zero_iff.1 this
      rw [hfst, List.map_map]
      congr 1
      apply List.map_congr_left
      intro f hf
      exact hr.fields i _ _ (List.getElem?_eq_getElem hi2) (List.getElem?_eq_getElem hi1) f hf

/-- A frame that has all the fields, made a table and cut to the fields. -/
theorem init_select_named {c : TabClass} (hn : c.fields.Nodup) (hne : c.fields ≠ []) (hd : (PyDict.keys c.defaults).Nodup)
    (hsub : ∀ f ∈ PyDict.keys c.defaults, f ∈ c.fields) {v : Frame} (hv : FrameOK v) (hi : v.index = [])
    (hall : ∀ f ∈ c.fields, Label.name f ∈ v.cols) :
    (panInit c v).bind (fun w => w.select (c.fields.map .name)) =
      some (plainFrame c.fields (v.rows.map (fun r => c.fields.map (fun f => colCell v r (.name f))))) := by
  have hni := not_indexed_of_nil (c := c) hi
  have hnn : ¬ Numbered v := by
    intro h
    obtain ⟨f, hf⟩ := List.exists_mem_of_ne_nil _ hne
    exact numbered_no_name h f (hall f hf)
  rw [init_select hn hd hsub hv hi (.inr (.inr ⟨hni, hnn, fun f hf => .inl (hall f hf)⟩))]
  congr 2
  apply List.map_congr_left
  intro r _
  apply List.map_congr_left
  intro f hf
  simp only [panCell, hni, false_and, if_false, hnn, and_false, hall f hf, if_true]

/-- **C58.**  What a reader makes of a DataFrame it has read.  It raises exactly if some field of the table is neither a column
of the file nor to be filled in by a default value.  Otherwise the table has the fields of the schema, in the order of the
schema, as its only columns, and all the rows of the file in order, with the file's values, or the default value in a field
that is missing.  Other columns of the file and the order in which missing fields are filled in make no difference. -/
theorem pan_read_table (c : TabClass) (hn : c.fields.Nodup) (hne : c.fields ≠ []) (hd : (PyDict.keys c.defaults).Nodup)
    (hsub : ∀ f ∈ PyDict.keys c.defaults, f ∈ c.fields) (fill : Bool) (v : Frame) (hv : FrameOK v) (hi : v.index = [])
    (missing : List String) (hm : MissingFields c v missing) :
    (panReadTable c fill missing v = none ↔ ∃ f ∈ c.fields, ¬ Found c fill v f) ∧
    ((∀ f ∈ c.fields, Found c fill v f) →
      panReadTable c fill missing v =
        some (plainFrame c.fields (v.rows.map (fun r => c.fields.map (fileCell c v r))))) := by
  have hdn : (PyDict.keys (missing.filterMap (fun f => (PyDict.get? c.defaults f).map (fun d => (f, d))))).Nodup := by
    rw [fillDict_keys]; exact hm.1.sublist List.filter_sublist
  have hkey : ∀ f, (PyDict.get? c.defaults f).isSome = true ↔ f ∈ PyDict.keys c.defaults := by
    intro f
    rw [Option.isSome_iff_ne_none, Ne, PyDict.get?_eq_none]
    exact Classical.not_not
  have hhas : ∀ f ∈ c.fields, ((if fill then panFillMissing c missing v else v).has f = true ↔ Found c fill v f) := by
    intro f hf
    unfold Found
    cases fill with
    | false => simp [Frame.has]
    | true =>
      simp only [if_true, panFillMissing, withDefaults_has hdn, fillDict_keys, List.mem_filter, hkey, hm.2, true_and]
      constructor
      · rintro (h | ⟨_, h⟩)
        · exact .inl h
        · exact .inr h
      · rintro (h | h)
        · exact .inl h
        · by_cases hc : Label.name f ∈ v.cols
          · exact .inl hc
          · exact .inr ⟨⟨hf, hc⟩, h⟩
  have hgood : (∀ f ∈ c.fields, Found c fill v f) → panReadTable c fill missing v =
        some (plainFrame c.fields (v.rows.map (fun r => c.fields.map (fileCell c v r)))) := by
    intro hF
    unfold panReadTable
    simp only
    rw [if_pos (List.all_eq_true.2 (fun f hf => (hhas f hf).2 (hF f hf)))]
    cases fill with
    | false =>
      have hall : ∀ f ∈ c.fields, Label.name f ∈ v.cols := fun f hf => by
        rcases hF f hf with h | ⟨h, _⟩
        · exact h
        · simp at h
      simp only [Bool.false_eq_true, if_false]
      rw [init_select_named hn hne hd hsub hv hi hall]
      congr 2
      apply List.map_congr_left
      intro r _
      apply List.map_congr_left
      intro f hf
      simp [fileCell, hall f hf]
    | true =>
      simp only [if_true]
      have hok : FrameOK (panFillMissing c missing v) := withDefaults_ok hdn hv
      have hall : ∀ f ∈ c.fields, Label.name f ∈ (panFillMissing c missing v).cols := fun f hf => by
        have := (hhas f hf).2 (hF f hf)
        simp only [if_true, Frame.has] at this
        exact of_decide_eq_true this
      have hidx : (panFillMissing c missing v).index = [] := by
        unfold panFillMissing; rw [withDefaults_eq _ hdn]; exact hi
      rw [init_select_named hn hne hd hsub hok hidx hall]
      congr 2
      apply List.ext_getElem
      · unfold panFillMissing; rw [withDefaults_eq _ hdn]; simp
      · intro i g1 g2
        have hi1 : i < (panFillMissing c missing v).rows.length := by simpa using g1
        have hi2 : i < v.rows.length := by simpa using g2
        simp only [List.getElem_map]
        apply List.map_congr_left
        intro f hf
        have hcells := withDefaults_cells (c := { c with defaults := missing.filterMap (fun f => (PyDict.get? c.defaults f).map (fun d => (f, d))) })
          hdn hv i _ _ (List.getElem?_eq_getElem hi2) (List.getElem?_eq_getElem hi1)
        unfold fileCell
        by_cases hc : Label.name f ∈ v.cols
        · rw [if_pos hc]; exact hcells.1 _ hc
        · rw [if_neg hc]
          have hfm : f ∈ missing := (hm.2 f).2 ⟨hf, hc⟩
          have hfd : f ∈ PyDict.keys c.defaults := by
            rcases hF f hf with h | ⟨_, h⟩
            · exact absurd h hc
            · exact h
          have := hcells.2 f hc (by
            show f ∈ PyDict.keys (missing.filterMap _)
            rw [fillDict_keys, List.mem_filter, hkey]; exact ⟨hfm, hfd⟩)
          refine this.trans ?_
          show (PyDict.get? (missing.filterMap _) f).getD _ = _
          rw [fillDict_get? _ _ hm.1, if_pos hfm]
  refine ⟨?_, hgood⟩
  constructor
  · intro h
    apply Classical.byContradiction
    intro hc
    rw [hgood (fun f hf => Classical.byContradiction (fun hnf => hc ⟨f, hf, hnf⟩))] at h
    simp at h
  · rintro ⟨f, hf, hnf⟩
    unfold panReadTable
    simp only
    rw [if_neg]
    intro hall
    exact hnf ((hhas f hf).1 (List.all_eq_true.1 hall f hf))

/-- **C58, the whole object.**  Every table is read by itself: the object is refused exactly if one of the tables is; a table
that was not found is empty. -/
theorem pan_read_dat (schema : List (String × TabClass)) (hs : (schema.map Prod.fst).Nodup) (fill : Bool)
    (missing : String → List String) (found : PyDict String Frame) :
    (panReadDat schema fill missing found = none ↔
      ∃ t c v, (t, c) ∈ schema ∧ PyDict.get? found t = some v ∧ panReadTable c fill (missing t) v = none) ∧
    ∀ dat, panReadDat schema fill missing found = some dat → PyDict.keys dat = schema.map Prod.fst ∧
      ∀ t c, (t, c) ∈ schema →
        (PyDict.get? found t = none → PyDict.get? dat t = some (emptyFrame c)) ∧
        ∀ v, PyDict.get? found t = some v → PyDict.get? dat t = panReadTable c fill (missing t) v := by
  constructor
  · constructor
    · intro h
      apply Classical.byContradiction
      intro hc
      have : ∃ vs, panReadDat schema fill missing found = some vs := by
        unfold panReadDat
        apply mapM_some_of_forall
        rintro ⟨t, c⟩ htc
        simp only
        cases hf : PyDict.get? found t with
        | none => simp
        | some v =>
          cases hr : panReadTable c fill (missing t) v with
          | none => exact absurd ⟨t, c, v, htc, hf, hr⟩ hc
          | some w => simp [hr]
      obtain ⟨vs, hvs⟩ := this
      rw [hvs] at h
      simp at h
    · rintro ⟨t, c, v, htc, hf, hr⟩
      exact mapM_none_of htc (by simp [hf, hr])
  · intro dat hdat
    unfold panReadDat at hdat
    rw [mapM_eq_some_iff] at hdat
    have hkeys : PyDict.keys dat = schema.map Prod.fst := by
      have hlen : schema.length = dat.length := by simpa using congrArg List.length hdat
      unfold PyDict.keys
      apply List.ext_getElem
      · simp [hlen]
      · intro i h1 h2
        have h2' : i < schema.length := by simpa using h2
        have := congrArg (fun l => l[i]?) hdat
        simp only [List.getElem?_map, List.getElem?_eq_getElem h2', List.getElem?_eq_getElem (hlen ▸ h2'),
          Option.map_some, Option.some.injEq] at this
        simp only [List.getElem_map]
        split at this
        · rw [← Option.some.inj this]
        · obtain ⟨w, _, e⟩ := Option.map_eq_some_iff.1 this
          rw [← e]
    refine ⟨hkeys, ?_⟩
    have hnd : (PyDict.keys dat).Nodup := hkeys ▸ hs
    intro t c htc
    have hin : ∃ e ∈ dat, (match PyDict.get? found t with
        | none => some (t, emptyFrame c)
        | some v => (panReadTable c fill (missing t) v).map (fun w => (t, w))) = some e := by
      have : (match PyDict.get? found t with
        | none => some (t, emptyFrame c)
        | some v => (panReadTable c fill (missing t) v).map (fun w => (t, w))) ∈ dat.map some := by
        rw [← hdat]; exact List.mem_map.2 ⟨(t, c), htc, rfl⟩
      obtain ⟨e, he, h⟩ := List.mem_map.1 this
      exact ⟨e, he, h.symm⟩
    obtain ⟨e, he, h⟩ := hin
    constructor
    · intro hf
      simp only [hf, Option.some.injEq] at h
      subst h
      exact PyDict.get?_of_mem hnd he
    · intro v hf
      simp only [hf] at h
      obtain ⟨w, hw, e'⟩ := Option.map_eq_some_iff.1 h
      subst e'
      rw [hw]
      exact PyDict.get?_of_mem hnd he

/-! ## List of lists -/

theorem foldl_max_le {A : Type} (rows : List (List A)) (k : Nat) :
    k ≤ rows.foldl (fun n r => max n r.length) k ∧ (∀ r ∈ rows, r.length ≤ rows.foldl (fun n r => max n r.length) k) ∧
    (rows.foldl (fun n r => max n r.length) k = k ∨ ∃ r ∈ rows, r.length = rows.foldl (fun n r => max n r.length) k) := by
  induction rows generalizing k with
  | nil => simp
  | cons r rows ih =>
    obtain ⟨h1, h2, h3⟩ := ih (max k r.length)
    rw [List.foldl_cons]
    refine ⟨by omega, ?_, ?_⟩
    · intro x hx
      rcases List.mem_cons.1 hx with e | h
      · subst e; omega
      · exact h2 x h
    · rcases h3 with h | ⟨x, hx, h⟩
      · rcases Nat.le_total r.length k with g | g
        · left; rw [h]; omega
        · right; exact ⟨r, List.mem_cons_self, by omega⟩
      · exact .inr ⟨x, List.mem_cons_of_mem _ hx, h⟩

theorem idxOf_getElem_nodup {l : List String} (hn : l.Nodup) (i : Nat) (h : i < l.length) : l.idxOf l[i] = i := by
  induction l generalizing i with
  | nil => simp at h
  | cons a l ih =>
    obtain ⟨h1, h2⟩ := List.nodup_cons.1 hn
    cases i with
    | zero => simp
    | succ i =>
      have hlt : i < l.length := by simpa using h
      have hne : a ≠ l[i] := fun e => h1 (e ▸ List.getElem_mem hlt)
      rw [List.getElem_cons_succ, List.idxOf_cons]
      rw [beq_eq_false_iff_ne.2 hne, ih h2 i hlt]; rfl

/-- **C58, list of lists.**  A table of json rows without field names is refused exactly if it has rows and all of them are
too short; otherwise each row gives its first values to the fields in order, and `None` to the fields it is too short for. -/
theorem pan_read_lol (c : TabClass) (hn : c.fields.Nodup) (hne : c.fields ≠ []) (hd : (PyDict.keys c.defaults).Nodup)
    (hsub : ∀ f ∈ PyDict.keys c.defaults, f ∈ c.fields) (rows : List (List Cell)) :
    (panReadLol c rows = none ↔ rows ≠ [] ∧ ∀ r ∈ rows, r.length < c.fields.length) ∧
    (rows = [] ∨ (∃ r ∈ rows, c.fields.length ≤ r.length) → panReadLol c rows =
      some (plainFrame c.fields (rows.map (fun r => (List.range c.fields.length).map (fun i => (r[i]?).getD .none))))) := by
  have hlen : 0 < c.fields.length := List.length_pos_iff.2 hne
  have hw := foldl_max_le rows 0
  have hok : FrameOK (lolFrame rows) := by
    refine ⟨?_, List.nodup_nil, ?_⟩
    · unfold lolFrame
      rw [List.nodup_iff_pairwise_ne, List.pairwise_map]
      exact List.nodup_range.imp (fun h e => h (by injection e))
    · intro r hr
      unfold lolFrame at hr
      obtain ⟨x, hx, e⟩ := List.mem_map.1 hr
      subst e
      have := hw.2.1 x hx
      simp only [lolFrame, List.length_nil, List.length_append, List.length_replicate, List.length_map, List.length_range, true_and]
      omega
  have hnum : Numbered (lolFrame rows) := by simp [Numbered, lolFrame]
  have hni : ¬ PanIndexed c (lolFrame rows) := not_indexed_of_nil rfl
  have hcl : (lolFrame rows).cols.length = rows.foldl (fun n r => max n r.length) 0 := by simp [lolFrame]
  have hfits : rows ≠ [] → (PanFits c (lolFrame rows) ↔ ∃ r ∈ rows, c.fields.length ≤ r.length) := by
    intro _
    unfold PanFits
    simp only [hni, hnum, false_and, not_false_iff, true_and, not_true, and_false, or_false, false_or, hcl]
    constructor
    · intro h
      rcases hw.2.2 with g | ⟨r, hr, g⟩
      · omega
      · exact ⟨r, hr, by omega⟩
    · rintro ⟨r, hr, h⟩
      have := hw.2.1 r hr
      omega
  have hgood : rows = [] ∨ (∃ r ∈ rows, c.fields.length ≤ r.length) → panReadLol c rows =
      some (plainFrame c.fields (rows.map (fun r => (List.range c.fields.length).map (fun i => (r[i]?).getD .none)))) := by
    intro h
    unfold panReadLol
    by_cases hr : rows = []
    · subst hr; rfl
    · rw [if_neg hr]
      have hex : ∃ r ∈ rows, c.fields.length ≤ r.length := h.resolve_left hr
      rw [init_select hn hd hsub hok rfl ((hfits hr).2 hex)]
      have hwide : c.fields.length ≤ rows.foldl (fun n r => max n r.length) 0 := by
        obtain ⟨r, hr, g⟩ := hex
        exact Nat.le_trans g (hw.2.1 r hr)
      congr 2
      unfold lolFrame
      simp only [List.map_map]
      apply List.map_congr_left
      intro r hr
      apply List.ext_getElem
      · simp
      · intro i g1 g2
        have hi : i < c.fields.length := by simpa using g1
        simp only [List.getElem_map, Function.comp_apply, List.getElem_range]
        have hni' := hni
        have hnum' := hnum
        unfold lolFrame at hni' hnum'
        simp only [panCell, hni', false_and, if_false, not_false_iff, hnum', and_self, if_true,
          idxOf_getElem_nodup hn i hi]
        by_cases hir : i < r.length
        · rw [List.getElem?_append_left hir, List.getElem?_eq_getElem hir]; rfl
        · have := hw.2.1 r hr
          rw [List.getElem?_append_right (by omega), List.getElem?_replicate, if_pos (by omega),
            List.getElem?_eq_none (by omega)]
          rfl
  refine ⟨?_, hgood⟩
  constructor
  · intro h
    have hc : ¬ (rows = [] ∨ ∃ r ∈ rows, c.fields.length ≤ r.length) := by
      intro hc; rw [hgood hc] at h; simp at h
    refine ⟨fun e => hc (.inl e), fun r hr => ?_⟩
    apply Classical.byContradiction
    intro hlt
    exact hc (.inr ⟨r, hr, by omega⟩)
  · rintro ⟨hr, hall⟩
    unfold panReadLol
    rw [if_neg hr]
    have hnf : ¬ PanFits c (lolFrame rows) := by
      rw [hfits hr]
      rintro ⟨r, h1, h2⟩
      have := hall r h1
      omega
    have := (pan_init_iff c hn hd hsub _ hok).1
    cases hp : panInit c (lolFrame rows) with
    | none => rfl
    | some u => exact absurd (this.1 (by rw [hp]; simp)) hnf

end Ticdat

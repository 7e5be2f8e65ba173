import Verif.Spec.AmplData
import Verif.Props.ToPandas
import Verif.Props.Init
import Verif.Props.Copy
/-!
# C70: copying AMPL variables into a data object
-/
set_option linter.unusedSectionVars false
set_option linter.unusedSimpArgs false
namespace Ticdat
open Spec PyDict

/-! ### Keys -/

theorem keyCells_indexKey (l : List Cell) : keyCells (indexKey l) = l := by
  unfold indexKey
  split <;> rfl

theorem indexKey_inj {a b : List Cell} (h : indexKey a = indexKey b) : a = b := by
  rw [← keyCells_indexKey a, h, keyCells_indexKey]

theorem indexKey_shape (l : List Cell) (n : Nat) (h : l.length = n) : KeyShape n (indexKey l) := by
  unfold indexKey
  split
  · exact h.symm
  · rename_i hne
    refine ⟨h.symm, fun e => ?_⟩
    rw [e] at h
    obtain ⟨q, hq⟩ := List.length_eq_one_iff.mp h
    exact hne q hq

theorem keyOK_of_shape {n : Nat} {k : KeyArg} (h : KeyShape n k) (hn : n ≠ 0) : keyOK n k = true := by
  cases k with
  | one v =>
    have : n = 1 := h
    subst this
    rfl
  | tup vs =>
    obtain ⟨h1, h2⟩ := h
    simp only [keyOK, ← h1]
    simp
    omega

theorem passes_iff (e : AmplEntry) (x : Cell) : e.passes x = true ↔ Passing e x := by
  unfold AmplEntry.passes Passing
  cases e.filter with
  | some p => rfl
  | none =>
    simp only [Cell.pyEq, Cell.canon]
    cases x with
    | bool b => cases b <;> simp <;> decide
    | _ => simp

theorem mem_kept (e : AmplEntry) (p : List Cell × Cell) : p ∈ e.kept ↔ p ∈ e.values ∧ Passing e p.2 := by
  unfold AmplEntry.kept
  rw [List.mem_filter, passes_iff]

theorem named_none (e : AmplEntry) : e.named = none ↔ KeysOnly e := by
  unfold AmplEntry.named KeysOnly
  cases e.field with
  | none => simp
  | some f => by_cases h : f = "" <;> simp [h]

theorem named_some (e : AmplEntry) (f : String) : e.named = some f ↔ e.field = some f ∧ f ≠ "" := by
  unfold AmplEntry.named
  cases e.field with
  | none => simp
  | some g =>
    by_cases h : g = ""
    · subst h
      simp only [if_true, reduceCtorEq, Option.some.injEq, false_iff, not_and, Classical.not_not]
      exact fun h => h.symm
    · simp only [h, if_false, Option.some.injEq]
      constructor
      · rintro rfl; exact ⟨rfl, h⟩
      · exact fun h => h.1

/-! ### The DataFrame of a variable -/

theorem amplFrame_ok (pks : List String) (hp : pks.Nodup) (f : String) (rows : List (List Cell × Cell))
    (hr : ∀ p ∈ rows, p.1.length = pks.length) : FrameOK (amplFrame pks f rows) := by
  refine ⟨by simp [amplFrame], hp, ?_⟩
  intro r hr'
  obtain ⟨p, hp', rfl⟩ := List.mem_map.mp hr'
  exact ⟨hr p hp', rfl⟩

/-- A class in which exactly the data fields have default values. -/
structure AmplClass (c : TabClass) : Prop where
  nodup : (c.pks ++ c.dfs).Nodup
  dict : (keys c.defaults).Nodup
  defaults : ∀ f, f ∈ keys c.defaults ↔ f ∈ c.dfs

theorem amplFrame_cell (c : TabClass) (hc : AmplClass c) (f : String) (hf : f ∈ c.dfs) (rows : List (List Cell × Cell))
    (p : List Cell × Cell) :
    (∀ g ∈ c.dfs, frameCell c (amplFrame c.pks f rows) (p.1, [p.2]) g = if g = f then p.2 else defaultOf c g) ∧
    (p.1.length = c.pks.length → c.pks.map (frameCell c (amplFrame c.pks f rows) (p.1, [p.2])) = p.1) := by
  have hdis : ∀ g ∈ c.pks, g ∉ c.dfs := fun g hg hd => (List.nodup_append.mp hc.nodup).2.2 g hg g hd rfl
  refine ⟨?_, ?_⟩
  · intro g hg
    unfold frameCell
    by_cases e : g = f
    · subst e
      simp [amplFrame, colCell]
    · rw [if_neg (by simp [amplFrame, e]), if_neg e]
      have : g ∈ keys c.defaults := (hc.defaults g).2 hg
      unfold defaultOf
      cases hd : get? c.defaults g with
      | none => exact absurd this ((get?_eq_none _ _).1 hd)
      | some d => rfl
  · intro hl
    have : c.pks.map (frameCell c (amplFrame c.pks f rows) (p.1, [p.2])) =
        c.pks.map (fun g => (p.1[c.pks.idxOf g]?).getD (.num (.fin 0))) := by
      apply List.map_congr_left
      intro g hg
      unfold frameCell
      rw [if_neg (by
        simp only [amplFrame, List.mem_singleton, Label.name.injEq]
        rintro rfl
        exact hdis _ hg hf)]
      rw [(get?_eq_none _ _).2 (fun h => hdis g hg ((hc.defaults g).1 h))]
      rfl
    rw [this]
    exact map_idxOf_self c.pks (List.nodup_append.mp hc.nodup).1 p.1 hl _

theorem amplFrame_fits (c : TabClass) (hc : AmplClass c) (f : String) (hf : f ∈ c.dfs) (rows : List (List Cell × Cell)) :
    FrameFits c (amplFrame c.pks f rows) ↔ "name" ∉ c.dfs ∧ ("name" ∈ c.pks → c.pks.length = 1) := by
  have hdis : ∀ g ∈ c.pks, g ∉ c.dfs := fun g hg hd => (List.nodup_append.mp hc.nodup).2.2 g hg g hd rfl
  constructor
  · rintro ⟨h1, h2, _⟩; exact ⟨h1, h2⟩
  · rintro ⟨h1, h2⟩
    refine ⟨h1, h2, fun g hg => .inr ((hc.defaults g).2 hg), .inr ⟨rfl, fun g hg h => ?_⟩⟩
    rcases h with h | h
    · simp only [amplFrame, List.mem_singleton, Label.name.injEq] at h
      subst h
      exact hdis _ hg hf
    · exact hdis g hg ((hc.defaults g).1 h)

/-- The rows of the temporary object. -/
def amplItems (c : TabClass) (f : String) (rows : List (List Cell × Cell)) : PyDict KeyArg RowVal :=
  rows.map (fun p => (indexKey p.1, dataFrom c.dfs (fun g => if g = f then p.2 else defaultOf c g)))

theorem amplBuild_eq (policy : DupPolicy) (schema : List (String × TabClass)) (hs : (schema.map Prod.fst).Nodup)
    (hn : ∀ tc ∈ schema, AmplClass tc.2) (t : String) (c : TabClass) (ht : get? schema t = some c) (hp : c.pks ≠ [])
    (f : String) (hf : f ∈ c.dfs) (rows : List (List Cell × Cell)) (hl : ∀ p ∈ rows, p.1.length = c.pks.length)
    (hr : (rows.map Prod.fst).Nodup) :
    (("name" ∉ c.dfs ∧ ("name" ∈ c.pks → c.pks.length = 1)) →
      amplBuild policy schema t (amplFrame c.pks f rows) = some (amplItems c f rows)) ∧
    (¬ ("name" ∉ c.dfs ∧ ("name" ∈ c.pks → c.pks.length = 1)) →
      amplBuild policy schema t (amplFrame c.pks f rows) = none) := by
  have hm := get?_mem ht
  have hc := hn _ hm
  have hin := init_frames policy schema hs (fun tc h => ⟨(hn tc h).nodup, (hn tc h).dict⟩) [(t, amplFrame c.pks f rows)]
    (by simp [keys]) (fun q hq => by
      rw [List.mem_singleton] at hq
      subst hq
      exact amplFrame_ok c.pks (List.nodup_append.mp hc.nodup).1 f rows hl)
  have hget : get? [(t, amplFrame c.pks f rows)] t = some (amplFrame c.pks f rows) := by simp [get?]
  have hother : ∀ tc ∈ schema, ∀ v, get? [(t, amplFrame c.pks f rows)] tc.1 = some v → tc.2 = c ∧ v = amplFrame c.pks f rows := by
    intro tc htc v hv
    have h1 := get?_mem hv
    rw [List.mem_singleton, Prod.mk.injEq] at h1
    have h2 := get?_of_mem (d := schema) (k := tc.1) (v := tc.2) hs htc
    rw [h1.1, ht] at h2
    exact ⟨(Option.some.inj h2).symm, h1.2⟩
  have hkeys : ((amplFrame c.pks f rows).rows.map (fun r => keyFrom c.pks (frameCell c (amplFrame c.pks f rows) r))) =
      rows.map (fun p => indexKey p.1) := by
    unfold amplFrame
    simp only [List.map_map]
    apply List.map_congr_left
    intro p hp'
    simp only [Function.comp]
    apply keyFrom_of_cells _ _ _ (indexKey_shape _ _ (hl p hp'))
    rw [keyCells_indexKey]
    exact (amplFrame_cell c hc f hf rows p).2 (hl p hp')
  have hnodup : (rows.map (fun p => indexKey p.1)).Nodup := by
    have : rows.map (fun p => indexKey p.1) = (rows.map Prod.fst).map indexKey := by rw [List.map_map]; rfl
    rw [this]
    exact List.Pairwise.map _ (fun _ _ hab e => hab (indexKey_inj e)) hr
  constructor
  · intro hname
    have hok : initFrames policy schema [(t, amplFrame c.pks f rows)] ≠ none := by
      rw [hin.1]
      refine ⟨fun x hx => ?_, fun tc htc v hv => ?_⟩
      · simp only [keys, List.map_cons, List.map_nil, List.mem_singleton] at hx
        subst hx
        exact List.mem_map.2 ⟨_, hm, rfl⟩
      · obtain ⟨rfl, rfl⟩ := hother tc htc v hv
        refine ⟨(amplFrame_fits _ hc f hf rows).2 hname, fun _ _ => ?_⟩
        rw [hkeys]
        exact hnodup
    obtain ⟨tabs, htabs⟩ := Option.ne_none_iff_exists'.mp hok
    obtain ⟨_, h2⟩ := hin.2 tabs htabs
    obtain ⟨tab, h3, _, h4⟩ := h2 _ hm
    have h5 := h4 _ hget
    unfold TableOfRows at h5
    rw [if_neg hp] at h5
    obtain ⟨d, rfl, _, _, h6⟩ := h5
    have h7 := h6 (by rw [hkeys]; exact hnodup)
    unfold amplBuild
    rw [htabs]
    simp only [Option.bind_some]
    simp only at h3
    rw [h3]
    simp only [Option.some.injEq]
    rw [h7]
    unfold amplItems
    have e1 : (amplFrame c.pks f rows).rows = rows.map (fun p => (p.1, [p.2])) := rfl
    rw [e1, List.map_map]
    apply List.map_congr_left
    intro p hp'
    simp only [Function.comp, Prod.mk.injEq]
    refine ⟨?_, ?_⟩
    · apply keyFrom_of_cells _ _ _ (indexKey_shape _ _ (hl p hp'))
      rw [keyCells_indexKey]
      exact (amplFrame_cell c hc f hf rows p).2 (hl p hp')
    · unfold dataFrom
      apply List.map_congr_left
      intro g hg
      rw [(amplFrame_cell c hc f hf rows p).1 g hg]
  · intro hname
    have : initFrames policy schema [(t, amplFrame c.pks f rows)] = none := by
      refine Classical.byContradiction (fun hne => hname ?_)
      have := (hin.1.1 hne).2 _ hm _ hget
      exact (amplFrame_fits _ hc f hf rows).1 this.1
    unfold amplBuild
    rw [this]
    rfl

/-! ### Filling a table -/

theorem initRow_default (c : TabClass) (hn : c.dfs.Nodup) : initRow c (.dict []) = some (filledRow c []) := by
  rw [initRow_iff c hn (.dict []) (by simp [DictRow, keys])]
  exact ⟨fun f hf => absurd hf (by simp [keys]), rfl⟩

theorem amplRow_eq (c : TabClass) (hn : c.dfs.Nodup) (hp : c.pks ≠ []) (d : PyDict KeyArg RowVal) (k : KeyArg)
    (hk : KeyShape c.pks.length k) : amplRow c d k = some ((get? d k).getD (filledRow c [])) := by
  unfold amplRow
  cases get? d k with
  | some row => rfl
  | none =>
    simp only
    rw [if_pos (show keyOK c.pkLen k = true from keyOK_of_shape hk (by simpa [TabClass.pkLen] using hp)), initRow_default c hn]
    rfl

theorem fold_put (c : TabClass) (hn : c.dfs.Nodup) (hp : c.pks ≠ []) (f : String) (rows : List (KeyArg × Cell))
    (hk : (rows.map Prod.fst).Nodup) (hs : ∀ p ∈ rows, KeyShape c.pks.length p.1) (d : PyDict KeyArg RowVal)
    (hd : (keys d).Nodup) :
    ∃ d', rows.foldlM (fun d p => amplPut c f d p.1 p.2) d = some d' ∧ (keys d').Nodup ∧
      ∀ k, get? d' k = match get? rows k with
        | some x => some (PyDict.set ((get? d k).getD (filledRow c [])) f x)
        | none => get? d k := by
  induction rows generalizing d with
  | nil => exact ⟨d, rfl, hd, fun k => rfl⟩
  | cons p rows ih =>
    obtain ⟨k0, x0⟩ := p
    rw [List.map_cons, List.nodup_cons] at hk
    have e := amplRow_eq c hn hp d k0 (hs _ List.mem_cons_self)
    obtain ⟨d', h1, h2, h3⟩ := ih hk.2 (fun p hp => hs p (List.mem_cons_of_mem _ hp))
      (PyDict.set d k0 (PyDict.set ((get? d k0).getD (filledRow c [])) f x0)) (keys_set_nodup _ _ _ hd)
    refine ⟨d', ?_, h2, fun k => ?_⟩
    · rw [List.foldlM_cons]
      unfold amplPut
      rw [e]
      exact h1
    · rw [h3 k, get?_set]
      by_cases hkk : k0 = k
      · subst hkk
        have : get? rows k0 = none := (get?_eq_none _ _).2 hk.1
        rw [this]
        simp [get?]
      · rw [if_neg hkk]
        simp [get?, hkk]

theorem fold_touch (c : TabClass) (hn : c.dfs.Nodup) (hp : c.pks ≠ []) (rows : List KeyArg)
    (hs : ∀ k ∈ rows, KeyShape c.pks.length k) (d : PyDict KeyArg RowVal) (hd : (keys d).Nodup) :
    ∃ d', rows.foldlM (fun d k => amplTouch c d k) d = some d' ∧ (keys d').Nodup ∧
      ∀ k, get? d' k = if k ∈ rows then some ((get? d k).getD (filledRow c [])) else get? d k := by
  induction rows generalizing d with
  | nil => exact ⟨d, rfl, hd, fun k => rfl⟩
  | cons k0 rows ih =>
    have e := amplRow_eq c hn hp d k0 (hs _ List.mem_cons_self)
    have hstep : ∃ d1, amplTouch c d k0 = some d1 ∧ (keys d1).Nodup ∧
        ∀ k, get? d1 k = if k0 = k then some ((get? d k).getD (filledRow c [])) else get? d k := by
      unfold amplTouch
      by_cases hh : has d k0 = true
      · refine ⟨d, by rw [if_pos hh], hd, fun k => ?_⟩
        split
        · rename_i hk
          subst hk
          unfold has at hh
          cases hg : get? d k0 with
          | none => rw [hg] at hh; simp at hh
          | some r => rfl
        · rfl
      · refine ⟨PyDict.set d k0 ((get? d k0).getD (filledRow c [])), by rw [if_neg hh, e]; rfl, keys_set_nodup _ _ _ hd, fun k => ?_⟩
        rw [get?_set]
        split
        · rename_i hk; subst hk; rfl
        · rfl
    obtain ⟨d1, h1, h2, h3⟩ := hstep
    obtain ⟨d', h4, h5, h6⟩ := ih (fun p hp => hs p (List.mem_cons_of_mem _ hp)) d1 h2
    refine ⟨d', by rw [List.foldlM_cons, h1]; exact h4, h5, fun k => ?_⟩
    rw [h6 k, h3 k]
    by_cases hk : k0 = k
    · subst hk
      simp
    · have : k ∈ k0 :: rows ↔ k ∈ rows := by
        rw [List.mem_cons]
        exact ⟨fun h => h.resolve_left (fun e => hk e.symm), .inr⟩
      simp only [this, if_neg hk]

theorem keys_set_same {A B : Type} [DecidableEq A] (d : PyDict A B) (k : A) (v : B) (h : k ∈ keys d) :
    keys (PyDict.set d k v) = keys d := by
  induction d with
  | nil => exact absurd h (by simp [keys])
  | cons p d ih =>
    obtain ⟨a, b⟩ := p
    unfold PyDict.set
    by_cases e : a = k
    · simp [e, keys]
    · rw [if_neg e]
      have : k ∈ keys d := by
        simp only [keys, List.map_cons, List.mem_cons] at h
        exact h.resolve_left (fun h => e h.symm)
      simp only [keys, List.map_cons, List.cons.injEq, true_and]
      exact ih this

theorem get?_dataFrom (dfs : List String) (cell : String → Cell) (f : String) (hf : f ∈ dfs) :
    get? (dataFrom dfs cell) f = some (cell f) := by
  induction dfs with
  | nil => exact absurd hf List.not_mem_nil
  | cons g dfs ih =>
    unfold dataFrom at ih ⊢
    by_cases e : g = f
    · subst e; simp [get?]
    · simp only [List.map_cons, get?, e, if_false]
      exact ih ((List.mem_cons.1 hf).resolve_left (fun h => e h.symm))

theorem filledRow_nil (c : TabClass) : filledRow c [] = dataFrom c.dfs (defaultOf c) := by
  unfold filledRow dataFrom
  apply List.map_congr_left
  intro f _
  simp only [get?, defaultOf]
  cases get? c.defaults f <;> rfl

theorem mem_keys_iff {A B : Type} [DecidableEq A] (d : PyDict A B) (k : A) : k ∈ keys d ↔ get? d k ≠ none := by
  rw [ne_eq, get?_eq_none, Classical.not_not]

/-- The row of key `k`, present or about to be made. -/
theorem content_row {es : List AmplEntry} {t : String} {c : TabClass} {d : PyDict KeyArg RowVal} (h : AmplContent es t c d)
    (k : KeyArg) : keys ((get? d k).getD (filledRow c [])) = c.dfs ∧ ∀ f ∈ c.dfs, ∀ x,
      get? ((get? d k).getD (filledRow c [])) f = some x ↔
        Gives es t f k x ∨ ((∀ y, ¬ Gives es t f k y) ∧ x = defaultOf c f) := by
  cases hg : get? d k with
  | some row => exact ⟨h.fields k row hg, h.cells k row hg⟩
  | none =>
    refine ⟨filledRow_keys c [], fun f hf x => ?_⟩
    have hno : ∀ y, ¬ Gives es t f k y := by
      rintro y ⟨_, e, he, ht, _, p, hp, hpass, hk, _⟩
      have := (h.keys k).2 ⟨e, he, ht, p, hp, hpass, hk⟩
      rw [mem_keys_iff] at this
      exact this hg
    rw [Option.getD_none, filledRow_nil, get?_dataFrom _ _ _ hf, Option.some.injEq]
    constructor
    · rintro rfl; exact .inr ⟨hno, rfl⟩
    · rintro (h | h)
      · exact absurd h (hno x)
      · exact h.2.symm

theorem gives_append (es : List AmplEntry) (e : AmplEntry) (t f : String) (k : KeyArg) (x : Cell) :
    Gives (es ++ [e]) t f k x ↔ Gives es t f k x ∨
      (f ≠ "" ∧ e.table = t ∧ e.field = some f ∧ ∃ p ∈ e.values, Passing e p.2 ∧ indexKey p.1 = k ∧ p.2 = x) := by
  unfold Gives
  constructor
  · rintro ⟨hf, e', he', h⟩
    rcases List.mem_append.1 he' with he' | he'
    · exact .inl ⟨hf, e', he', h⟩
    · rw [List.mem_singleton] at he'
      subst he'
      exact .inr ⟨hf, h⟩
  · rintro (⟨hf, e', he', h⟩ | ⟨hf, h⟩)
    · exact ⟨hf, e', List.mem_append_left _ he', h⟩
    · exact ⟨hf, e, List.mem_append_right _ List.mem_cons_self, h⟩

theorem keys_append (es : List AmplEntry) (e : AmplEntry) (t : String) (k : KeyArg) :
    (∃ e' ∈ es ++ [e], e'.table = t ∧ ∃ p ∈ e'.values, Passing e' p.2 ∧ indexKey p.1 = k) ↔
      (∃ e' ∈ es, e'.table = t ∧ ∃ p ∈ e'.values, Passing e' p.2 ∧ indexKey p.1 = k) ∨
      (e.table = t ∧ ∃ p ∈ e.values, Passing e p.2 ∧ indexKey p.1 = k) := by
  constructor
  · rintro ⟨e', he', h⟩
    rcases List.mem_append.1 he' with he' | he'
    · exact .inl ⟨e', he', h⟩
    · rw [List.mem_singleton] at he'
      subst he'
      exact .inr h
  · rintro (⟨e', he', h⟩ | h)
    · exact ⟨e', List.mem_append_left _ he', h⟩
    · exact ⟨e, List.mem_append_right _ List.mem_cons_self, h⟩

/-- An entry that copies nothing into table `t` leaves its content. -/
theorem content_other {es : List AmplEntry} {e : AmplEntry} {t : String} {c : TabClass} {d : PyDict KeyArg RowVal}
    (h : AmplContent es t c d) (hne : e.table = t → ∀ p ∈ e.values, ¬ Passing e p.2) : AmplContent (es ++ [e]) t c d := by
  have hg : ∀ f k x, Gives (es ++ [e]) t f k x ↔ Gives es t f k x := by
    intro f k x
    rw [gives_append]
    refine ⟨fun h => h.resolve_right ?_, .inl⟩
    rintro ⟨_, ht, _, p, hp, hpass, _⟩
    exact hne ht p hp hpass
  refine ⟨h.nodup, fun k => ?_, h.fields, ?_⟩
  · rw [keys_append, h.keys k]
    refine ⟨.inl, fun h => h.resolve_right ?_⟩
    rintro ⟨ht, p, hp, hpass, _⟩
    exact hne ht p hp hpass
  · simp only [hg]
    exact h.cells

theorem content_put {es : List AmplEntry} {e : AmplEntry} {c : TabClass} {d d' : PyDict KeyArg RowVal} {f : String}
    (h : AmplContent es e.table c d) (hnew : ∀ e' ∈ es, e'.table = e.table → e'.field ≠ e.field) (hf : f ∈ c.dfs)
    (hfe : e.field = some f) (hf0 : f ≠ "") (hd' : (keys d').Nodup) (rows : List (KeyArg × Cell))
    (hrows : ∀ k x, get? rows k = some x ↔ ∃ p ∈ e.values, Passing e p.2 ∧ indexKey p.1 = k ∧ p.2 = x)
    (hg : ∀ k, get? d' k = match get? rows k with
        | some x => some (PyDict.set ((get? d k).getD (filledRow c [])) f x)
        | none => get? d k) : AmplContent (es ++ [e]) e.table c d' := by
  have hold : ∀ k x, ¬ Gives es e.table f k x := by
    rintro k x ⟨_, e', he', ht, hfld, _⟩
    exact hnew e' he' ht (by rw [hfld, hfe])
  have hgiv : ∀ g k x, Gives (es ++ [e]) e.table g k x ↔
      Gives es e.table g k x ∨ (g = f ∧ get? rows k = some x) := by
    intro g k x
    rw [gives_append, hrows]
    constructor
    · rintro (h | ⟨_, _, h2, h3⟩)
      · exact .inl h
      · rw [hfe, Option.some.injEq] at h2
        exact .inr ⟨h2.symm, h3⟩
    · rintro (h | ⟨rfl, h3⟩)
      · exact .inl h
      · exact .inr ⟨hf0, rfl, hfe, h3⟩
  refine ⟨hd', fun k => ?_, fun k row hr => ?_, fun k row hr g hgd x => ?_⟩
  · rw [keys_append, ← h.keys k, mem_keys_iff, mem_keys_iff, hg k]
    cases hk : get? rows k with
    | some x =>
      obtain ⟨p, hp, hpass, hkey, _⟩ := (hrows k x).1 hk
      exact ⟨fun _ => .inr ⟨rfl, p, hp, hpass, hkey⟩, fun _ => by simp⟩
    | none =>
      refine ⟨.inl, fun h => h.resolve_right ?_⟩
      rintro ⟨_, p, hp, hpass, hkey⟩
      have := (hrows k p.2).2 ⟨p, hp, hpass, hkey, rfl⟩
      rw [hk] at this
      cases this
  · rw [hg k] at hr
    cases hk : get? rows k with
    | some y =>
      rw [hk] at hr
      simp only [Option.some.injEq] at hr
      subst hr
      rw [keys_set_same _ _ _ (by rw [(content_row h k).1]; exact hf)]
      exact (content_row h k).1
    | none =>
      rw [hk] at hr
      exact h.fields k row hr
  · rw [hg k] at hr
    simp only [hgiv]
    cases hk : get? rows k with
    | some y =>
      rw [hk] at hr
      simp only [Option.some.injEq] at hr
      subst hr
      rw [get?_set]
      by_cases e1 : f = g
      · subst e1
        simp only [if_true, Option.some.injEq, true_and]
        constructor
        · intro e2; exact .inl (.inr e2)
        · rintro ((h1 | h1) | h1)
          · exact absurd h1 (hold k x)
          · exact h1
          · exact absurd (.inr rfl) (h1.1 y)
      · rw [if_neg e1, (content_row h k).2 g hgd x]
        have : ¬ g = f := fun e => e1 e.symm
        simp [this]
    | none =>
      rw [hk] at hr
      rw [h.cells k row hr g hgd x]
      simp

theorem content_touch {es : List AmplEntry} {e : AmplEntry} {c : TabClass} {d d' : PyDict KeyArg RowVal}
    (h : AmplContent es e.table c d) (hfe : KeysOnly e) (hd' : (keys d').Nodup) (rows : List KeyArg)
    (hrows : ∀ k, k ∈ rows ↔ ∃ p ∈ e.values, Passing e p.2 ∧ indexKey p.1 = k)
    (hg : ∀ k, get? d' k = if k ∈ rows then some ((get? d k).getD (filledRow c [])) else get? d k) :
    AmplContent (es ++ [e]) e.table c d' := by
  have hgiv : ∀ g k x, Gives (es ++ [e]) e.table g k x ↔ Gives es e.table g k x := by
    intro g k x
    rw [gives_append]
    refine ⟨fun h => h.resolve_right ?_, .inl⟩
    rintro ⟨h1, _, h2, _⟩
    rcases hfe with h3 | h3
    · rw [h3] at h2; cases h2
    · rw [h3, Option.some.injEq] at h2; exact h1 h2.symm
  refine ⟨hd', fun k => ?_, fun k row hr => ?_, fun k row hr g hgd x => ?_⟩
  · rw [keys_append, ← h.keys k, mem_keys_iff, mem_keys_iff, hg k, ← hrows k]
    by_cases hk : k ∈ rows <;> simp [hk]
  · rw [hg k] at hr
    by_cases hk : k ∈ rows
    · rw [if_pos hk, Option.some.injEq] at hr
      subst hr
      exact (content_row h k).1
    · rw [if_neg hk] at hr
      exact h.fields k row hr
  · rw [hg k] at hr
    simp only [hgiv]
    by_cases hk : k ∈ rows
    · rw [if_pos hk, Option.some.injEq] at hr
      subst hr
      exact (content_row h k).2 g hgd x
    · rw [if_neg hk] at hr
      exact h.cells k row hr g hgd x

/-! ### One entry -/

theorem goodDecl_nodup {case : CaseEnv} {pks dfs : List String} (h : goodDecl case (.fields pks dfs) = true) :
    (pks ++ dfs).Nodup ∧ ((pks ++ dfs).map (fun f => case.lower f.toList)).Nodup := by
  unfold goodDecl at h
  simp only [Bool.and_eq_true, decide_eq_true_eq] at h
  exact ⟨h.1.2, h.2⟩

theorem goodDecl_dummy {case : CaseEnv} {pks dfs : List String} (h : goodDecl case (.fields pks dfs) = true) :
    goodDecl case (.fields pks ["ticdat_dummy"]) = true ↔
      ∀ f ∈ pks, case.lower f.toList ≠ case.lower "ticdat_dummy".toList := by
  obtain ⟨h1, h2⟩ := goodDecl_nodup h
  rw [List.map_append] at h2
  unfold goodDecl
  simp only [Bool.and_eq_true, decide_eq_true_eq, List.map_append]
  constructor
  · rintro ⟨_, h3⟩ f hf
    exact (List.nodup_append.mp h3).2.2 _ (List.mem_map.2 ⟨f, hf, rfl⟩) _ (List.mem_map.2 ⟨"ticdat_dummy", List.mem_singleton.2 rfl, rfl⟩)
  · intro h3
    refine ⟨⟨by simp, List.nodup_append.mpr ⟨(List.nodup_append.mp h1).1, by simp, ?_⟩⟩,
      List.nodup_append.mpr ⟨(List.nodup_append.mp h2).1, by simp, ?_⟩⟩
    · intro a ha b hb e
      rw [List.mem_singleton] at hb
      subst e hb
      exact h3 _ ha rfl
    · intro a ha b hb
      obtain ⟨f, hf, rfl⟩ := List.mem_map.1 ha
      obtain ⟨g, hg, rfl⟩ := List.mem_map.1 hb
      rw [List.mem_singleton] at hg
      subst hg
      exact h3 f hf

theorem amplClass_of {case : CaseEnv} {schema : List (String × TabClass)} (hs : AmplSchema case schema) :
    ∀ tc ∈ schema, AmplClass tc.2 := fun tc h => ⟨(goodDecl_nodup (hs.decls tc h)).1, hs.dict tc h, hs.defaults tc h⟩

theorem dummyClass_ok {case : CaseEnv} {pks : List String} (h : goodDecl case (.fields pks ["ticdat_dummy"]) = true) :
    AmplClass (dummyClass pks) :=
  ⟨(goodDecl_nodup h).1, by simp [dummyClass, keys], fun f => by simp [dummyClass, keys]⟩

theorem amplIndex_iff (e : AmplEntry) (pks : List String) :
    amplIndex pks e.levels e.kept = true ↔
      (e.levels = pks.length ∨ (pks.length ≠ 1 ∧ ∀ p ∈ e.values, ¬ Passing e p.2)) := by
  have hk : e.kept = [] ↔ ∀ p ∈ e.values, ¬ Passing e p.2 := by
    rw [List.eq_nil_iff_forall_not_mem]
    simp only [mem_kept, not_and]
  unfold amplIndex
  by_cases h : pks.length = 1
  · simp [h]
  · simp only [h, if_false, Bool.or_eq_true, decide_eq_true_eq, hk, ne_eq, not_false_iff, true_and]
    exact or_comm

/-- What an entry for a table needs besides its table and field. -/
def EntryOK (case : CaseEnv) (c : TabClass) (e : AmplEntry) : Prop :=
  e.values ≠ [] → ("name" ∈ c.pks → c.pks.length = 1) ∧ (¬ KeysOnly e → "name" ∉ c.dfs) ∧
      (KeysOnly e → ∀ f ∈ c.pks, case.lower f.toList ≠ case.lower "ticdat_dummy".toList) ∧
      (e.levels = c.pks.length ∨ (c.pks.length ≠ 1 ∧ ∀ p ∈ e.values, ¬ Passing e p.2))

theorem kept_nodup (e : AmplEntry) (h : (e.values.map Prod.fst).Nodup) : (e.kept.map Prod.fst).Nodup :=
  List.Nodup.sublist (List.Sublist.map _ List.filter_sublist) h

theorem kept_length (e : AmplEntry) (hl : ∀ p ∈ e.values, p.1.length = e.levels) (c : TabClass)
    (h : e.levels = c.pks.length ∨ (c.pks.length ≠ 1 ∧ ∀ p ∈ e.values, ¬ Passing e p.2)) :
    ∀ p ∈ e.kept, p.1.length = c.pks.length := by
  intro p hp
  rw [mem_kept] at hp
  rcases h with h | h
  · rw [hl p hp.1, h]
  · exact absurd hp.2 (h.2 p hp.1)

theorem keptKeys_get? (e : AmplEntry) (h : (e.values.map Prod.fst).Nodup) (k : KeyArg) (x : Cell) :
    get? (e.kept.map (fun p => (indexKey p.1, p.2))) k = some x ↔
      ∃ p ∈ e.values, Passing e p.2 ∧ indexKey p.1 = k ∧ p.2 = x := by
  have hn : (keys (e.kept.map (fun p => (indexKey p.1, p.2)))).Nodup := by
    have : keys (e.kept.map (fun p => (indexKey p.1, p.2))) = (e.kept.map Prod.fst).map indexKey := by
      unfold keys
      rw [List.map_map, List.map_map]
      rfl
    rw [this]
    exact List.Pairwise.map _ (fun _ _ hab e => hab (indexKey_inj e)) (kept_nodup e h)
  rw [get?_iff_mem hn]
  constructor
  · intro hm
    obtain ⟨p, hp, e1⟩ := List.mem_map.1 hm
    rw [mem_kept] at hp
    rw [Prod.mk.injEq] at e1
    exact ⟨p, hp.1, hp.2, e1⟩
  · rintro ⟨p, hp, hpass, e1, e2⟩
    exact List.mem_map.2 ⟨p, (mem_kept e p).2 ⟨hp, hpass⟩, by rw [e1, e2]⟩

theorem amplTable_ok {case : CaseEnv} (policy : DupPolicy) {schema : List (String × TabClass)} (hs : AmplSchema case schema)
    {e : AmplEntry} {c : TabClass} (ht : get? schema e.table = some c) (hp : c.pks ≠ [])
    (hfield : KeysOnly e ∨ ∃ f ∈ c.dfs, e.field = some f) (hok : EntryOK case c e) (hi : (e.values.map Prod.fst).Nodup)
    (hl : ∀ p ∈ e.values, p.1.length = e.levels) {es : List AmplEntry} {d : PyDict KeyArg RowVal}
    (h : AmplContent es e.table c d) (hnew : ∀ e' ∈ es, e'.table = e.table → e'.field ≠ e.field) :
    ∃ d', amplTable case policy schema c e d = some d' ∧ AmplContent (es ++ [e]) e.table c d' := by
  have hm := get?_mem ht
  have hc := amplClass_of hs _ hm
  have hdn : c.dfs.Nodup := (List.nodup_append.mp hc.nodup).2.1
  unfold amplTable
  by_cases hv : e.values = []
  · rw [if_pos hv]
    exact ⟨d, rfl, content_other h (fun _ p hp => by rw [hv] at hp; exact absurd hp List.not_mem_nil)⟩
  · rw [if_neg hv]
    obtain ⟨h1, h2, h3, h4⟩ := hok hv
    rw [if_pos ((amplIndex_iff e c.pks).2 h4)]
    have hlen := kept_length e hl c h4
    cases hnm : e.named with
    | some f =>
      obtain ⟨hf1, hf0⟩ := (named_some e f).1 hnm
      have hnk : ¬ KeysOnly e := by rw [← named_none, hnm]; simp
      have hf : f ∈ c.dfs := by
        obtain ⟨g, hg, hg2⟩ := hfield.resolve_left hnk
        rw [hf1, Option.some.injEq] at hg2
        exact hg2 ▸ hg
      simp only
      rw [(amplBuild_eq policy schema hs.names (amplClass_of hs) e.table c ht hp f hf e.kept hlen (kept_nodup e hi)).1 ⟨h2 hnk, h1⟩]
      rw [Option.bind_some]
      have hfold : ∀ (l : List (List Cell × Cell)) (d : PyDict KeyArg RowVal),
          (amplItems c f l).foldlM (fun d p => (get? p.2 f).bind (fun x => amplPut c f d p.1 x)) d =
          (l.map (fun p => (indexKey p.1, p.2))).foldlM (fun d p => amplPut c f d p.1 p.2) d := by
        intro l
        induction l with
        | nil => intro d; rfl
        | cons p l ih =>
          intro d
          have e1 : amplItems c f (p :: l) =
            (indexKey p.1, dataFrom c.dfs (fun g => if g = f then p.2 else defaultOf c g)) :: amplItems c f l := rfl
          rw [e1, List.map_cons, List.foldlM_cons, List.foldlM_cons]
          simp only
          rw [get?_dataFrom _ _ _ hf]
          simp only [if_true, Option.bind_some]
          congr 1
          funext d
          exact ih d
      rw [hfold]
      obtain ⟨d', e1, e2, e3⟩ := fold_put c hdn hp f (e.kept.map (fun p => (indexKey p.1, p.2)))
        (by
          have : (e.kept.map (fun p => (indexKey p.1, p.2))).map Prod.fst = (e.kept.map Prod.fst).map indexKey := by
            rw [List.map_map, List.map_map]; rfl
          rw [this]
          exact List.Pairwise.map _ (fun _ _ hab e => hab (indexKey_inj e)) (kept_nodup e hi))
        (by
          intro q hq
          obtain ⟨p, hp, rfl⟩ := List.mem_map.1 hq
          exact indexKey_shape _ _ (hlen p hp)) d h.nodup
      exact ⟨d', e1, content_put h hnew hf hf1 hf0 e2 _ (keptKeys_get? e hi) e3⟩
    | none =>
      have hk := (named_none e).1 hnm
      have hgd : goodDecl case (.fields c.pks ["ticdat_dummy"]) = true := (goodDecl_dummy (hs.decls _ hm)).2 (h3 hk)
      simp only
      rw [if_pos hgd]
      have hb := (amplBuild_eq .assert [(e.table, dummyClass c.pks)] (by simp) (fun tc htc => by
          rw [List.mem_singleton] at htc
          subst htc
          exact dummyClass_ok hgd) e.table (dummyClass c.pks) (by simp [get?]) hp "ticdat_dummy" (by simp [dummyClass]) e.kept hlen
          (kept_nodup e hi)).1 ⟨by simp [dummyClass], h1⟩
      have hb' : amplBuild .assert [(e.table, dummyClass c.pks)] e.table (amplFrame c.pks "ticdat_dummy" e.kept) =
        some (amplItems (dummyClass c.pks) "ticdat_dummy" e.kept) := hb
      rw [hb', Option.bind_some]
      have hfold : ∀ (l : List (List Cell × Cell)) (d : PyDict KeyArg RowVal),
          (amplItems (dummyClass c.pks) "ticdat_dummy" l).foldlM (fun d p => amplTouch c d p.1) d =
          (l.map (fun p => indexKey p.1)).foldlM (fun d k => amplTouch c d k) d := by
        intro l
        induction l with
        | nil => intro d; rfl
        | cons p l ih =>
          intro d
          have e1 : amplItems (dummyClass c.pks) "ticdat_dummy" (p :: l) =
            (indexKey p.1, dataFrom (dummyClass c.pks).dfs (fun g => if g = "ticdat_dummy" then p.2 else defaultOf (dummyClass c.pks) g)) ::
              amplItems (dummyClass c.pks) "ticdat_dummy" l := rfl
          rw [e1, List.map_cons, List.foldlM_cons, List.foldlM_cons]
          congr 1
          funext d
          exact ih d
      rw [hfold]
      obtain ⟨d', e1, e2, e3⟩ := fold_touch c hdn hp (e.kept.map (fun p => indexKey p.1))
        (by
          intro q hq
          obtain ⟨p, hp, rfl⟩ := List.mem_map.1 hq
          exact indexKey_shape _ _ (hlen p hp)) d h.nodup
      refine ⟨d', e1, content_touch h hk e2 _ (fun k => ?_) e3⟩
      rw [List.mem_map]
      constructor
      · rintro ⟨p, hp, rfl⟩
        rw [mem_kept] at hp
        exact ⟨p, hp.1, hp.2, rfl⟩
      · rintro ⟨p, hp, hpass, rfl⟩
        exact ⟨p, (mem_kept e p).2 ⟨hp, hpass⟩, rfl⟩

theorem amplTable_bad {case : CaseEnv} (policy : DupPolicy) {schema : List (String × TabClass)} (hs : AmplSchema case schema)
    {e : AmplEntry} {c : TabClass} (ht : get? schema e.table = some c) (hp : c.pks ≠ [])
    (hfield : KeysOnly e ∨ ∃ f ∈ c.dfs, e.field = some f) (hbad : ¬ EntryOK case c e) (hi : (e.values.map Prod.fst).Nodup)
    (hl : ∀ p ∈ e.values, p.1.length = e.levels) (d : PyDict KeyArg RowVal) :
    amplTable case policy schema c e d = none := by
  have hm := get?_mem ht
  unfold amplTable
  by_cases hv : e.values = []
  · exact absurd (fun h => absurd hv h) hbad
  · rw [if_neg hv]
    by_cases h4 : e.levels = c.pks.length ∨ (c.pks.length ≠ 1 ∧ ∀ p ∈ e.values, ¬ Passing e p.2)
    · rw [if_pos ((amplIndex_iff e c.pks).2 h4)]
      have hlen := kept_length e hl c h4
      cases hnm : e.named with
      | some f =>
        obtain ⟨hf1, hf0⟩ := (named_some e f).1 hnm
        have hnk : ¬ KeysOnly e := by rw [← named_none, hnm]; simp
        have hf : f ∈ c.dfs := by
          obtain ⟨g, hg, hg2⟩ := hfield.resolve_left hnk
          rw [hf1, Option.some.injEq] at hg2
          exact hg2 ▸ hg
        simp only
        rw [(amplBuild_eq policy schema hs.names (amplClass_of hs) e.table c ht hp f hf e.kept hlen (kept_nodup e hi)).2
          (fun hn => hbad (fun _ => ⟨hn.2, fun _ => hn.1, fun h => absurd h hnk, h4⟩))]
        rfl
      | none =>
        have hk := (named_none e).1 hnm
        simp only
        by_cases hgd : goodDecl case (.fields c.pks ["ticdat_dummy"]) = true
        · rw [if_pos hgd]
          have hb := (amplBuild_eq .assert [(e.table, dummyClass c.pks)] (by simp) (fun tc htc => by
            rw [List.mem_singleton] at htc
            subst htc
            exact dummyClass_ok hgd) e.table (dummyClass c.pks) (by simp [get?]) hp "ticdat_dummy" (by simp [dummyClass]) e.kept hlen
            (kept_nodup e hi)).2 (fun hn => hbad (fun _ => ⟨hn.2, fun h => absurd hk h, fun _ => (goodDecl_dummy (hs.decls _ hm)).1 hgd, h4⟩))
          have hb' : amplBuild .assert [(e.table, dummyClass c.pks)] e.table (amplFrame c.pks "ticdat_dummy" e.kept) = none := hb
          rw [hb']
          rfl
        · rw [if_neg hgd]
    · rw [if_neg (fun h => h4 ((amplIndex_iff e c.pks).1 h))]

/-! ### All entries -/

theorem amplFits_iff (case : CaseEnv) (schema : List (String × TabClass)) (e : AmplEntry) :
    AmplFits case schema e ↔ ∃ c, get? schema e.table = some c ∧ c.pks ≠ [] ∧ (KeysOnly e ∨ ∃ f ∈ c.dfs, e.field = some f) ∧
      EntryOK case c e := Iff.rfl

theorem amplTarget_iff (schema : List (String × TabClass)) (e : AmplEntry) :
    amplTarget schema e = true ↔
      ∃ c, get? schema e.table = some c ∧ c.pks ≠ [] ∧ (KeysOnly e ∨ ∃ f ∈ c.dfs, e.field = some f) := by
  unfold amplTarget
  cases hg : get? schema e.table with
  | none => simp
  | some c =>
    simp only [Bool.and_eq_true, decide_eq_true_eq, Option.some.injEq, exists_eq_left']
    cases hnm : e.named with
    | none =>
      have := (named_none e).1 hnm
      simp [this]
    | some f =>
      obtain ⟨hf1, hf0⟩ := (named_some e f).1 hnm
      have hnk : ¬ KeysOnly e := by rw [← named_none, hnm]; simp
      simp [hnk, hf1]

theorem amplStep_spec {case : CaseEnv} (policy : DupPolicy) {schema : List (String × TabClass)} (hs : AmplSchema case schema)
    {es : List AmplEntry} {e : AmplEntry} (hv : AmplVars (es ++ [e])) (htarget : amplTarget schema e = true)
    {rtn : PyDict String TabVal} (h : AmplResult schema es rtn) :
    (AmplFits case schema e → ∃ out, amplStep case policy schema rtn e = some out ∧ AmplResult schema (es ++ [e]) out) ∧
    (¬ AmplFits case schema e → amplStep case policy schema rtn e = none) := by
  obtain ⟨c, ht, hp, hfield⟩ := (amplTarget_iff schema e).1 htarget
  have hm := get?_mem ht
  obtain ⟨d, hd, hcont⟩ := h.keyed _ hm hp
  have hmem : e ∈ es ++ [e] := List.mem_append_right _ List.mem_cons_self
  have hnew : ∀ e' ∈ es, e'.table = e.table → e'.field ≠ e.field := by
    intro e' he' h1 h2
    have := hv.keys
    rw [List.map_append] at this
    exact (List.nodup_append.mp this).2.2 (e'.table, e'.field) (List.mem_map.2 ⟨e', he', rfl⟩) (e.table, e.field)
      (by simp) (by rw [h1, h2])
  unfold amplStep
  simp only at hd
  rw [ht, hd]
  simp only
  refine ⟨?_, ?_⟩
  · rintro ⟨c', ht', _, _, hok⟩
    rw [ht, Option.some.injEq] at ht'
    subst ht'
    obtain ⟨d', e1, e2⟩ := amplTable_ok policy hs ht hp hfield hok (hv.index e hmem) (hv.levels e hmem) hcont hnew
    rw [e1]
    refine ⟨_, rfl, ?_, ?_, ?_⟩
    · rw [keys_set_same _ _ _ (by rw [mem_keys_iff, hd]; simp)]
      exact h.tables
    · intro tc htc hpk
      rw [get?_set, if_neg]
      · exact h.plain tc htc hpk
      · intro e3
        have := get?_of_mem (d := schema) (k := tc.1) (v := tc.2) hs.names htc
        rw [← e3, ht, Option.some.injEq] at this
        rw [← this] at hpk
        exact hp hpk
    · intro tc htc hpk
      rw [get?_set]
      by_cases e3 : e.table = tc.1
      · rw [if_pos e3]
        have := get?_of_mem (d := schema) (k := tc.1) (v := tc.2) hs.names htc
        rw [← e3, ht, Option.some.injEq] at this
        rw [← this, ← e3]
        exact ⟨d', rfl, e2⟩
      · rw [if_neg e3]
        obtain ⟨d2, h1, h2⟩ := h.keyed tc htc hpk
        exact ⟨d2, h1, content_other h2 (fun h => absurd h e3)⟩
  · intro hbad
    rw [amplTable_bad policy hs ht hp hfield (fun hok => hbad ⟨c, ht, hp, hfield, hok⟩) (hv.index e hmem) (hv.levels e hmem) d]
    rfl

theorem amplVars_prefix {es es' : List AmplEntry} (h : AmplVars (es ++ es')) : AmplVars es :=
  ⟨by have := h.keys; rw [List.map_append] at this; exact (List.nodup_append.mp this).1,
    fun e he => h.index e (List.mem_append_left _ he), fun e he => h.levels e (List.mem_append_left _ he)⟩

theorem ampl_loop {case : CaseEnv} (policy : DupPolicy) {schema : List (String × TabClass)} (hs : AmplSchema case schema)
    (es' : List AmplEntry) : ∀ (es : List AmplEntry) (_ : AmplVars (es ++ es')) (_ : ∀ e ∈ es', amplTarget schema e = true)
    (rtn : PyDict String TabVal) (_ : AmplResult schema es rtn),
    ((∀ e ∈ es', AmplFits case schema e) → ∃ out, es'.foldlM (amplStep case policy schema) rtn = some out ∧
      AmplResult schema (es ++ es') out) ∧
    ((¬ ∀ e ∈ es', AmplFits case schema e) → es'.foldlM (amplStep case policy schema) rtn = none) := by
  induction es' with
  | nil =>
    intro es _ _ rtn h
    refine ⟨fun _ => ⟨rtn, rfl, by simpa using h⟩, fun h => absurd (fun e he => absurd he List.not_mem_nil) h⟩
  | cons e es' ih =>
    intro es hv ht rtn h
    have happ : es ++ e :: es' = (es ++ [e]) ++ es' := by simp
    rw [happ] at hv ⊢
    have hstep := amplStep_spec policy hs (amplVars_prefix hv) (ht e List.mem_cons_self) h
    rw [List.foldlM_cons]
    by_cases hfit : AmplFits case schema e
    · obtain ⟨out1, e1, h1⟩ := hstep.1 hfit
      rw [e1]
      have := ih (es ++ [e]) hv (fun e' he' => ht e' (List.mem_cons_of_mem _ he')) out1 h1
      refine ⟨fun hall => this.1 (fun e' he' => hall e' (List.mem_cons_of_mem _ he')), fun hnot => this.2 (fun hall => hnot ?_)⟩
      intro e' he'
      rcases List.mem_cons.1 he' with rfl | he'
      · exact hfit
      · exact hall e' he'
    · rw [hstep.2 hfit]
      exact ⟨fun hall => absurd (hall e List.mem_cons_self) hfit, fun _ => rfl⟩

theorem ampl_start {case : CaseEnv} {schema : List (String × TabClass)} (hs : AmplSchema case schema) :
    AmplResult schema [] (schema.map (fun tc => (tc.1, emptyTable tc.2))) := by
  have hk : keys (schema.map (fun tc => (tc.1, emptyTable tc.2))) = schema.map Prod.fst := by
    unfold keys
    rw [List.map_map]
    rfl
  have hget : ∀ tc ∈ schema, get? (schema.map (fun tc => (tc.1, emptyTable tc.2))) tc.1 = some (emptyTable tc.2) := by
    intro tc htc
    exact get?_of_mem (by rw [hk]; exact hs.names) (List.mem_map.2 ⟨tc, htc, rfl⟩)
  refine ⟨hk, fun tc htc hp => by rw [hget tc htc]; simp [emptyTable, hp], fun tc htc hp => ⟨[], by rw [hget tc htc]; simp [emptyTable, hp], ?_⟩⟩
  exact ⟨by simp [keys], fun k => by simp [keys], fun k row h => by simp [get?] at h, fun k row h => by simp [get?] at h⟩

/-- **C70.**  `copy_from_ampl_variables` makes a data object exactly when every entry fits, and the object has then the
content of the variables and nothing else. -/
theorem copy_from_ampl (case : CaseEnv) (policy : DupPolicy) (schema : List (String × TabClass)) (hs : AmplSchema case schema)
    (es : List AmplEntry) (hv : AmplVars es) :
    ((∀ e ∈ es, AmplFits case schema e) →
      ∃ out, copyFromAmpl case policy schema es = some out ∧ AmplResult schema es out) ∧
    ((¬ ∀ e ∈ es, AmplFits case schema e) → copyFromAmpl case policy schema es = none) := by
  unfold copyFromAmpl
  have hl := ampl_loop policy hs es [] hv
  by_cases ht : es.all (amplTarget schema) = true
  · rw [if_pos ht]
    have := hl (fun e he => List.all_eq_true.1 ht e he) _ (ampl_start hs)
    exact this
  · rw [if_neg ht]
    refine ⟨fun h => absurd (List.all_eq_true.2 (fun e he => ?_)) ht, fun _ => rfl⟩
    obtain ⟨c, h1, h2, h3, _⟩ := h e he
    exact (amplTarget_iff schema e).2 ⟨c, h1, h2, h3⟩

end Ticdat

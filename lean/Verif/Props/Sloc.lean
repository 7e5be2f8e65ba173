import Verif.Spec.Sloc
import Verif.Props.Slicer
import Verif.Props.Frame
import Verif.Props.TableIO
/-!
# C94: `.sloc` answers with the matching rows
-/
namespace Ticdat
open Spec

theorem isFull_iff (e : LocEntry) : e.isFull = true ↔ e = fullSlice := by
  cases e with
  | label a => simp [LocEntry.isFull, fullSlice]
  | slice a b c =>
    simp only [LocEntry.isFull, fullSlice, Bool.and_eq_true, decide_eq_true_eq, LocEntry.slice.injEq]
    constructor
    · rintro ⟨⟨rfl, rfl⟩, rfl⟩; exact ⟨rfl, rfl, rfl⟩
    · rintro ⟨rfl, rfl, rfl⟩; exact ⟨⟨rfl, rfl⟩, rfl⟩

/-- **C94, exceptions.**  Whatever `.loc` does: where it answers, `.sloc` gives the same answer; where it raises, `.sloc` raises unless the
key is a tuple with a full slice, and then the answer is an empty series. -/
theorem sloc_as_loc (loc : Loc) (s : Series) (key : LocKey) :
    (∀ r, loc s key = some r → slocGet loc s key = some r) ∧
    (slocGet loc s key = none ↔ loc s key = none ∧ ¬ ∃ es, key = .tup es ∧ fullSlice ∈ es) ∧
    (loc s key = none → ∀ r, slocGet loc s key = some r → r = []) := by
  have hfull : ∀ es : List LocEntry, es.any LocEntry.isFull = true ↔ fullSlice ∈ es := by
    intro es
    rw [List.any_eq_true]
    constructor
    · rintro ⟨e, h1, h2⟩; rw [isFull_iff] at h2; rw [← h2]; exact h1
    · intro h; exact ⟨_, h, (isFull_iff _).mpr rfl⟩
  unfold slocGet
  cases h : loc s key with
  | some r => simp
  | none =>
    cases key with
    | one e => simp
    | tup es =>
      by_cases hf : es.any LocEntry.isFull = true
      · have := (hfull es).mp hf
        simp [hf, this]
      · have : ¬ fullSlice ∈ es := fun e => hf ((hfull es).mpr e)
        simp [hf, this]

/-- **C94.**  A key with a full slice never raises: the answer is exactly the rows that agree with the key, in their order, and an empty
series if there are none. -/
theorem sloc_matches (loc : Loc) (hL : LocOK loc) (s : Series) (es : List LocEntry) (hes : PlainKey es) (hf : fullSlice ∈ es) :
    slocGet loc s (.tup es) = some (s.filter (fun p => rowMatches es p.1)) := by
  have h := sloc_as_loc loc s (.tup es)
  cases hl : loc s (.tup es) with
  | some r => rw [h.1 r hl, hL.exact s es r hes hl]
  | none =>
    have hno : s.filter (fun p => rowMatches es p.1) = [] := by
      rw [List.filter_eq_nil_iff]
      intro p hp hm
      obtain ⟨r, hr⟩ := hL.found s es hes ⟨p, hp, hm⟩
      rw [hl] at hr
      cases hr
    cases hg : slocGet loc s (.tup es) with
    | none => exact absurd ⟨es, rfl, hf⟩ (h.2.1.mp hg).2
    | some r => rw [h.2.2 hl r hg, hno]

/-- **C94, finding.**  A key that is too long for the index is a mistake, but with a full slice in it the answer is an empty series. -/
theorem sloc_hides_mistakes (loc : Loc) (hL : LocOK loc) (s : Series) (n : Nat) (hs : ∀ p ∈ s, p.1.length = n)
    (es : List LocEntry) (hes : PlainKey es) (hf : fullSlice ∈ es) (hlong : n < es.length) :
    slocGet loc s (.tup es) = some [] := by
  rw [sloc_matches loc hL s es hes hf]
  congr 1
  rw [List.filter_eq_nil_iff]
  intro p hp hm
  have key : ∀ (es : List LocEntry) (l : List Cell), rowMatches es l = true → es.length ≤ l.length := by
    intro es
    induction es with
    | nil => intro l _; simp
    | cons e es ih =>
      intro l h
      cases l with
      | nil => simp [rowMatches] at h
      | cons x l =>
        have : rowMatches es l = true := by
          cases e with
          | label a => simp only [rowMatches, Bool.and_eq_true] at h; exact h.2
          | slice a b c => exact h
        have := ih l this
        simp only [List.length_cons]; omega
  have := key es p.1 hm
  rw [hs p hp] at this
  omega

theorem rowMatches_entryOf (star : Cell) (args l : List Cell) (hl : l.length = args.length) :
    rowMatches (args.map (entryOf star)) l = sliceMatches star args l := by
  induction args generalizing l with
  | nil => simp [rowMatches, sliceMatches]
  | cons a args ih =>
    cases l with
    | nil => simp at hl
    | cons x l =>
      have hl' : l.length = args.length := by simpa using hl
      have h1 := ih l hl'
      unfold sliceMatches at h1 ⊢
      rw [List.map_cons, List.zip_cons_cons, List.all_cons, ← h1]
      unfold entryOf fullSlice
      by_cases h : a = star
      · simp [h, rowMatches]
      · simp [h, rowMatches]

/-- **C94, slicers.**  `.sloc` and a `Slicer` of the labels agree on every key with a wildcard, also after any earlier calls of the
slicer. -/
theorem sloc_like_slicer (loc : Loc) (hL : LocOK loc) (s : Series) (star : Cell) (st : SlicerState Cell)
    (hst : slicerInit star (s.map Prod.fst) = some st) (args : List Cell) (hlen : ∀ p ∈ s, p.1.length = args.length)
    (hstar : star ∈ args) (hargs : ∀ a ∈ args, a = star ∨ (a ≠ .none ∧ a ≠ .nan)) (ops : List (SlicerOp Cell)) :
    (slicerRun star st (ops ++ [.slice args])).getLast? =
      some ((slocGet loc s (.tup (args.map (entryOf star)))).map (List.map Prod.fst)) := by
  rw [(slicer_answers star (s.map Prod.fst)).2 st hst, List.map_append, List.map_cons, List.map_nil, List.getLast?_concat]
  congr 1
  have hne : args ≠ [] := fun e => by rw [e] at hstar; cases hstar
  rw [sloc_matches loc hL s _ ⟨by simpa using hne, ?_⟩ ?_]
  · rw [Option.map_some]
    have hflt : (s.filter (fun p => rowMatches (args.map (entryOf star)) p.1)).map Prod.fst =
        (s.map Prod.fst).filter (sliceMatches star args) := by
      rw [List.filter_map]
      congr 1
      apply List.filter_congr
      intro p hp
      exact rowMatches_entryOf star args p.1 (hlen p hp)
    rw [hflt]
    cases s with
    | nil => rfl
    | cons p s =>
      simp only [slicerAnswer, List.map_cons]
      rw [if_pos (hlen p List.mem_cons_self).symm]
  · intro e he
    obtain ⟨a, ha, rfl⟩ := List.mem_map.mp he
    unfold entryOf
    by_cases h : a = star
    · rw [if_pos h]; exact .inl rfl
    · rw [if_neg h]
      rcases hargs a ha with h' | h'
      · exact absurd h' h
      · exact .inr ⟨a, rfl, h'⟩
  · exact List.mem_map.mpr ⟨star, hstar, by unfold entryOf; rw [if_pos rfl]⟩

/-- **C94, which columns.**  In the result of `copy_to_pandas` the columns of a table have `.sloc` exactly if the table has a primary key
of several fields, has rows, and the index was kept.  So a table without rows, for which no exceptions were to be expected, has none. -/
theorem sloc_columns (env : PandasEnv) (c : TabClass) (drop : Option Bool) (reset : Bool) (tab : TabVal) (h : WellShaped c tab)
    (v : Frame) (hv : copyToPandas env c drop reset tab = some v) (l : Label) :
    l ∈ copySlocColumns tab v ↔ tab.size ≠ 0 ∧ 2 ≤ c.pks.length ∧ reset = false ∧ l ∈ v.cols := by
  unfold copySlocColumns
  by_cases hz : tab.size = 0
  · simp [hz]
  · rw [if_neg hz]
    unfold copyToPandas at hv
    rw [if_neg hz] at hv
    simp only [Option.map_eq_some_iff] at hv
    obtain ⟨rows, _, rfl⟩ := hv
    cases tab with
    | plain rs =>
      have : c.pks = [] := h.1
      simp [this]
    | keyed d =>
      simp only [slocColumns, keyedFrame]
      cases reset with
      | true => simp
      | false =>
        simp only [Bool.false_eq_true, if_false]
        by_cases hd : drop.getD (decide (c.dfs ≠ [])) = true
        · rw [if_pos hd]
          by_cases h2 : 2 ≤ c.pks.length
          · simp [h2, hz]
          · simp [h2]
        · rw [if_neg hd]
          by_cases h2 : 2 ≤ c.pks.length
          · simp [h2, hz]
          · simp [h2]

theorem sloc_filterMap_congr {A B : Type} {f g : A → Option B} {l : List A} (h : ∀ x ∈ l, f x = g x) :
    l.filterMap f = l.filterMap g := by
  induction l with
  | nil => rfl
  | cons a l ih =>
    rw [List.filterMap_cons, List.filterMap_cons, h a List.mem_cons_self, ih (fun x hx => h x (List.mem_cons_of_mem _ hx))]

/-- **C94, from the table.**  For a table with a primary key, copied by a pandas that keeps the values: the column of a data field holds, in
the order of the rows, the key and the value of each row; so slicing it with full slices gives the values of exactly the rows whose
keys agree. -/
theorem sloc_of_table (loc : Loc) (hL : LocOK loc) (env : PandasEnv) (hE : ∀ rows, env.store rows = rows) (c : TabClass)
    (hn : c.fields.Nodup) (d : PyDict KeyArg RowVal) (h : WellShaped c (.keyed d)) (hne : d ≠ []) (hpk : 2 ≤ c.pks.length) (v : Frame)
    (hv : copyToPandas env c (some true) false (.keyed d) = some v) (j : Nat) (f : String) (hf : c.dfs[j]? = some f)
    (es : List LocEntry) (hes : PlainKey es) (hfull : fullSlice ∈ es) :
    v.cols[j]? = some (.name f) ∧ Label.name f ∈ copySlocColumns (.keyed d) v ∧
    slocGet loc (v.series j) (.tup es) = some ((d.filter (fun p => rowMatches es (keyCells p.1))).filterMap (fun p =>
      (PyDict.get? p.2 f).map (fun x => (keyCells p.1, x)))) := by
  have hdn : c.dfs.Nodup := (List.nodup_append.mp hn).2.1
  have hcols := sloc_columns env c (some true) false (.keyed d) h v hv (.name f)
  have hz : (TabVal.keyed d).size ≠ 0 := by
    cases d with
    | nil => exact absurd rfl hne
    | cons p d => simp [TabVal.size]
  unfold copyToPandas at hv
  rw [if_neg hz, flatRows_eq c hdn _ h, Option.map_some] at hv
  simp only [hE, keyedFrame, Bool.false_eq_true, if_false, Option.getD_some, if_true, Option.some.injEq] at hv
  subst hv
  refine ⟨by simp [hf], hcols.mpr ⟨hz, hpk, rfl, List.mem_map.mpr ⟨f, List.mem_of_getElem? hf, rfl⟩⟩, ?_⟩
  rw [sloc_matches loc hL _ es hes hfull]
  congr 1
  have hser : Frame.series ⟨c.pks, c.dfs.map .name, (tabRows (.keyed d)).map (fun r => (r.take c.pks.length, r.drop c.pks.length))⟩ j =
      d.filterMap (fun p => (PyDict.get? p.2 f).map (fun x => (keyCells p.1, x))) := by
    unfold Frame.series tabRows
    rw [List.map_map, List.filterMap_map]
    apply sloc_filterMap_congr
    intro p hp
    obtain ⟨h1, h2⟩ := h.2.2 p hp
    have h3 : (keyCells p.1).length = c.pks.length := keyCells_length _ _ h1
    have h4 : (p.2.map Prod.snd)[j]? = PyDict.get? p.2 f := by
      rw [← h2] at hf
      unfold PyDict.keys at hf
      rw [List.getElem?_map, Option.map_eq_some_iff] at hf
      obtain ⟨q, h5, h6⟩ := hf
      rw [List.getElem?_map, h5, ← h6]
      exact (PyDict.get?_of_mem (by rw [h2]; exact hdn) (List.mem_of_getElem? h5)).symm
    simp only [Function.comp_apply]
    rw [← h3, List.take_left, List.drop_left, h4]
  rw [hser]
  clear hser hcols h hz hne
  induction d with
  | nil => rfl
  | cons p d ih =>
    rw [List.filterMap_cons]
    cases hg : PyDict.get? p.2 f with
    | none =>
      by_cases hm : rowMatches es (keyCells p.1) = true
      · simp only [Option.map_none, List.filter_cons, hm, if_true, List.filterMap_cons, hg]; exact ih
      · simp only [Option.map_none, List.filter_cons, hm]; exact ih
    | some x =>
      by_cases hm : rowMatches es (keyCells p.1) = true
      · simp only [Option.map_some, List.filter_cons, hm, if_true, List.filterMap_cons, hg, ih]
      · simp only [Option.map_some, List.filter_cons, hm]; exact ih

/-! ### Non-vacuity -/

/-- A `.loc` that raises whenever no row agrees. -/
def strictLoc : Loc := fun s key =>
  match key with
  | .one _ => none
  | .tup es =>
    let r := s.filter (fun p => rowMatches es p.1)
    if r = [] then none else some r

/-- A `.loc` that never raises for tuples. -/
def lenientLoc : Loc := fun s key =>
  match key with
  | .one _ => none
  | .tup es => some (s.filter (fun p => rowMatches es p.1))

theorem strictLoc_ok : LocOK strictLoc where
  exact := by
    intro s es r _ h
    simp only [strictLoc] at h
    split at h
    · cases h
    · exact (Option.some.inj h).symm
  found := by
    rintro s es _ ⟨p, hp, hm⟩
    refine ⟨_, if_neg ?_⟩
    intro e
    rw [List.filter_eq_nil_iff] at e
    exact e p hp hm

theorem lenientLoc_ok : LocOK lenientLoc where
  exact := by intro s es r _ h; exact (Option.some.inj h).symm
  found := by rintro s es _ _; exact ⟨_, rfl⟩

/-- The columns of the example table. -/
def slocSeries : Series :=
  [([.str "a", .str "x"], .num (.fin 1)), ([.str "a", .str "y"], .num (.fin 2)), ([.str "b", .str "x"], .num (.fin 3))]

theorem slocKey_plain (a : String) : PlainKey [fullSlice, .label (.str a)] :=
  ⟨by simp, by
    intro e he
    rcases List.mem_cons.mp he with h | h
    · exact .inl h
    · rw [List.mem_singleton.mp h]; exact .inr ⟨_, rfl, by simp, by simp⟩⟩

example : slocGet strictLoc slocSeries (.tup [fullSlice, .label (.str "x")]) =
      some [([.str "a", .str "x"], .num (.fin 1)), ([.str "b", .str "x"], .num (.fin 3))] ∧
    slocGet strictLoc slocSeries (.tup [fullSlice, .label (.str "z")]) = some [] ∧
    slocGet strictLoc slocSeries (.tup [.label (.str "c"), .label (.str "x")]) = none := by
  refine ⟨?_, ?_, by decide +kernel⟩
  · rw [sloc_matches _ strictLoc_ok _ _ (slocKey_plain "x") (by simp)]; decide +kernel
  · rw [sloc_matches _ strictLoc_ok _ _ (slocKey_plain "z") (by simp)]; decide +kernel

example : slocGet strictLoc slocSeries (.tup [fullSlice, fullSlice, .label (.str "z")]) = some [] :=
  sloc_hides_mistakes _ strictLoc_ok slocSeries 2 (by decide) _
    ⟨by simp, by
      intro e he
      simp only [List.mem_cons, List.not_mem_nil, or_false] at he
      rcases he with rfl | rfl | rfl
      · exact .inl rfl
      · exact .inl rfl
      · exact .inr ⟨_, rfl, by simp, by simp⟩⟩ (by simp) (by simp)

example (ops : List (SlicerOp Cell)) : (slicerRun (.str "*") ⟨slocSeries.map Prod.fst, []⟩ (ops ++ [.slice [.str "*", .str "x"]])).getLast? =
    some (some [[.str "a", .str "x"], [.str "b", .str "x"]]) := by
  rw [sloc_like_slicer strictLoc strictLoc_ok slocSeries (.str "*") _ (by rfl) [.str "*", .str "x"] (by decide +kernel) (by simp)
    (by decide +kernel) ops]
  decide +kernel

/-- Without rows there is no `.sloc`, with a row there is. -/
example : copySlocColumns (.keyed []) ⟨[], [.name "k", .name "l", .name "v"], []⟩ = [] ∧
    copySlocColumns (.keyed [(.tup [.str "a", .str "x"], [("v", .num (.fin 1))])]) ⟨["k", "l"], [.name "v"],
      [([.str "a", .str "x"], [.num (.fin 1)])]⟩ = [.name "v"] := by decide +kernel

example : ∃ v, copyToPandas ⟨id⟩ ⟨["k", "l"], ["v"], []⟩ (some true) false (.keyed [(.tup [.str "a", .str "x"], [("v", .num (.fin 1))]),
      (.tup [.str "b", .str "y"], [("v", .num (.fin 2))])]) = some v ∧
    slocGet strictLoc (v.series 0) (.tup [fullSlice, .label (.str "y")]) = some [([.str "b", .str "y"], .num (.fin 2))] := by
  refine ⟨_, rfl, ?_⟩
  rw [(sloc_of_table strictLoc strictLoc_ok ⟨id⟩ (fun _ => rfl) ⟨["k", "l"], ["v"], []⟩ (by decide) [(.tup [.str "a", .str "x"],
    [("v", .num (.fin 1))]), (.tup [.str "b", .str "y"], [("v", .num (.fin 2))])] ?_ (by simp) (by simp) _ rfl 0 "v" rfl _
    (slocKey_plain "y") (by simp)).2.2]
  · decide +kernel
  · refine ⟨by simp, by decide, ?_⟩
    intro p hp
    simp at hp
    rcases hp with rfl | rfl <;> exact ⟨⟨rfl, by decide⟩, rfl⟩

end Ticdat

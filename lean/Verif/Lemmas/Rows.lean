import Verif.Model.Rows
/-!
# Lemmas about the row factory
-/
namespace Ticdat
set_option linter.unusedSimpArgs false

theorem idxOf_inj {l : List String} {f g : String} (hf : f ∈ l) (h : l.idxOf f = l.idxOf g) : f = g := by
  have h1 : l.idxOf f < l.length := List.idxOf_lt_length_iff.mpr hf
  have h2 : l.idxOf g < l.length := h ▸ h1
  have e1 := List.getElem_idxOf h1
  have e2 := List.getElem_idxOf h2
  rw [← e1, ← e2]
  congr 1

theorem length_setField (dfs : List String) (data : List Cell) (f : String) (v : Cell) :
    (setField dfs data f v).length = data.length := by simp [setField]

theorem setField_get? {dfs : List String} {data : List Cell} (hlen : data.length = dfs.length) {f g : String}
    (hf : f ∈ dfs) (v : Cell) :
    (setField dfs data f v)[dfs.idxOf g]? = if f = g then some v else data[dfs.idxOf g]? := by
  have h1 : dfs.idxOf f < dfs.length := List.idxOf_lt_length_iff.mpr hf
  unfold setField
  rw [List.getElem?_set]
  by_cases hfg : f = g
  · subst hfg; simp [hlen, h1]
  · have : dfs.idxOf f ≠ dfs.idxOf g := fun h => hfg (idxOf_inj hf h)
    simp [this, hfg]

/-- Writing a list of (field, value) pairs: the last value for a field wins. -/
theorem foldl_setField_get? {dfs : List String} (l : PyDict String Cell) (hl : ∀ p ∈ l, p.1 ∈ dfs)
    (hn : (PyDict.keys l).Nodup) :
    ∀ (data : List Cell), data.length = dfs.length → ∀ g,
      (l.foldl (fun acc p => setField dfs acc p.1 p.2) data)[dfs.idxOf g]? =
        match PyDict.get? l g with
        | some v => some v
        | none => data[dfs.idxOf g]? := by
  induction l with
  | nil => intro data _ g; rfl
  | cons p rest ih =>
    intro data hlen g
    have hp : p.1 ∈ dfs := hl p (by simp)
    simp only [PyDict.keys, List.map_cons, List.nodup_cons] at hn
    have hlen' : (setField dfs data p.1 p.2).length = dfs.length := by rw [length_setField, hlen]
    have hih := ih (fun q hq => hl q (by simp [hq])) hn.2 (setField dfs data p.1 p.2) hlen' g
    simp only [List.foldl_cons]
    rw [hih, setField_get? hlen hp]
    simp only [PyDict.get?]
    by_cases hg : p.1 = g
    · subst hg
      have : PyDict.get? rest p.1 = none := (PyDict.get?_eq_none _ _).mpr hn.1
      simp [this]
    · simp [hg]

theorem length_foldl_setField {dfs : List String} (l : PyDict String Cell) :
    ∀ (data : List Cell), (l.foldl (fun acc p => setField dfs acc p.1 p.2) data).length = data.length := by
  induction l with
  | nil => intro _; rfl
  | cons p rest ih => intro data; rw [List.foldl_cons, ih, length_setField]

/-- The step of the defaults loop (utils.py:1071-1073). -/
def defaultStep (c : TabClass) (acc : List Cell) (f : String) : List Cell :=
  match PyDict.get? c.defaults f with
  | some v => setField c.dfs acc f v
  | none => acc

theorem length_defaultStep (c : TabClass) (acc : List Cell) (f : String) :
    (defaultStep c acc f).length = acc.length := by
  unfold defaultStep
  split
  · exact length_setField _ _ _ _
  · rfl

theorem foldl_defaultStep_length (c : TabClass) (l : List String) :
    ∀ acc, (l.foldl (defaultStep c) acc).length = acc.length := by
  induction l with
  | nil => intro _; rfl
  | cons f rest ih => intro acc; rw [List.foldl_cons, ih, length_defaultStep]

theorem foldl_defaultStep_get? (c : TabClass) (l : List String) (hl : ∀ f ∈ l, f ∈ c.dfs) :
    ∀ acc : List Cell, acc.length = c.dfs.length → ∀ g,
      (l.foldl (defaultStep c) acc)[c.dfs.idxOf g]? =
        if g ∈ l ∧ (PyDict.get? c.defaults g).isSome then PyDict.get? c.defaults g else acc[c.dfs.idxOf g]? := by
  induction l with
  | nil => intro acc _ g; simp
  | cons f rest ih =>
    intro acc hlen g
    rw [List.foldl_cons, ih (fun x hx => hl x (by simp [hx])) _ (by rw [length_defaultStep, hlen])]
    have hf : f ∈ c.dfs := hl f (by simp)
    have key : (defaultStep c acc f)[c.dfs.idxOf g]? =
        if f = g ∧ (PyDict.get? c.defaults g).isSome then PyDict.get? c.defaults g else acc[c.dfs.idxOf g]? := by
      unfold defaultStep
      cases hd : PyDict.get? c.defaults f with
      | none =>
        by_cases hfg : f = g
        · subst hfg; simp [hd]
        · simp [hfg]
      | some v =>
        simp only
        rw [setField_get? hlen hf]
        by_cases hfg : f = g
        · subst hfg; simp [hd]
        · simp [hfg]
    rw [key]
    by_cases hfg : f = g
    · subst hfg
      by_cases hs : (PyDict.get? c.defaults f).isSome = true <;> by_cases hr : f ∈ rest <;> simp [hs, hr]
    · have : g ≠ f := fun h => hfg h.symm
      simp [hfg, this]

/-- Aligned lists: reading field by field. -/
theorem zip_eq_map {dfs : List String} (hn : dfs.Nodup) : ∀ {data : List Cell}, data.length = dfs.length →
    dfs.zip data = dfs.map (fun f => (f, (data[dfs.idxOf f]?).getD Cell.zero)) := by
  intro data hlen
  apply List.ext_getElem
  · simp [hlen]
  · intro i h1 h2
    simp only [List.length_zip, List.length_map, hlen, Nat.min_self] at h1 h2
    rw [List.getElem_zip, List.getElem_map, hn.idxOf_getElem i h2]
    simp [hlen, h2]

end Ticdat

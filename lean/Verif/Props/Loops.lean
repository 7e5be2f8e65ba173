import Verif.Props.ParamTable
/-!
# The loops over all tables
-/
namespace Ticdat
open Spec

theorem write_all {K V : Type} [DecidableEq K] (name : String × TabClass → K) (content : String × TabClass → Option V)
    (P : String × TabClass → V → Prop) (s : List (String × TabClass)) (hn : (s.map name).Nodup)
    (hw : ∀ tc ∈ s, ∃ v, content tc = some v ∧ P tc v) (dir : PyDict K V) (hd : (PyDict.keys dir).Nodup) :
    ∃ dir', writeAll name content s dir = some dir' ∧ (PyDict.keys dir').Nodup ∧
      (∀ tc ∈ s, ∃ v, PyDict.get? dir' (name tc) = some v ∧ content tc = some v ∧ P tc v) ∧
      ∀ k, (∀ tc ∈ s, k ≠ name tc) → PyDict.get? dir' k = PyDict.get? dir k := by
  induction s generalizing dir with
  | nil => exact ⟨dir, rfl, hd, by simp, by simp⟩
  | cons tc rest ih =>
    rw [List.map_cons, List.nodup_cons] at hn
    obtain ⟨v, h1, h2⟩ := hw tc List.mem_cons_self
    obtain ⟨dir', h3, h4, h5, h6⟩ := ih hn.2 (fun tc' h => hw tc' (List.mem_cons_of_mem _ h))
      (PyDict.set dir (name tc) v) (PyDict.keys_set_nodup _ _ _ hd)
    refine ⟨dir', by rw [writeAll, h1, Option.bind_some, h3], h4, ?_, ?_⟩
    · intro tc' htc'
      rcases List.mem_cons.mp htc' with rfl | htc'
      · refine ⟨v, ?_, h1, h2⟩
        rw [h6 _ (fun tc'' h e => hn.1 (List.mem_map.mpr ⟨tc'', h, e.symm⟩)), PyDict.get?_set]
        simp
      · exact h5 tc' htc'
    · intro k hk
      rw [h6 k (fun tc'' h => hk tc'' (List.mem_cons_of_mem _ h)), PyDict.get?_set,
        if_neg (Ne.symm (hk tc List.mem_cons_self))]

theorem emptyTable_of_size (c : TabClass) (tab : TabVal) (h : WellShaped c tab) (hz : tab.size = 0) :
    tab = emptyTable c := by
  cases tab with
  | keyed d =>
    have : d = [] := List.length_eq_zero_iff.mp hz
    simp [emptyTable, h.1, this]
  | plain d =>
    have : d = [] := List.length_eq_zero_iff.mp hz
    have hp : c.pks = [] := h.1
    simp [emptyTable, hp, this]

/-- What the collected tables are. -/
theorem gather_tables (rd : String × TabClass → Option (Option TableIn)) (dat' : PyDict String TabVal)
    (s : List (String × TabClass)) (hn : (s.map Prod.fst).Nodup)
    (hr : ∀ tc ∈ s, ∃ x tab', rd tc = some x ∧ PyDict.get? dat' tc.1 = some tab' ∧
      ((x = none ∧ tab' = emptyTable tc.2) ∨ ∃ y, x = some y ∧ initTable tc.2 y = some tab' ∧ y.size = tab'.size)) :
    ∃ input, gatherTables rd s = some input ∧ (PyDict.keys input).Nodup ∧
      (∀ t ∈ PyDict.keys input, t ∈ s.map Prod.fst) ∧
      ∀ tc ∈ s, ∃ tab', PyDict.get? dat' tc.1 = some tab' ∧
        ((PyDict.get? input tc.1 = none ∧ tab' = emptyTable tc.2) ∨
          ∃ x, PyDict.get? input tc.1 = some x ∧ initTable tc.2 x = some tab' ∧ x.size = tab'.size) := by
  induction s with
  | nil => exact ⟨[], rfl, by simp [PyDict.keys], by simp [PyDict.keys], by simp⟩
  | cons tc rest ih =>
    rw [List.map_cons, List.nodup_cons] at hn
    obtain ⟨input, h1, h2, h3, h4⟩ := ih hn.2 (fun tc' h => hr tc' (List.mem_cons_of_mem _ h))
    obtain ⟨x, tab', h5, h6, h7⟩ := hr tc List.mem_cons_self
    have hnot : tc.1 ∉ PyDict.keys input := fun h => hn.1 (h3 _ h)
    rcases h7 with ⟨hx, h7⟩ | ⟨y, hx, h7, h8⟩
    · subst hx
      refine ⟨input, by rw [gatherTables, h5, Option.bind_some, h1]; rfl, h2,
        fun t ht => List.mem_cons_of_mem _ (h3 t ht), ?_⟩
      intro tc' htc'
      rcases List.mem_cons.mp htc' with e | htc'
      · rw [e]
        exact ⟨tab', h6, .inl ⟨(PyDict.get?_eq_none _ _).mpr hnot, h7⟩⟩
      · exact h4 tc' htc'
    · subst hx
      refine ⟨(tc.1, y) :: input, by rw [gatherTables, h5, Option.bind_some, h1]; rfl, ?_, ?_, ?_⟩
      · simp only [PyDict.keys, List.map_cons, List.nodup_cons]
        exact ⟨hnot, h2⟩
      · intro t ht
        simp only [PyDict.keys, List.map_cons, List.mem_cons] at ht ⊢
        exact ht.imp id (h3 t)
      · intro tc' htc'
        rcases List.mem_cons.mp htc' with e | htc'
        · rw [e]
          exact ⟨tab', h6, .inr ⟨y, by simp [PyDict.get?], h7, h8⟩⟩
        · have hne : ¬ tc.1 = tc'.1 := fun e => hn.1 (List.mem_map.mpr ⟨tc', htc', e.symm⟩)
          obtain ⟨tab2, h12, h13⟩ := h4 tc' htc'
          refine ⟨tab2, h12, ?_⟩
          simpa [PyDict.get?, hne] using h13

end Ticdat

import Verif.Model.Utils
import Verif.Spec.Utils
/-!
# C24: the candidate names for a table
-/
namespace Ticdat
open Spec

theorem mem_combinations {A : Type} : ∀ (r : Nat) (l c : List A),
    c ∈ combinations r l ↔ c.Sublist l ∧ c.length = r := by
  intro r l
  induction l generalizing r with
  | nil =>
    intro c
    cases r with
    | zero => simp [combinations]
    | succ r =>
      simp only [combinations, List.not_mem_nil, List.sublist_nil, false_iff, not_and]
      rintro rfl; simp
  | cons x xs ih =>
    intro c
    cases r with
    | zero =>
      simp only [combinations, List.mem_singleton, List.length_eq_zero_iff]
      constructor
      · rintro rfl; simp
      · exact fun h => h.2
    | succ r =>
      simp only [combinations, List.mem_append, List.mem_map, ih]
      constructor
      · rintro (⟨c', ⟨h1, h2⟩, rfl⟩ | ⟨h1, h2⟩)
        · exact ⟨h1.cons_cons x, by simp [h2]⟩
        · exact ⟨h1.cons x, h2⟩
      · rintro ⟨h1, h2⟩
        cases h1 with
        | cons _ h => exact .inr ⟨h, h2⟩
        | cons_cons _ h => exact .inl ⟨_, ⟨h, by simpa using h2⟩, rfl⟩

theorem combinations_nodup {A : Type} : ∀ (r : Nat) (l : List A), l.Nodup → (combinations r l).Nodup := by
  intro r l
  induction l generalizing r with
  | nil => intro _; cases r <;> simp [combinations]
  | cons x xs ih =>
    intro h
    rw [List.nodup_cons] at h
    cases r with
    | zero => simp [combinations]
    | succ r =>
      simp only [combinations]
      rw [List.nodup_append]
      refine ⟨?_, ih _ h.2, ?_⟩
      · rw [List.Nodup, List.pairwise_map]
        exact List.Pairwise.imp (fun hne e => hne (List.cons.inj e).2) (ih r h.2)
      · intro a ha b hb e
        subst e
        simp only [List.mem_map] at ha
        obtain ⟨c, _, rfl⟩ := ha
        rw [mem_combinations] at hb
        exact h.1 (hb.1.subset (by simp))

theorem sublist_eq_filter {A : Type} [DecidableEq A] {c l : List A} (h : c.Sublist l) (hn : l.Nodup) :
    c = l.filter (fun x => decide (x ∈ c)) := by
  induction h with
  | slnil => rfl
  | @cons c l x h ih =>
    rw [List.nodup_cons] at hn
    have hx : x ∉ c := fun hc => hn.1 (h.subset hc)
    rw [List.filter_cons_of_neg (by simpa using hx)]
    exact ih hn.2
  | @cons_cons c l x h ih =>
    rw [List.nodup_cons] at hn
    rw [List.filter_cons_of_pos (by simp)]
    have e := ih hn.2
    congr 1
    refine e.trans (List.filter_congr fun y hy => ?_)
    have : y ≠ x := fun e => hn.1 (e ▸ hy)
    simp [this]

theorem blankAt_length (s : List Char) (i : Nat) (h : i < s.length) : (blankAt s i).length = s.length := by
  simp only [blankAt, List.length_append, List.length_take, List.length_cons, List.length_drop]
  omega

theorem blankAt_getElem? (s : List Char) (i : Nat) (h : i < s.length) (j : Nat) :
    (blankAt s i)[j]? = if j = i then some ' ' else s[j]? := by
  unfold blankAt
  rw [List.getElem?_append]
  have hl : (s.take i).length = i := by simp; omega
  rw [hl]
  split
  · rename_i hj
    rw [List.getElem?_take_of_lt hj, if_neg (by omega)]
  · rename_i hj
    by_cases e : j = i
    · subst e; simp
    · rw [if_neg e]
      obtain ⟨k, hk⟩ : ∃ k, j - i = k + 1 := ⟨j - i - 1, by omega⟩
      rw [hk, List.getElem?_cons_succ, List.getElem?_drop]
      congr 1
      omega

theorem foldl_blankAt (ixs : List Nat) : ∀ s : List Char, (∀ i ∈ ixs, i < s.length) →
    (ixs.foldl blankAt s).length = s.length ∧
      ∀ j, (ixs.foldl blankAt s)[j]? = if j ∈ ixs then some ' ' else s[j]? := by
  induction ixs with
  | nil => intro s _; simp
  | cons i rest ih =>
    intro s h
    have hi := h i (by simp)
    have hl := blankAt_length s i hi
    obtain ⟨h1, h2⟩ := ih (blankAt s i) (fun k hk => by rw [hl]; exact h k (by simp [hk]))
    refine ⟨by rw [List.foldl_cons, h1, hl], fun j => ?_⟩
    rw [List.foldl_cons, h2, blankAt_getElem? s i hi]
    by_cases hj : j ∈ rest
    · simp [hj]
    · by_cases e : j = i <;> simp [hj, e]

theorem mem_underscorePositions (s : List Char) (i : Nat) : i ∈ underscorePositions s ↔ s[i]? = some '_' := by
  unfold underscorePositions
  simp only [List.mem_map, List.mem_filter, beq_iff_eq]
  constructor
  · rintro ⟨⟨x, j⟩, ⟨h1, h2⟩, h3⟩
    simp only at h2 h3
    subst h2 h3
    rw [List.mem_zipIdx_iff_getElem?] at h1
    exact h1
  · intro h
    exact ⟨('_', i), ⟨by rw [List.mem_zipIdx_iff_getElem?]; exact h, rfl⟩, rfl⟩

theorem underscorePositions_nodup (s : List Char) : (underscorePositions s).Nodup := by
  have h : (underscorePositions s).Sublist (List.range s.length) := by
    have e : (s.zipIdx.map Prod.snd) = List.range s.length := by
      rw [List.zipIdx_map_snd, List.range_eq_range']
    rw [← e]
    exact (List.filter_sublist).map Prod.snd
  exact (List.nodup_range).sublist h

theorem blankedVariant_iff : ∀ (s s' : List Char), BlankedVariant s s' ↔
    s'.length = s.length ∧ ∀ j : Nat, s'[j]? = s[j]? ∨ (s[j]? = some '_' ∧ s'[j]? = some ' ') := by
  intro s
  induction s with
  | nil =>
    intro s'
    constructor
    · intro h; cases h; simp
    · rintro ⟨h, _⟩
      have : s' = [] := List.length_eq_zero_iff.mp (by simpa using h)
      subst this
      exact .nil
  | cons c s ih =>
    intro s'
    constructor
    · intro h
      cases h with
      | same _ h =>
        obtain ⟨h1, h2⟩ := (ih _).mp h
        refine ⟨by simp [h1], fun j => ?_⟩
        cases j with
        | zero => simp
        | succ j => simpa using h2 j
      | blank h =>
        obtain ⟨h1, h2⟩ := (ih _).mp h
        refine ⟨by simp [h1], fun j => ?_⟩
        cases j with
        | zero => simp
        | succ j => simpa using h2 j
    · rintro ⟨h1, h2⟩
      cases s' with
      | nil => simp at h1
      | cons c' s' =>
        have hrest : BlankedVariant s s' := (ih s').mpr ⟨by simpa using h1, fun j => by simpa using h2 (j + 1)⟩
        rcases h2 0 with h | ⟨h, h'⟩
        · simp only [List.getElem?_cons_zero, Option.some.injEq] at h
          subst h
          exact .same c' hrest
        · simp only [List.getElem?_cons_zero, Option.some.injEq] at h h'
          subst h h'
          exact .blank hrest

/-- **C24, membership.**  The candidates are exactly the strings obtained by blanking some of the underscores. -/
theorem mem_underscoreReplacements (s s' : List Char) : s' ∈ underscoreReplacements s ↔ BlankedVariant s s' := by
  rw [blankedVariant_iff]
  unfold underscoreReplacements
  simp only [List.mem_flatMap, List.mem_range, List.mem_map, mem_combinations]
  constructor
  · rintro ⟨r, _, ixs, ⟨hs, _⟩, rfl⟩
    have hu : ∀ i ∈ ixs, s[i]? = some '_' := fun i hi => (mem_underscorePositions s i).mp (hs.subset hi)
    have hlt : ∀ i ∈ ixs, i < s.length := fun i hi => by
      have := hu i hi
      rw [List.getElem?_eq_some_iff] at this
      exact this.1
    obtain ⟨h1, h2⟩ := foldl_blankAt ixs s hlt
    refine ⟨h1, fun j => ?_⟩
    rw [h2]
    by_cases hj : j ∈ ixs
    · simp [hj, hu j hj]
    · simp [hj]
  · rintro ⟨h1, h2⟩
    let ixs := (underscorePositions s).filter (fun i => decide (s'[i]? = some ' '))
    have hsub : ixs.Sublist (underscorePositions s) := List.filter_sublist
    refine ⟨ixs.length, ?_, ixs, ⟨hsub, rfl⟩, ?_⟩
    · have := hsub.length_le
      omega
    · have hmem : ∀ i, i ∈ ixs ↔ s[i]? = some '_' ∧ s'[i]? = some ' ' := by
        intro i
        simp only [ixs, List.mem_filter, mem_underscorePositions, decide_eq_true_eq]
      have hlt : ∀ i ∈ ixs, i < s.length := fun i hi => by
        have := ((hmem i).mp hi).1
        rw [List.getElem?_eq_some_iff] at this
        exact this.1
      obtain ⟨h3, h4⟩ := foldl_blankAt ixs s hlt
      apply List.ext_getElem?
      intro j
      rw [h4]
      by_cases hj : j ∈ ixs
      · rw [if_pos hj, ((hmem j).mp hj).2]
      · rw [if_neg hj]
        rcases h2 j with h | h
        · exact h.symm
        · exact absurd ((hmem j).mpr h) hj

/-- **C24, once each.** -/
theorem underscoreReplacements_nodup (s : List Char) : (underscoreReplacements s).Nodup := by
  unfold underscoreReplacements
  have hn := underscorePositions_nodup s
  have hinj : ∀ a b : List Nat, a.Sublist (underscorePositions s) → b.Sublist (underscorePositions s) →
      a.foldl blankAt s = b.foldl blankAt s → a = b := by
    intro a b ha hb e
    have hu : ∀ c : List Nat, c.Sublist (underscorePositions s) → ∀ i ∈ c, s[i]? = some '_' :=
      fun c hc i hi => (mem_underscorePositions s i).mp (hc.subset hi)
    have hlt : ∀ c : List Nat, c.Sublist (underscorePositions s) → ∀ i ∈ c, i < s.length := fun c hc i hi => by
      have := hu c hc i hi
      rw [List.getElem?_eq_some_iff] at this
      exact this.1
    have h1 := (foldl_blankAt a s (hlt a ha)).2
    have h2 := (foldl_blankAt b s (hlt b hb)).2
    have hab : ∀ i ∈ underscorePositions s, (i ∈ a ↔ i ∈ b) := by
      intro i hi
      have e' : (a.foldl blankAt s)[i]? = (b.foldl blankAt s)[i]? := by rw [e]
      rw [h1, h2, (mem_underscorePositions s i).mp hi] at e'
      by_cases ia : i ∈ a <;> by_cases ib : i ∈ b <;> simp [ia, ib] at e' ⊢
    rw [sublist_eq_filter ha hn, sublist_eq_filter hb hn]
    exact List.filter_congr fun i hi => by simp [hab i hi]
  rw [List.Nodup, List.pairwise_flatMap]
  constructor
  · intro r _
    rw [List.pairwise_map]
    have hc := combinations_nodup r _ hn
    refine List.Pairwise.imp_of_mem (fun ha hb hne e => hne ?_) hc
    rw [mem_combinations] at ha hb
    exact hinj _ _ ha.1 hb.1 e
  · refine List.Pairwise.imp (fun hne => ?_) List.nodup_range
    intro x hx y hy e
    simp only [List.mem_map] at hx hy
    obtain ⟨a, ha, rfl⟩ := hx
    obtain ⟨b, hb, rfl⟩ := hy
    rw [mem_combinations] at ha hb
    have := hinj _ _ ha.1 hb.1 e
    apply hne
    rw [← ha.2, ← hb.2, this]

example : underscoreReplacements "a_b_c".toList =
    ["a_b_c".toList, "a b_c".toList, "a_b c".toList, "a b c".toList] := by decide +kernel

example : BlankedVariant "a_b_c".toList "a_b c".toList ∧ ¬ BlankedVariant "a_b_c".toList "a-b c".toList := by
  rw [← mem_underscoreReplacements, ← mem_underscoreReplacements]
  decide +kernel

end Ticdat

import Verif.Model.Utils
import Verif.Spec.Utils
/-!
# C33: trailing empty rows; the trip wire of `faster_df_apply`
-/
namespace Ticdat
open Spec

theorem dfApply_plain {R X : Type} (f : R → X) (rows : List R) : dfApply f none rows = rows.map f := by
  induction rows with
  | nil => rfl
  | cons r rest ih => simp [dfApply, ih]

theorem allNanRow_iff (row : List Cell) : allNanRow row = true ↔ EmptyRow row := by
  unfold allNanRow EmptyRow
  rw [List.all_eq_true]
  constructor
  · intro h c hc
    have := h c hc
    cases c <;> simp [Cell.isNull] at this ⊢
  · intro h c hc
    rcases h c hc with rfl | rfl <;> rfl

theorem isLastRowsAllNan_iff (df : List (List Cell)) (n : Nat) (h1 : 1 ≤ n) (h2 : n ≤ df.length) :
    isLastRowsAllNan df n = true ↔ ∀ row ∈ df.drop (df.length - n), EmptyRow row := by
  unfold isLastRowsAllNan tailRows
  rw [dfApply_plain]
  have hsub : ∀ row ∈ df.drop (df.length - 1), row ∈ df.drop (df.length - n) := by
    intro row hr
    have : df.drop (df.length - 1) = (df.drop (df.length - n)).drop (n - 1) := by
      rw [List.drop_drop]; congr 1; omega
    rw [this] at hr
    exact List.mem_of_mem_drop hr
  have htrip : (dfApply allNanRow (some (fun x => some (if x then allNanRow else fun _ => false)))
      (df.drop (df.length - n))).all id = true ↔ ∀ row ∈ df.drop (df.length - n), EmptyRow row := by
    cases df.drop (df.length - n) with
    | nil => simp [dfApply]
    | cons r rest =>
      simp only [dfApply, List.all_cons, id_eq, Bool.and_eq_true, List.mem_cons, forall_eq_or_imp]
      constructor
      · rintro ⟨h, hrest⟩
        refine ⟨(allNanRow_iff r).mp h, ?_⟩
        simp only [h, if_true] at hrest
        rw [dfApply_plain] at hrest
        intro row hr
        rw [← allNanRow_iff]
        rw [List.all_eq_true] at hrest
        exact hrest _ (List.mem_map.mpr ⟨row, hr, rfl⟩)
      · rintro ⟨h, hrest⟩
        refine ⟨(allNanRow_iff r).mpr h, ?_⟩
        simp only [(allNanRow_iff r).mpr h, if_true]
        rw [dfApply_plain, List.all_eq_true]
        intro x hx
        obtain ⟨row, hr, rfl⟩ := List.mem_map.mp hx
        exact (allNanRow_iff row).mpr (hrest row hr)
  rw [Bool.and_eq_true, htrip]
  constructor
  · exact fun h => h.2
  · intro h
    refine ⟨?_, h⟩
    rw [List.all_eq_true]
    intro x hx
    obtain ⟨row, hr, rfl⟩ := List.mem_map.mp hx
    exact (allNanRow_iff row).mpr (h row (hsub row hr))

/-- The last `n` rows are empty. -/
def EmptyTail (df : List (List Cell)) (n : Nat) : Prop := ∀ row ∈ df.drop (df.length - n), EmptyRow row

theorem EmptyTail.mono {df : List (List Cell)} {m n : Nat} (h : EmptyTail df n) (hm : m ≤ n) :
    EmptyTail df m := by
  intro row hr
  apply h row
  have : df.drop (df.length - m) = (df.drop (df.length - n)).drop (df.length - m - (df.length - n)) := by
    rw [List.drop_drop]; congr 1; omega
  rw [this] at hr
  exact List.mem_of_mem_drop hr

/-- The binary search finds the largest number of empty last rows between its bounds. -/
theorem numberNanLastRows_spec (df : List (List Cell)) (lo hi : Nat) (h1 : lo ≤ hi) (h2 : hi ≤ df.length)
    (h3 : EmptyTail df lo) : ∃ n, numberNanLastRows df lo hi = some n ∧ lo ≤ n ∧ n ≤ hi ∧ EmptyTail df n ∧
      ∀ m, n < m → m ≤ hi → ¬ EmptyTail df m := by
  generalize hg : hi - lo = g
  induction g using Nat.strongRecOn generalizing lo hi with
  | _ g ih =>
    rw [numberNanLastRows]
    rw [if_neg (by omega)]
    by_cases e : lo = hi
    · rw [if_pos e]
      subst e
      refine ⟨lo, ?_, Nat.le_refl _, Nat.le_refl _, h3, fun m hm hm' => by omega⟩
      by_cases h0 : lo = 0
      · simp [h0]
      · have := (isLastRowsAllNan_iff df lo (by omega) h2).mpr h3
        simp [this]
    · rw [if_neg e]
      have hmed1 : lo < (lo + hi + 1) / 2 := by omega
      have hmed2 : (lo + hi + 1) / 2 ≤ hi := by omega
      by_cases hm : isLastRowsAllNan df ((lo + hi + 1) / 2) = true
      · simp only [hm, if_true]
        have ht : EmptyTail df ((lo + hi + 1) / 2) := (isLastRowsAllNan_iff df _ (by omega) (by omega)).mp hm
        obtain ⟨n, h4, h5, h6, h7, h8⟩ := ih (hi - (lo + hi + 1) / 2) (by omega) _ _ hmed2 h2 ht rfl
        exact ⟨n, h4, by omega, h6, h7, h8⟩
      · simp only [hm]
        rw [if_neg (by simp)]
        obtain ⟨n, h4, h5, h6, h7, h8⟩ := ih ((lo + hi + 1) / 2 - 1 - lo) (by omega) lo ((lo + hi + 1) / 2 - 1)
          (by omega) (by omega) h3 rfl
        refine ⟨n, h4, h5, by omega, h7, fun m hm1 hm2 ht => ?_⟩
        by_cases hle : m ≤ (lo + hi + 1) / 2 - 1
        · exact h8 m hm1 hle ht
        · apply hm
          rw [isLastRowsAllNan_iff df _ (by omega) (by omega)]
          exact ht.mono (by omega)

/-- **C33.**  `remove_trailing_all_nan` splits the table into the rows it keeps and a block of empty rows, and the last
kept row is not empty. -/
theorem remove_trailing_exact (df : List (List Cell)) :
    ∃ kept block, removeTrailingNan df = some kept ∧ df = kept ++ block ∧ (∀ row ∈ block, EmptyRow row) ∧
      ∀ last, kept.getLast? = some last → ¬ EmptyRow last := by
  obtain ⟨n, h1, _, h2, h3, h4⟩ := numberNanLastRows_spec df 0 df.length (Nat.zero_le _) (Nat.le_refl _)
    (by intro row hr; simp at hr)
  have hkept : removeTrailingNan df = some (df.take (df.length - n)) := by
    simp only [removeTrailingNan, h1]
    by_cases h0 : n = 0
    · simp [h0]
    · simp [h0]
  refine ⟨df.take (df.length - n), df.drop (df.length - n), hkept, (List.take_append_drop _ _).symm, h3, ?_⟩
  intro last hlast hempty
  by_cases hn : n = df.length
  · rw [hn] at hlast; simp at hlast
  · apply h4 (n + 1) (by omega) (by omega)
    intro row hr
    have hlt : df.length - (n + 1) < df.length := by omega
    rw [List.drop_eq_getElem_cons hlt] at hr
    rcases List.mem_cons.mp hr with rfl | hr
    · have : df.take (df.length - n) = df.take (df.length - (n + 1)) ++ [df[df.length - (n + 1)]] := by
        have e : df.length - n = df.length - (n + 1) + 1 := by omega
        rw [e, List.take_add_one, List.getElem?_eq_getElem hlt]
        rfl
      rw [this, List.getLast?_concat] at hlast
      cases hlast
      exact hempty
    · apply h3
      have e : df.length - (n + 1) + 1 = df.length - n := by omega
      rw [e] at hr
      exact hr

/-- The trip wire, in general: up to and including the first row whose result trips the wire the original function is
applied, after it the replacement; without a trip the original function is applied to every row. -/
theorem dfApply_trip {R X : Type} (f : R → X) (check : X → Option (R → X)) (pre : List R) (row : R) (post : List R)
    (g : R → X) (hpre : ∀ r ∈ pre, check (f r) = none) (hrow : check (f row) = some g) :
    dfApply f (some check) (pre ++ row :: post) = (pre ++ [row]).map f ++ post.map g ∧
      dfApply f (some check) pre = pre.map f := by
  induction pre with
  | nil => simp [dfApply, hrow, dfApply_plain]
  | cons r rest ih =>
    have hr := hpre r (by simp)
    obtain ⟨h1, h2⟩ := ih (fun x hx => hpre x (by simp [hx]))
    simp [dfApply, hr, h1, h2]

/-! ### Non-vacuity -/

example : removeTrailingNan [[.str "a", .nan], [.nan, .none], [.nan, .bool false], [.none, .nan], [.nan, .nan],
    [.nan, .nan]] = some [[.str "a", .nan], [.nan, .none], [.nan, .bool false]] := by
  simp [removeTrailingNan, numberNanLastRows, isLastRowsAllNan, tailRows, dfApply, allNanRow, Cell.isNull]

end Ticdat

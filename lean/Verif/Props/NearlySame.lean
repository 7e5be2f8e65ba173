import Verif.Model.Utils
/-!
# C39: `nearly_same`
-/
namespace Ticdat

theorem smallNotZero_pos : 0 < smallNotZero := by decide +kernel

theorem perError_neg_fin (a b : Rat) :
    perErrorPos (.fin (-a)) (.fin (-b)) = perErrorPos (.fin a) (.fin b) := by
  simp only [perErrorPos, Rat.abs_neg]
  have : max (-a) (-b) - min (-a) (-b) = max a b - min a b := by grind
  rw [this]

theorem perError_fin (a b : Rat) : perError (.fin a) (.fin b) = perErrorPos (.fin a) (.fin b) := by
  unfold perError
  split
  · exact perError_neg_fin a b
  · rfl

theorem spread_eq_abs (a b : Rat) : max a b - min a b = (a - b).abs := by
  unfold Rat.abs
  grind

/-- `per_error(..) < epsilon`. -/
def PerError.below : PerError → XNum → Bool
  | .num e, eps => XNum.lt e eps
  | .nan, _ => false

theorem nearlySame_eq (x y eps : XNum) : nearlySame x y eps = (perError x y).below eps := by
  unfold nearlySame PerError.below
  cases perError x y <;> rfl

/-- **C39, finite numbers.**  `nearly_same(a, b, e)` says that the difference is below `e` times the larger magnitude;
when both magnitudes are at most `1e-10` it says only that `e` is positive. -/
theorem nearlySame_fin (a b e : Rat) : nearlySame (.fin a) (.fin b) (.fin e) = true ↔
    if max a.abs b.abs > 1 / 10000000000 then (a - b).abs < e * max a.abs b.abs else 0 < e := by
  have hs : smallNotZero = 1 / 10000000000 := rfl
  have hp := smallNotZero_pos
  rw [nearlySame_eq, perError_fin]
  simp only [perErrorPos, spread_eq_abs, ← hs]
  by_cases h : max a.abs b.abs > smallNotZero
  · rw [if_pos h, if_pos h]
    simp only [PerError.below, XNum.lt, decide_eq_true_eq]
    exact Rat.div_lt_iff (Std.lt_trans hp h)
  · rw [if_neg h, if_neg h]
    simp [PerError.below, XNum.lt]

/-- **C39, infinities.**  An infinity is nearly the same only as itself. -/
theorem nearlySame_infinite (x y eps : XNum) (hx : x = .pinf ∨ x = .ninf) :
    nearlySame x y eps = true ↔ x = y ∧ XNum.lt (.fin 0) eps = true := by
  have hinf : XNum.lt .pinf eps = false := by cases eps <;> rfl
  rw [nearlySame_eq]
  rcases hx with rfl | rfl
  · cases y with
    | fin b =>
      have : perError .pinf (.fin b) = .num .pinf := rfl
      simp [this, PerError.below, hinf]
    | ninf =>
      have : perError .pinf .ninf = .num .pinf := rfl
      simp [this, PerError.below, hinf]
    | pinf =>
      have : perError .pinf .pinf = .num (.fin 0) := rfl
      simp [this, PerError.below]
  · cases y with
    | fin b =>
      have : perError .ninf (.fin b) = if b < 0 then .num .pinf else .nan := by
        by_cases h : b < 0 <;> simp [perError, XNum.lt, h, XNum.neg, perErrorPos]
      rw [this]
      by_cases h : b < 0 <;> simp [h, PerError.below, hinf]
    | ninf =>
      have : perError .ninf .ninf = .num (.fin 0) := rfl
      simp [this, PerError.below]
    | pinf =>
      have : perError .ninf .pinf = .nan := rfl
      simp [this, PerError.below]

theorem nearlySame_fin_inf (a : Rat) (y eps : XNum) (hy : y = .pinf ∨ y = .ninf) :
    nearlySame (.fin a) y eps = false := by
  rw [nearlySame_eq]
  rcases hy with rfl | rfl
  · have : perError (.fin a) .pinf = .nan := by
      by_cases h : a < 0 <;> simp [perError, XNum.lt, h, perErrorPos]
    rw [this]; rfl
  · have : perError (.fin a) .ninf = .nan := by
      by_cases h : a < 0 <;> simp [perError, XNum.lt, h, XNum.neg, perErrorPos]
    rw [this]; rfl

/-- **C39, symmetry**, for all numbers including infinities. -/
theorem nearlySame_symm (x y eps : XNum) : nearlySame x y eps = nearlySame y x eps := by
  have key : ∀ a : Rat, ∀ z : XNum, (z = .pinf ∨ z = .ninf) →
      nearlySame (.fin a) z eps = nearlySame z (.fin a) eps := by
    intro a z hz
    rw [nearlySame_fin_inf a z eps hz]
    cases h : nearlySame z (.fin a) eps with
    | false => rfl
    | true =>
      have := ((nearlySame_infinite z (.fin a) eps hz).mp h).1
      subst this
      simp at hz
  have key2 : ∀ z z' : XNum, (z = .pinf ∨ z = .ninf) → (z' = .pinf ∨ z' = .ninf) →
      nearlySame z z' eps = nearlySame z' z eps := by
    intro z z' hz hz'
    rw [Bool.eq_iff_iff, nearlySame_infinite z z' eps hz, nearlySame_infinite z' z eps hz', eq_comm]
  cases x with
  | fin a =>
    cases y with
    | fin b =>
      rw [nearlySame_eq, nearlySame_eq, perError_fin, perError_fin]
      simp only [perErrorPos, spread_eq_abs]
      have h1 : max a.abs b.abs = max b.abs a.abs := by grind
      have h2 : (a - b).abs = (b - a).abs := Rat.abs_sub_comm
      rw [h1, h2]
    | pinf => exact key a _ (.inl rfl)
    | ninf => exact key a _ (.inr rfl)
  | pinf =>
    cases y with
    | fin b => exact (key b _ (.inl rfl)).symm
    | pinf => rfl
    | ninf => exact key2 _ _ (.inl rfl) (.inr rfl)
  | ninf =>
    cases y with
    | fin b => exact (key b _ (.inr rfl)).symm
    | pinf => exact key2 _ _ (.inr rfl) (.inl rfl)
    | ninf => rfl

/-- **C39, reflexivity**, for every positive tolerance and every number including infinities. -/
theorem nearlySame_refl (x eps : XNum) (he : XNum.lt (.fin 0) eps = true) : nearlySame x x eps = true := by
  cases x with
  | ninf => exact (nearlySame_infinite _ _ _ (.inr rfl)).mpr ⟨rfl, he⟩
  | pinf => exact (nearlySame_infinite _ _ _ (.inl rfl)).mpr ⟨rfl, he⟩
  | fin a =>
    rw [nearlySame_eq, perError_fin]
    simp only [perErrorPos]
    have : (max a a - min a a) / max a.abs a.abs = 0 := by
      have : max a a - min a a = 0 := by grind
      rw [this, Rat.div_def, Rat.zero_mul]
    rw [this]
    split <;> exact he

/-- **C39, scale.**  Multiplying both numbers by the same positive factor does not change the answer, as long as the
larger magnitude stays above `1e-10`. -/
theorem nearlySame_scale (a b c : Rat) (eps : XNum) (hc : 0 < c) (h1 : max a.abs b.abs > 1 / 10000000000)
    (h2 : max (c * a).abs (c * b).abs > 1 / 10000000000) :
    nearlySame (.fin (c * a)) (.fin (c * b)) eps = nearlySame (.fin a) (.fin b) eps := by
  have habs : ∀ x : Rat, (c * x).abs = c * x.abs := by
    intro x
    by_cases hx : 0 ≤ x
    · have h := Rat.mul_nonneg (Rat.le_of_lt hc) hx
      rw [Rat.abs_of_nonneg h, Rat.abs_of_nonneg hx]
    · have hx' : 0 ≤ -x := by grind
      have h := Rat.mul_nonneg (Rat.le_of_lt hc) hx'
      have e1 : (c * x).abs = (c * -x).abs := by rw [Rat.mul_neg, Rat.abs_neg]
      have e2 : x.abs = (-x).abs := Rat.abs_neg.symm
      rw [e1, e2, Rat.abs_of_nonneg h, Rat.abs_of_nonneg hx']
  have hmax : max (c * a).abs (c * b).abs = c * max a.abs b.abs := by
    rw [habs, habs]
    by_cases h : a.abs ≤ b.abs
    · have h' := Rat.mul_le_mul_of_nonneg_left h (Rat.le_of_lt hc)
      rw [Rat.max_def, Rat.max_def, if_pos h, if_pos h']
    · have h' : ¬ c * a.abs ≤ c * b.abs := fun e => h (Rat.le_of_mul_le_mul_left e hc)
      rw [Rat.max_def, Rat.max_def, if_neg h, if_neg h']
  have hsub : c * a - c * b = c * (a - b) := by grind
  have hs : smallNotZero = 1 / 10000000000 := rfl
  rw [← hs] at h1 h2
  have hdiv : (c * (a - b).abs) / (c * max a.abs b.abs) = (a - b).abs / max a.abs b.abs := by
    generalize (a - b).abs = u
    generalize hv : max a.abs b.abs = v at h1
    have hv0 : v ≠ 0 := by have := smallNotZero_pos; grind
    have hc0 : c ≠ 0 := by grind
    grind
  rw [nearlySame_eq, nearlySame_eq, perError_fin, perError_fin]
  simp only [perErrorPos, spread_eq_abs, hsub, habs (a - b), if_pos h1, if_pos h2]
  rw [hmax, hdiv]

/-! ### Non-vacuity -/

example : nearlySame (.fin (-100)) (.fin (-101)) (.fin (1 / 50)) = true ∧
    nearlySame (.fin 100) (.fin 110) (.fin (1 / 50)) = false ∧
    nearlySame .ninf .ninf (.fin (1 / 50)) = true ∧ nearlySame .ninf (.fin 3) .pinf = false := by decide +kernel

example : max (Rat.abs 3) (Rat.abs 4) > 1 / 10000000000 ∧ max (Rat.abs (2 * 3)) (Rat.abs (2 * 4)) > 1 / 10000000000 := by
  decide +kernel

end Ticdat

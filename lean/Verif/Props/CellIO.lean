import Verif.Spec.CellIO
import Verif.Props.DataType
/-!
# C19: infinity flags
-/
set_option linter.unusedSimpArgs false
namespace Ticdat
open Spec

theorem le_iff (a b : XNum) : XNum.le a b = true ↔ (XLt a b ∨ a = b) := by
  unfold XNum.le
  rw [Bool.not_eq_true', xlt_trichotomy]
  constructor
  · rintro (h | h)
    · exact Or.inl h
    · exact Or.inr h.symm
  · rintro (h | h)
    · exact Or.inl h
    · exact Or.inr h.symm

theorem clamp_read (q : Rat) (hq : 0 < q) (x y : XNum)
    (hy : (if XNum.le (.fin q) (clamp q x) then (XNum.pinf)
          else if XNum.le (clamp q x) (.fin (-q)) then .ninf else clamp q x) = y) : ReadBack q x y := by
  subst hy
  cases x with
  | ninf =>
    have h1 : clamp q .ninf = .fin (-q) := by simp [clamp, XNum.lt]
    rw [h1]
    have h2 : XNum.le (.fin q) (.fin (-q)) = false := by simp [XNum.le, XNum.lt]; grind
    have h3 : XNum.le (.fin (-q)) (.fin (-q)) = true := by rw [le_iff]; exact Or.inr rfl
    simp only [h2, h3, if_true]
    exact .small (Or.inl .below)
  | pinf =>
    have h1 : clamp q .pinf = .fin q := by
      have : ¬ q < -q := by grind
      simp [clamp, XNum.lt, this]
    rw [h1]
    have h3 : XNum.le (.fin q) (.fin q) = true := by rw [le_iff]; exact Or.inr rfl
    simp only [h3, if_true]
    exact .big (Or.inl .above)
  | fin r =>
    by_cases h1 : q < r
    · have h2 : clamp q (.fin r) = .fin q := by
        have : ¬ q < -q := by grind
        simp [clamp, XNum.lt, this, h1]
      rw [h2]
      have h3 : XNum.le (.fin q) (.fin q) = true := by rw [le_iff]; exact Or.inr rfl
      simp only [h3, if_true]
      exact .big (Or.inl (.fin h1))
    · by_cases h2 : r < -q
      · have h3 : clamp q (.fin r) = .fin (-q) := by simp [clamp, XNum.lt, h1, h2]
        rw [h3]
        have h2 : XNum.le (.fin q) (.fin (-q)) = false := by simp [XNum.le, XNum.lt]; grind
        have h3 : XNum.le (.fin (-q)) (.fin (-q)) = true := by rw [le_iff]; exact Or.inr rfl
        simp only [h2, h3, if_true]
        exact .small (Or.inl (.fin (by assumption)))
      · have h3 : clamp q (.fin r) = .fin r := by simp [clamp, XNum.lt, h1, h2]
        rw [h3]
        by_cases h4 : r = q
        · subst h4
          have h3 : XNum.le (.fin r) (.fin r) = true := by rw [le_iff]; exact Or.inr rfl
          simp only [h3, if_true]
          exact .big (Or.inr rfl)
        · have h5 : r < q := by grind
          have h6 : XNum.le (.fin q) (.fin r) = false := by simp [XNum.le, XNum.lt, h5]
          by_cases h7 : r = -q
          · have h8 : XNum.le (.fin r) (.fin (-q)) = true := by rw [le_iff]; exact Or.inr (by rw [h7])
            simp only [h6, h8, if_true]
            exact .small (Or.inr (by rw [h7]))
          · have h9 : -q < r := by grind
            have h8 : XNum.le (.fin r) (.fin (-q)) = false := by simp [XNum.le, XNum.lt, h9]
            simp only [h6, h8]
            exact .between (.fin h9) (.fin h5)

/-- The reading of a number, whatever the type of its field. -/
theorem readCell_num {env : TextEnv} {cf : IOConf} {t f : String} (ht : t ≠ "parameters") (x : XNum) :
    readCell env cf t f (.num x) = match cf.flag with
      | .num q => some (.num (if XNum.le (.fin q) x then .pinf else if XNum.le x (.fin (-q)) then .ninf else x))
      | _ => some (.num x) := by
  unfold readCell
  simp only [ht, if_false, dateAdjust, toFloat, Option.getD_some, ite_self]
  cases cf.flag with
  | na => rfl
  | none => simp
  | num q =>
    simp only
    split
    · rfl
    · split <;> rfl

/-- **C19, numeric flag.**  In every table but `parameters`, and for every field type, a number that is written with a
positive numeric flag and read back is infinite if it was beyond the flag, and else unchanged. -/
theorem num_flag_round_trip {env : TextEnv} {cf : IOConf} {q : Rat} (hf : cf.flag = .num q) (hq : 0 < q) {t f : String}
    (ht : t ≠ "parameters") (x : XNum) :
    ∃ w y, writeCell env cf t f (.num x) = some w ∧ readCell env cf t f w = some (.num y) ∧ ReadBack q x y := by
  refine ⟨.num (clamp q x), _, ?_, ?_, clamp_read q hq x _ rfl⟩
  · simp [writeCell, ht, hf]
  · rw [readCell_num ht, hf]

/-- **C19, numeric flag, survival.**  Infinities and all finite numbers strictly between minus the flag and the flag are
read back as they were; a finite number is written as it is exactly if it is not beyond the flag. -/
theorem num_flag_survives {env : TextEnv} {cf : IOConf} {q : Rat} (hf : cf.flag = .num q) (hq : 0 < q) {t f : String}
    (ht : t ≠ "parameters") (x : XNum) (hx : x = .pinf ∨ x = .ninf ∨ (XLt (.fin (-q)) x ∧ XLt x (.fin q))) :
    ∃ w, writeCell env cf t f (.num x) = some w ∧ readCell env cf t f w = some (.num x) := by
  obtain ⟨w, y, h1, h2, h3⟩ := num_flag_round_trip (env := env) (f := f) hf hq ht x
  refine ⟨w, h1, ?_⟩
  rw [h2]
  congr 2
  cases h3 with
  | big h =>
    rcases hx with rfl | rfl | ⟨hx1, hx2⟩
    · rfl
    · rcases h with h | h <;> cases h
    · cases hx2 with
      | below => cases hx1
      | fin h' =>
        rcases h with h | h
        · cases h; rename_i h''; grind
        · cases h; grind
  | small h =>
    rcases hx with rfl | rfl | ⟨hx1, hx2⟩
    · rcases h with h | h <;> cases h
    · rfl
    · cases hx1 with
      | above => cases hx2
      | fin h' =>
        rcases h with h | h
        · cases h; rename_i h''; grind
        · cases h; grind
  | between _ _ => rfl

/-- No value that was written exceeds the flag. -/
theorem num_flag_bounded {env : TextEnv} {cf : IOConf} {q : Rat} (hf : cf.flag = .num q) (hq : 0 < q) {t f : String}
    (ht : t ≠ "parameters") (x : XNum) :
    ∃ r : Rat, writeCell env cf t f (.num x) = some (.num (.fin r)) ∧ -q ≤ r ∧ r ≤ q := by
  have hw : writeCell env cf t f (.num x) = some (.num (clamp q x)) := by simp [writeCell, ht, hf]
  rw [hw]
  cases x with
  | ninf => exact ⟨-q, by simp [clamp, XNum.lt], by grind, by grind⟩
  | pinf =>
    have : ¬ q < -q := by grind
    exact ⟨q, by simp [clamp, XNum.lt, this], by grind, by grind⟩
  | fin r =>
    by_cases h1 : q < r
    · have : ¬ q < -q := by grind
      exact ⟨q, by simp [clamp, XNum.lt, this, h1], by grind, by grind⟩
    · by_cases h2 : r < -q
      · exact ⟨-q, by simp [clamp, XNum.lt, h1, h2], by grind, by grind⟩
      · exact ⟨r, by simp [clamp, XNum.lt, h1, h2], by grind, by grind⟩

theorem plain_multi {cf : IOConf} {t f : String} (hp : PlainField cf t f) :
    ((cf.types.at t f).map (·.datetime)).getD false = false ∧
    (((cf.types.at t f).map (fun td => !td.datetime && td.strings.truthy && td.numberAllowed)).getD false &&
      cf.automunge) = false := by
  rw [at_eq_typeOf]
  cases h : typeOf cf.types t f with
  | none => simp
  | some td =>
    obtain ⟨h1, h2⟩ := hp td h
    refine ⟨by simpa using h1, ?_⟩
    simp only [Option.map_some, Option.getD_some, h1]
    apply Classical.byContradiction
    intro hc
    simp only [Bool.not_false, Bool.true_and, Bool.not_eq_false, Bool.and_eq_true] at hc
    apply h2
    refine ⟨hc.2, hc.1.2, ?_⟩
    intro e
    rw [e] at hc
    simp [Strings.truthy] at hc

theorem readCell_plain {env : TextEnv} {cf : IOConf} {t f : String} (ht : t ≠ "parameters") (hp : PlainField cf t f)
    (x : Cell) :
    readCell env cf t f x = match cf.flag with
      | .num q =>
        match x with
        | .num y => some (.num (if XNum.le (.fin q) y then .pinf else if XNum.le y (.fin (-q)) then .ninf else y))
        | x => some x
      | .none =>
        if x = .none then (infBias env cf t f).map (fun b =>
          match b with
          | some pos => .num (infOf pos)
          | none => x)
        else some x
      | .na => some x := by
  obtain ⟨h1, h2⟩ := plain_multi hp
  unfold readCell
  simp only [ht, if_false, h1, h2, Bool.false_and, Bool.false_eq_true]
  cases cf.flag with
  | na => rfl
  | none => rfl
  | num q =>
    cases x with
    | num y =>
      simp only
      split
      · rfl
      · split <;> rfl
    | _ => rfl

/-- **C19, numeric flag, other values.**  Text, Booleans, dates and nulls of a plain field are written and read back as
they are. -/
theorem num_flag_other {env : TextEnv} {cf : IOConf} {q : Rat} (hf : cf.flag = .num q) {t f : String}
    (ht : t ≠ "parameters") (hp : PlainField cf t f) (x : Cell) (hx : ∀ y, x ≠ .num y) :
    writeCell env cf t f x = some x ∧ readCell env cf t f x = some x := by
  constructor
  · simp only [writeCell, ht, hf, false_and, if_false]
  · rw [readCell_plain ht hp, hf]
    cases x with
    | num y => exact absurd rfl (hx y)
    | _ => rfl

/-- **C19, no flag.** -/
theorem na_flag_round_trip {env : TextEnv} {cf : IOConf} (hf : cf.flag = .na) {t f : String}
    (ht : t ≠ "parameters") (hp : PlainField cf t f) (x : Cell) :
    writeCell env cf t f x = some x ∧ readCell env cf t f x = some x := by
  constructor
  · simp only [writeCell, ht, hf, false_and, if_false]
  · rw [readCell_plain ht hp, hf]

theorem infBias_none_iff {env : TextEnv} {cf : IOConf} (hf : cf.flag = .none) {t f : String} :
    infBias env cf t f = none ↔ NoneFlagAmbiguous env cf t f := by
  unfold infBias NoneFlagAmbiguous
  simp only [hf, ne_eq, not_true_eq_false, if_false, at_eq_typeOf]
  cases h : typeOf cf.types t f with
  | none => simp
  | some td =>
    simp only [Option.some.injEq, exists_eq_left', ← valid_data_iff]
    cases td.numberAllowed <;> cases td.validData env.parses .none <;> cases td.validData env.parses (.num .pinf) <;>
      cases td.validData env.parses (.num .ninf) <;> simp

theorem infBias_some {env : TextEnv} {cf : IOConf} {t f : String} {pos : Bool}
    (h : infBias env cf t f = some (some pos)) : ∃ td, typeOf cf.types t f = some td ∧ ¬ Valid env.parses td .none ∧
      Valid env.parses td (.num (infOf pos)) := by
  unfold infBias at h
  rw [at_eq_typeOf] at h
  split at h
  · cases h
  · cases htd : typeOf cf.types t f with
    | none => simp [htd] at h
    | some td =>
      simp only [htd] at h
      refine ⟨td, rfl, ?_⟩
      simp only [← valid_data_iff]
      revert h
      cases td.numberAllowed <;> cases td.validData env.parses .none <;>
        cases h1 : td.validData env.parses (.num .pinf) <;>
        cases h2 : td.validData env.parses (.num .ninf) <;> simp [infOf] <;> rintro rfl <;> simp [h1, h2]

/-- **C19, `None` flag.**  Unless the flag is ambiguous for the field, every value that is valid for a plain field (every
value, if the field has no type) is read back as it was written: in particular the infinity that the type allows comes back
from the `None` that was written for it. -/
theorem none_flag_round_trip {env : TextEnv} {cf : IOConf} (hf : cf.flag = .none) {t f : String}
    (ht : t ≠ "parameters") (hp : PlainField cf t f) (hn : ¬ NoneFlagAmbiguous env cf t f) (x : Cell)
    (hx : ValidAt env cf t f x) :
    ∃ w, writeCell env cf t f x = some w ∧ readCell env cf t f w = some x := by
  rw [← infBias_none_iff hf] at hn
  cases hb : infBias env cf t f with
  | none => exact absurd hb hn
  | some b =>
    have hw : writeCell env cf t f x = some (match b with
        | some pos => if x = .num (infOf pos) then .none else x
        | none => x) := by
      simp only [writeCell, ht, hf, false_and, if_false, hb, Option.map_some]
      cases b <;> rfl
    refine ⟨_, hw, ?_⟩
    cases b with
    | none =>
      simp only [readCell_plain ht hp, hf, hb, Option.map_some]
      by_cases h : x = .none <;> simp [h]
    | some pos =>
      obtain ⟨td, h1, h2, h3⟩ := infBias_some hb
      have hxn : x ≠ .none := by rintro rfl; exact h2 (hx td h1)
      by_cases h : x = .num (infOf pos)
      · simp only [h, if_true, readCell_plain ht hp, hf, hb, Option.map_some]
      · simp only [h, if_false, readCell_plain ht hp, hf, hb, Option.map_some, hxn]

/-- **C19, `None` flag, ambiguity.**  Writing raises exactly for the fields whose type allows both infinities and no null.
-/
theorem none_flag_raises {env : TextEnv} {cf : IOConf} (hf : cf.flag = .none) {t f : String}
    (ht : t ≠ "parameters") (x : Cell) : writeCell env cf t f x = none ↔ NoneFlagAmbiguous env cf t f := by
  rw [← infBias_none_iff hf]
  simp [writeCell, ht, hf]

/-- **C19, `None` flag, what is written.**  `None` takes the place of an infinity only; everything else is written as it
is. -/
theorem none_flag_write {env : TextEnv} {cf : IOConf} (hf : cf.flag = .none) {t f : String}
    (ht : t ≠ "parameters") (x w : Cell) (h : writeCell env cf t f x = some w) :
    w = x ∨ (w = .none ∧ (x = .num .pinf ∨ x = .num .ninf) ∧ ValidAt env cf t f x ∧ ¬ ValidAt env cf t f .none) := by
  simp only [writeCell, ht, hf, false_and, if_false] at h
  cases hb : infBias env cf t f with
  | none => simp [hb] at h
  | some b =>
    cases b with
    | none => simp [hb] at h; exact Or.inl h.symm
    | some pos =>
      obtain ⟨td, h1, h2, h3⟩ := infBias_some hb
      simp only [hb, Option.map_some, Option.some.injEq] at h
      by_cases hx : x = .num (infOf pos)
      · simp only [hx, if_true] at h
        right
        refine ⟨h.symm, ?_, ?_, fun hv => h2 (hv td h1)⟩
        · cases pos <;> simp [hx, infOf]
        · intro td' h1'; rw [h1] at h1'; cases h1'; rw [hx]; exact h3
      · simp only [hx, if_false] at h; exact Or.inl h.symm

/-- `set_infinity_io_flag` accepts no numeric flag but a positive finite one, the hypothesis of the theorems above. -/
theorem set_flag_positive {c : Cell} {q : Rat} (h : setInfFlag c = some (.num q)) : 0 < q := by
  unfold setInfFlag at h
  split at h
  · split at h <;> cases h
  · cases h
  · split at h
    · cases h; assumption
    · cases h
  · cases h

/-- **C43.**  With declared parameters no infinity replacement is done on the parameters table: only nulls are turned into
`None`. -/
theorem parameters_not_flagged_partial (env : TextEnv) (cf : IOConf) (hp : cf.params ≠ []) (f : String) (x : Cell) :
    writeCell env cf "parameters" f x = some (if x = .nan then .none else x) ∧
      readCell env cf "parameters" f x = some x := by
  constructor
  · cases x <;> simp [writeCell, hp, Cell.isNull]
  · simp [readCell]

/-! ### Findings -/

/-- **Finding.**  A `parameters` table without declared parameters is flagged on writing, but never unflagged on reading:
infinity comes back as the flag, a finite number. -/
theorem undeclared_parameters_lose_infinity (env : TextEnv) :
    ∃ (cf : IOConf) (w : Cell), cf.params = [] ∧ cf.flag = .num 1000 ∧
      writeCell env cf "parameters" "Value" (.num .pinf) = some w ∧
      readCell env cf "parameters" "Value" w = some (.num (.fin 1000)) := by
  have : ¬ (1000 : Rat) < -1000 := by decide
  exact ⟨⟨[], .num 1000, false, []⟩, .num (.fin 1000), rfl, rfl, by simp [writeCell, clamp, XNum.lt, this], rfl⟩

/-- **Finding.**  An integer field with minimum minus infinity (inclusive) gets no `None` flag, so for it minus infinity is
written as it is; the mirror image with maximum infinity is flagged. -/
theorem int_min_infinity_not_flagged (env : TextEnv) :
    let lo : TypeDict := ⟨true, true, false, .ninf, .fin 0, true, .oneOf [], false, false⟩
    let hi : TypeDict := ⟨true, true, true, .fin 0, .pinf, true, .oneOf [], false, false⟩
    let cf : IOConf := ⟨[("t", [("lo", lo), ("hi", hi)])], .none, false, []⟩
    writeCell env cf "t" "lo" (.num .ninf) = some (.num .ninf) ∧ writeCell env cf "t" "hi" (.num .pinf) = some .none := by
  constructor
  · simp [writeCell, infBias, DataTypes.at, PyDict.get?, TypeDict.validData, Cell.isNull, XNum.lt, XNum.isInt, infOf]
  · simp [writeCell, infBias, DataTypes.at, PyDict.get?, TypeDict.validData, Cell.isNull, XNum.lt, XNum.isInt, infOf]

/-! ### Non-vacuity -/

/-- An environment: only "12" is the text of a number. -/
def demoText : TextEnv := ⟨fun s => if s = "12" then some (some (.fin 12)) else if s = "nan" then some none else none,
  fun c => if c = .str "today" then some 7 else none, fun c => match c with
    | .num _ => "12"
    | .str s => s
    | .dt _ => "today"
    | .bool _ => "True"
    | _ => ""⟩

def demoIO (flag : InfFlag) : IOConf :=
  ⟨[("t", [("cap", ⟨true, true, true, .fin 0, .pinf, false, .oneOf [], false, false⟩),
      ("any", ⟨true, true, true, .ninf, .pinf, false, .oneOf [], false, false⟩)])], flag, false, []⟩

example : PlainField (demoIO .none) "t" "cap" ∧ ¬ NoneFlagAmbiguous demoText (demoIO .none) "t" "cap" ∧
    NoneFlagAmbiguous demoText (demoIO .none) "t" "any" ∧
    writeCell demoText (demoIO .none) "t" "cap" (.num .pinf) = some .none ∧
    readCell demoText (demoIO .none) "t" "cap" .none = some (.num .pinf) := by
  refine ⟨?_, ?_, ?_, by decide, by decide⟩
  · intro td h
    simp [demoIO, typeOf, List.lookup] at h
    subst h
    simp
  · rw [← infBias_none_iff rfl]; decide
  · rw [← infBias_none_iff rfl]; decide

example : writeCell demoText (demoIO (.num 1000)) "t" "cap" (.num .pinf) = some (.num (.fin 1000)) ∧
    readCell demoText (demoIO (.num 1000)) "t" "cap" (.num (.fin 1000)) = some (.num .pinf) ∧
    readCell demoText (demoIO (.num 1000)) "t" "cap" (.num (.fin 999)) = some (.num (.fin 999)) := by
  decide +kernel

end Ticdat

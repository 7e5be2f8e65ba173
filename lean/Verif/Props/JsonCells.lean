import Verif.Spec.JsonCells
import Verif.Props.DbIO
/-!
# C20: exactly which cells a json file carries
-/
set_option linter.unusedSectionVars false
set_option linter.unusedSimpArgs false
namespace Ticdat
open Spec

/-- How reading ends: with the infinity flag. -/
def flagRead (env : TextEnv) (cf : IOConf) (t f : String) (x : Cell) : Option Cell :=
  match cf.flag with
  | .num q =>
    match x with
    | .num y =>
      if XNum.le (.fin q) y then some (.num .pinf)
      else if XNum.le y (.fin (-q)) then some (.num .ninf)
      else some x
    | x => some x
  | .none =>
    if x = .none then (infBias env cf t f).map (fun b =>
      match b with
      | some pos => .num (infOf pos)
      | none => x)
    else some x
  | .na => some x

theorem flagRead_no_text (env : TextEnv) (cf : IOConf) (t f : String) (x y : Cell) (h : flagRead env cf t f x = some y) :
    y = x ∨ ∃ i, y = .num i := by
  unfold flagRead at h
  cases hf : cf.flag with
  | na => rw [hf] at h; simp at h; exact .inl h.symm
  | num q =>
    rw [hf] at h
    simp only at h
    cases x with
    | num z =>
      simp only at h
      split at h
      · cases h; exact .inr ⟨_, rfl⟩
      · split at h
        · cases h; exact .inr ⟨_, rfl⟩
        · cases h; exact .inl rfl
    | _ => simp at h; exact .inl h.symm
  | none =>
    rw [hf] at h
    simp only at h
    split at h
    · rename_i hx
      rw [Option.map_eq_some_iff] at h
      obtain ⟨b, _, h⟩ := h
      cases b with
      | none => exact .inl h.symm
      | some pos => exact .inr ⟨_, h.symm⟩
    · cases h; exact .inl rfl

/-- Reading, for cells that json knows. -/
theorem readCell_json (env : TextEnv) (cf : IOConf) (t f : String) (ht : t ≠ "parameters") (x : Cell) (hdt : ∀ d, x ≠ .dt d)
    (ho : ∀ o, x ≠ .other o) :
    (ReadAsDate env cf t f x ∧ ∃ d, readCell env cf t f x = some (.dt d)) ∨
    (¬ ReadAsDate env cf t f x ∧ ReadAsNumber env cf t f x ∧ ∃ w, (w = .nan ∨ ∃ i, w = .num i) ∧ readCell env cf t f x = flagRead env cf t f w) ∨
    (¬ ReadAsDate env cf t f x ∧ ¬ ReadAsNumber env cf t f x ∧ readCell env cf t f x = flagRead env cf t f x) := by
  have hread : readCell env cf t f x =
      match (if ((cf.types.at t f).map (·.datetime)).getD false && !x.isNull then dateAdjust env x else none) with
      | some d => some (.dt d)
      | none => flagRead env cf t f (if ((cf.types.at t f).map (fun td => !td.datetime && td.strings.truthy && td.numberAllowed)).getD false &&
          cf.automunge then (toFloat env x).getD x else x) := by
    unfold readCell flagRead
    rw [if_neg ht]
    rfl
  rw [hread, at_eq_typeOf]
  have htruthy : ∀ s : Strings, s.truthy = true ↔ s ≠ .oneOf [] := by
    intro s
    cases s with
    | any => simp [Strings.truthy]
    | oneOf l => cases l <;> simp [Strings.truthy]
  cases hty : typeOf cf.types t f with
  | none =>
    refine .inr (.inr ⟨?_, ?_, ?_⟩)
    · rintro ⟨⟨td, h, _⟩, _⟩; rw [hty] at h; cases h
    · rintro ⟨_, ⟨td, h, _⟩, _⟩; rw [hty] at h; cases h
    · simp
  | some td =>
    simp only [Option.map_some, Option.getD_some]
    rcases Bool.eq_false_or_eq_true td.datetime with hd | hd
    · simp only [hd]
      have hno : ¬ ReadAsNumber env cf t f x := by
        rintro ⟨_, ⟨td', h, h2, _⟩, _⟩
        rw [hty] at h
        cases h
        rw [hd] at h2
        cases h2
      simp only [Bool.true_and, Bool.not_true, Bool.false_and, Bool.false_eq_true, if_false]
      cases x with
      | dt d => exact absurd rfl (hdt d)
      | other o => exact absurd rfl (ho o)
      | none => exact .inr (.inr ⟨fun h => (by rcases h.2.1 with ⟨b, e⟩ | ⟨s, e⟩ <;> cases e), hno, rfl⟩)
      | nan => exact .inr (.inr ⟨fun h => (by rcases h.2.1 with ⟨b, e⟩ | ⟨s, e⟩ <;> cases e), hno, rfl⟩)
      | num y => exact .inr (.inr ⟨fun h => (by rcases h.2.1 with ⟨b, e⟩ | ⟨s, e⟩ <;> cases e), hno, rfl⟩)
      | bool b =>
        cases hdate : env.date (.bool b) with
        | some d => exact .inl ⟨⟨⟨td, hty, hd⟩, .inl ⟨b, rfl⟩, d, hdate⟩, d, by simp [Cell.isNull, dateAdjust, hdate]⟩
        | none =>
          refine .inr (.inr ⟨fun h => ?_, hno, by simp [Cell.isNull, dateAdjust, hdate]⟩)
          obtain ⟨_, _, d, h⟩ := h
          rw [hdate] at h
          cases h
      | str b =>
        cases hdate : env.date (.str b) with
        | some d => exact .inl ⟨⟨⟨td, hty, hd⟩, .inr ⟨b, rfl⟩, d, hdate⟩, d, by simp [Cell.isNull, dateAdjust, hdate]⟩
        | none =>
          refine .inr (.inr ⟨fun h => ?_, hno, by simp [Cell.isNull, dateAdjust, hdate]⟩)
          obtain ⟨_, _, d, h⟩ := h
          rw [hdate] at h
          cases h
    · simp only [hd]
      have hnd : ¬ ReadAsDate env cf t f x := by
        rintro ⟨⟨td', h, h2⟩, _⟩
        rw [hty] at h
        cases h
        rw [hd] at h2
        cases h2
      simp only [Bool.false_and, Bool.false_eq_true, if_false, Bool.not_false, Bool.true_and]
      by_cases hm : (td.strings.truthy && td.numberAllowed && cf.automunge) = true
      · rw [if_pos hm]
        simp only [Bool.and_eq_true] at hm
        have hfield : cf.automunge = true ∧ ∃ td, typeOf cf.types t f = some td ∧ td.datetime = false ∧ td.numberAllowed = true ∧
            td.strings ≠ .oneOf [] := ⟨hm.2, td, hty, hd, hm.1.2, (htruthy _).mp hm.1.1⟩
        cases x with
        | dt d => exact absurd rfl (hdt d)
        | other o => exact absurd rfl (ho o)
        | none => exact .inr (.inr ⟨hnd, fun h => (by rcases h.2.2 with ⟨b, e⟩ | ⟨s, y, e, _⟩ <;> cases e), rfl⟩)
        | nan => exact .inr (.inr ⟨hnd, fun h => (by rcases h.2.2 with ⟨b, e⟩ | ⟨s, y, e, _⟩ <;> cases e), rfl⟩)
        | num y => exact .inr (.inr ⟨hnd, fun h => (by rcases h.2.2 with ⟨b, e⟩ | ⟨s, y, e, _⟩ <;> cases e), rfl⟩)
        | bool b => exact .inr (.inl ⟨hnd, ⟨hfield.1, hfield.2, .inl ⟨b, rfl⟩⟩, _, .inr ⟨_, rfl⟩, rfl⟩)
        | str b =>
          cases hfl : env.float b with
          | none =>
            refine .inr (.inr ⟨hnd, fun h => ?_, by simp [toFloat, hfl]⟩)
            rcases h.2.2 with ⟨b, e⟩ | ⟨s, y, e, h⟩
            · cases e
            · cases e
              rw [hfl] at h
              cases h
          | some y =>
            refine .inr (.inl ⟨hnd, ⟨hfield.1, hfield.2, .inr ⟨b, y, rfl, hfl⟩⟩, floatCell y, ?_, by simp [toFloat, hfl]⟩)
            cases y with
            | none => exact .inl rfl
            | some y => exact .inr ⟨y, rfl⟩
      · rw [if_neg hm]
        refine .inr (.inr ⟨hnd, fun h => hm ?_, rfl⟩)
        obtain ⟨h1, ⟨td', h2, _, h3, h4⟩, _⟩ := h
        rw [hty] at h2
        cases h2
        simp [h1, h3, (htruthy _).mpr h4]

theorem infBias_cases (env : TextEnv) (cf : IOConf) (hf : cf.flag = .none) (t f : String) :
    (NoneFlagAmbiguous env cf t f ∧ infBias env cf t f = none) ∨
    (¬ NoneFlagAmbiguous env cf t f ∧ (∀ i, ¬ NoneMeans env cf t f i) ∧ infBias env cf t f = some none) ∨
    ∃ pos, ¬ NoneFlagAmbiguous env cf t f ∧ (∀ i, NoneMeans env cf t f i ↔ i = infOf pos) ∧ infBias env cf t f = some (some pos) := by
  have hinf : ∀ i, NoneMeans env cf t f i → ∃ pos, i = infOf pos := by
    rintro i ⟨td, _, _, _, ⟨rfl, _⟩ | ⟨rfl, _⟩⟩
    · exact ⟨true, rfl⟩
    · exact ⟨false, rfl⟩
  cases hb : infBias env cf t f with
  | none => exact .inl ⟨(infBias_none_iff hf).mp hb, rfl⟩
  | some b =>
    have hna : ¬ NoneFlagAmbiguous env cf t f := fun h => by
      rw [(infBias_none_iff hf).mpr h] at hb
      cases hb
    cases b with
    | none =>
      refine .inr (.inl ⟨hna, fun i hi => ?_, rfl⟩)
      obtain ⟨pos, rfl⟩ := hinf i hi
      rw [(infBias_some_iff hf pos).mpr hi] at hb
      cases hb
    | some pos =>
      refine .inr (.inr ⟨pos, hna, fun i => ⟨fun hi => ?_, fun e => ?_⟩, rfl⟩)
      · obtain ⟨pos', rfl⟩ := hinf i hi
        rw [(infBias_some_iff hf pos').mpr hi] at hb
        cases hb
        rfl
      · subst e
        exact (infBias_some_iff hf pos).mp hb

/-- Writing and then the flag part of reading, outside the parameters table. -/
theorem flag_trip (env : TextEnv) (cf : IOConf) (hq : ∀ q, cf.flag = .num q → 0 < q) (t f : String) (ht : t ≠ "parameters") (x : Cell) :
    (∃ w, writeCell env cf t f x = some w ∧ flagRead env cf t f w = some x) ↔
      match cf.flag with
      | .na => True
      | .num q => ∀ y, x = .num y → y = .pinf ∨ y = .ninf ∨ ∃ a, y = .fin a ∧ -q < a ∧ a < q
      | .none => ¬ NoneFlagAmbiguous env cf t f ∧ (x = .none → ∀ i, ¬ NoneMeans env cf t f i) := by
  unfold writeCell flagRead
  rw [if_neg (fun h => ht h.1)]
  cases hf : cf.flag with
  | na => simp
  | num q =>
    have hq' := hq q hf
    cases x with
    | num y =>
      simp only [Option.some.injEq, exists_eq_left', Cell.num.injEq, forall_eq']
      cases y with
      | pinf => simp [clamp, XNum.lt, XNum.le]; grind
      | ninf => simp [clamp, XNum.lt, XNum.le]; grind
      | fin a =>
        simp only [clamp, XNum.lt, XNum.le, decide_eq_true_eq]
        by_cases h1 : q < a
        · rw [if_pos h1]
          grind
        · rw [if_neg h1]
          by_cases h2 : a < -q
          · grind
          · grind
    | _ => simp
  | none =>
    simp only
    rcases infBias_cases env cf hf t f with ⟨h1, h2⟩ | ⟨h1, h2, h3⟩ | ⟨pos, h1, h2, h3⟩
    · simp [h1, h2]
    · rw [h3]
      simp [h1, h2]
    · rw [h3]
      simp only [Option.map_some, Option.some.injEq, exists_eq_left', h1, not_false_eq_true, true_and, h2]
      by_cases hx : x = .num (infOf pos)
      · subst hx
        simp
      · rw [if_neg hx]
        by_cases hn : x = .none
        · subst hn
          simp
        · simp [hn]

/-- What writing makes of a cell that json knows is one that json knows, of a kind that reading does not take for a datetime or a number
unless it did so before. -/
theorem write_kind (env : TextEnv) (cf : IOConf) (t f : String) (x w : Cell) (h : writeCell env cf t f x = some w) :
    w = x ∨ w = .none ∨ ((∃ i, x = .num i) ∧ ∃ i, w = .num i) := by
  unfold writeCell at h
  split at h
  · simp only [Option.some.injEq] at h
    split at h
    · exact .inr (.inl h.symm)
    · exact .inl h.symm
  · cases hf : cf.flag with
    | na => rw [hf] at h; simp at h; exact .inl h.symm
    | num q =>
      rw [hf] at h
      cases x with
      | num y => simp at h; exact .inr (.inr ⟨⟨y, rfl⟩, _, h.symm⟩)
      | _ => simp at h; exact .inl h.symm
    | none =>
      rw [hf] at h
      simp only [Option.map_eq_some_iff] at h
      obtain ⟨b, _, h⟩ := h
      cases b with
      | none => exact .inl h.symm
      | some pos =>
        simp only at h
        split at h
        · exact .inr (.inl h.symm)
        · exact .inl h.symm

theorem write_same (env : TextEnv) (cf : IOConf) (t f : String) (hp : ¬ (t = "parameters" ∧ cf.params ≠ [])) (x : Cell) :
    writeCell env cf t f x = some x ↔
      match cf.flag with
      | .na => True
      | .num q => ∀ y, x = .num y → clamp q y = y
      | .none => ¬ NoneFlagAmbiguous env cf t f ∧ ∀ i, x = .num i → ¬ NoneMeans env cf t f i := by
  unfold writeCell
  rw [if_neg hp]
  cases hf : cf.flag with
  | na => simp
  | num q => cases x <;> simp
  | none =>
    simp only
    rcases infBias_cases env cf hf t f with ⟨h1, h2⟩ | ⟨h1, h2, h3⟩ | ⟨pos, h1, h2, h3⟩
    · simp [h1, h2]
    · rw [h3]
      simp [h1, h2]
    · rw [h3]
      simp only [Option.map_some, Option.some.injEq, h1, not_false_eq_true, true_and, h2]
      by_cases hx : x = .num (infOf pos)
      · subst hx
        simp
      · rw [if_neg hx]
        simp only [true_iff]
        rintro i rfl e
        exact hx (by rw [e])

theorem clamp_self (q : Rat) (hq : 0 < q) (y : XNum) : clamp q y = y ↔ ∃ a, y = .fin a ∧ -q ≤ a ∧ a ≤ q := by
  cases y with
  | pinf => simp [clamp, XNum.lt]; grind
  | ninf => simp [clamp, XNum.lt]
  | fin a =>
    simp only [clamp, XNum.lt, decide_eq_true_eq, XNum.fin.injEq, exists_eq_left']
    by_cases h1 : q < a
    · rw [if_pos h1]
      grind
    · rw [if_neg h1]
      by_cases h2 : a < -q
      · grind
      · grind

/-- **C20, exactly which cells come back.** -/
theorem json_cell_iff {env : TextEnv} (hT : ∀ d, env.date (.str (env.text (.dt d))) = some d) (cf : IOConf)
    (hq : ∀ q, cf.flag = .num q → 0 < q) (t f : String) (x : Cell) (hnp : ¬ IsParams cf.params t) :
    JsonCell env cf t f x x ↔ JsonKeeps env cf t f x := by
  by_cases hdt : ∃ d, x = .dt d
  · obtain ⟨d, rfl⟩ := hdt
    show JsonCell env cf t f (.dt d) (.dt d) ↔ t ≠ "parameters" ∧ ∃ td, typeOf cf.types t f = some td ∧ td.datetime = true
    have hcell : JsonCell env cf t f (.dt d) (.dt d) ↔ readCell env cf t f (.str (env.text (.dt d))) = some (.dt d) := by
      unfold JsonCell jsonWriteCell
      simp [jsonable]
    rw [hcell]
    by_cases ht : t = "parameters"
    · simp [readCell, ht]
    · simp only [ne_eq, ht, not_false_eq_true, true_and]
      rcases readCell_json env cf t f ht (.str (env.text (.dt d))) (fun d h => by cases h) (fun o h => by cases h) with
        ⟨⟨h1, _⟩, d', h2⟩ | ⟨hno, _, w, hw, h2⟩ | ⟨hno, _, h2⟩
      · obtain ⟨td, h3, h4⟩ := h1
        refine ⟨fun _ => ⟨td, h3, h4⟩, fun _ => ?_⟩
        unfold readCell
        simp [ht, at_eq_typeOf, h3, h4, Cell.isNull, dateAdjust, hT]
      · rw [h2]
        refine ⟨fun h => ?_, fun h => absurd ⟨h, .inr ⟨_, rfl⟩, d, hT d⟩ hno⟩
        rcases flagRead_no_text env cf t f w _ h with e | ⟨i, e⟩
        · rcases hw with rfl | ⟨i, rfl⟩ <;> cases e
        · cases e
      · rw [h2]
        refine ⟨fun h => ?_, fun h => absurd ⟨h, .inr ⟨_, rfl⟩, d, hT d⟩ hno⟩
        rcases flagRead_no_text env cf t f _ _ h with e | ⟨i, e⟩ <;> cases e
  by_cases hot : ∃ o, x = .other o
  · obtain ⟨o, rfl⟩ := hot
    show JsonCell env cf t f (.other o) (.other o) ↔ False
    refine ⟨?_, fun h => h.elim⟩
    rintro ⟨w, h1, h2, h3⟩
    rcases write_kind env cf t f (.other o) w h1 with rfl | rfl | ⟨⟨i, e⟩, _⟩
    · cases h2
    · by_cases ht : t = "parameters"
      · simp [readCell, ht] at h3
      · rcases readCell_json env cf t f ht .none (fun d h => by cases h) (fun o h => by cases h) with
          ⟨_, d, h4⟩ | ⟨_, _, w, hw, h4⟩ | ⟨_, _, h4⟩
        · rw [h4] at h3; cases h3
        · rw [h4] at h3
          rcases flagRead_no_text env cf t f w _ h3 with e | ⟨i, e⟩
          · rcases hw with rfl | ⟨i, rfl⟩ <;> cases e
          · cases e
        · rw [h4] at h3
          rcases flagRead_no_text env cf t f _ _ h3 with e | ⟨i, e⟩ <;> cases e
    · cases e
  have hdt' : ∀ d, x ≠ .dt d := fun d h => hdt ⟨d, h⟩
  have hot' : ∀ o, x ≠ .other o := fun o h => hot ⟨o, h⟩
  have hkeeps : JsonKeeps env cf t f x ↔ ((t ≠ "parameters" → ¬ ReadAsDate env cf t f x ∧ ¬ ReadAsNumber env cf t f x) ∧
      match cf.flag with
      | .na => True
      | .num q => ∀ y, x = .num y →
          if t = "parameters" then ∃ a, y = .fin a ∧ -q ≤ a ∧ a ≤ q
          else y = .pinf ∨ y = .ninf ∨ ∃ a, y = .fin a ∧ -q < a ∧ a < q
      | .none => ¬ NoneFlagAmbiguous env cf t f ∧
          if t = "parameters" then ∀ i, x = .num i → ¬ NoneMeans env cf t f i
          else x = .none → ∀ i, ¬ NoneMeans env cf t f i) := by
    unfold JsonKeeps
    cases x with
    | dt d => exact absurd rfl (hdt' d)
    | other o => exact absurd rfl (hot' o)
    | _ => rfl
  have hjson : jsonable x = true := by
    cases x with
    | dt d => exact absurd rfl (hdt' d)
    | other o => exact absurd rfl (hot' o)
    | _ => rfl
  have hwrite : jsonWriteCell env cf t f x = writeCell env cf t f x := by
    cases x with
    | dt d => exact absurd rfl (hdt' d)
    | _ => rfl
  rw [hkeeps]
  by_cases ht : t = "parameters"
  · have hp : ¬ (t = "parameters" ∧ cf.params ≠ []) := fun h => hnp ⟨h.2, h.1⟩
    have hcell : JsonCell env cf t f x x ↔ writeCell env cf t f x = some x := by
      unfold JsonCell
      rw [hwrite]
      constructor
      · rintro ⟨w, h1, _, h3⟩
        simp [readCell, ht] at h3
        rw [h1, h3]
      · intro h
        exact ⟨x, h, hjson, by simp [readCell, ht]⟩
    rw [hcell, write_same env cf t f hp x]
    simp only [ht, ne_eq, not_true_eq_false, false_implies, true_and, if_true]
    cases hf : cf.flag with
    | na => rfl
    | num q => simp only [clamp_self q (hq q hf)]
    | none => rfl
  · have htrip := flag_trip env cf hq t f ht x
    simp only [ht, ne_eq, not_false_eq_true, true_implies, if_false]
    rw [← htrip]
    unfold JsonCell
    rw [hwrite]
    have hasDate : ∀ w, writeCell env cf t f x = some w → (ReadAsDate env cf t f w → w = x) ∧ (ReadAsNumber env cf t f w → w = x) ∧
        jsonable w = true ∧ (∀ d, w ≠ .dt d) ∧ ∀ o, w ≠ .other o := by
      intro w hw
      rcases write_kind env cf t f x w hw with rfl | rfl | ⟨_, i, rfl⟩
      · exact ⟨fun _ => rfl, fun _ => rfl, hjson, hdt', hot'⟩
      · refine ⟨fun h => ?_, fun h => ?_, rfl, (fun d h => by cases h), (fun o h => by cases h)⟩
        · rcases h.2.1 with ⟨b, e⟩ | ⟨s, e⟩ <;> cases e
        · rcases h.2.2 with ⟨b, e⟩ | ⟨s, y, e, _⟩ <;> cases e
      · refine ⟨fun h => ?_, fun h => ?_, rfl, (fun d h => by cases h), (fun o h => by cases h)⟩
        · rcases h.2.1 with ⟨b, e⟩ | ⟨s, e⟩ <;> cases e
        · rcases h.2.2 with ⟨b, e⟩ | ⟨s, y, e, _⟩ <;> cases e
    constructor
    · rintro ⟨w, h1, _, h3⟩
      obtain ⟨k1, k2, _, k4, k5⟩ := hasDate w h1
      rcases readCell_json env cf t f ht w k4 k5 with ⟨_, d, h4⟩ | ⟨_, hn, v, hv, h4⟩ | ⟨hd, hn, h4⟩
      · rw [h4] at h3
        simp only [Option.some.injEq] at h3
        exact absurd h3.symm (hdt' d)
      · rw [h4] at h3
        have e := k2 hn
        subst e
        have hx : (∃ b, w = .bool b) ∨ ∃ s, w = .str s := by
          rcases hn.2.2 with ⟨b, e⟩ | ⟨s, y, e, _⟩
          · exact .inl ⟨b, e⟩
          · exact .inr ⟨s, e⟩
        rcases flagRead_no_text env cf t f v _ h3 with e | ⟨i, e⟩
        · rcases hx with ⟨b, rfl⟩ | ⟨s, rfl⟩ <;> rcases hv with rfl | ⟨i, rfl⟩ <;> cases e
        · rcases hx with ⟨b, rfl⟩ | ⟨s, rfl⟩ <;> cases e
      · rw [h4] at h3
        refine ⟨⟨fun h => ?_, fun h => ?_⟩, w, h1, h3⟩
        · rcases write_kind env cf t f x w h1 with e | e | ⟨⟨i, rfl⟩, _⟩
          · subst e; exact hd h
          · subst e
            rcases flagRead_no_text env cf t f _ _ h3 with e | ⟨i, e⟩
            · subst e; rcases h.2.1 with ⟨b, e⟩ | ⟨s, e⟩ <;> cases e
            · subst e; rcases h.2.1 with ⟨b, e⟩ | ⟨s, e⟩ <;> cases e
          · rcases h.2.1 with ⟨b, e⟩ | ⟨s, e⟩ <;> cases e
        · rcases write_kind env cf t f x w h1 with e | e | ⟨⟨i, rfl⟩, _⟩
          · subst e; exact hn h
          · subst e
            rcases flagRead_no_text env cf t f _ _ h3 with e | ⟨i, e⟩
            · subst e; rcases h.2.2 with ⟨b, e⟩ | ⟨s, y, e, _⟩ <;> cases e
            · subst e; rcases h.2.2 with ⟨b, e⟩ | ⟨s, y, e, _⟩ <;> cases e
          · rcases h.2.2 with ⟨b, e⟩ | ⟨s, y, e, _⟩ <;> cases e
    · rintro ⟨⟨hd, hn⟩, w, h1, h2⟩
      obtain ⟨k1, k2, k3, k4, k5⟩ := hasDate w h1
      refine ⟨w, h1, k3, ?_⟩
      rcases readCell_json env cf t f ht w k4 k5 with ⟨h3, _⟩ | ⟨_, h3, _⟩ | ⟨_, _, h4⟩
      · have e := k1 h3
        subst e
        exact absurd h3 hd
      · have e := k2 h3
        subst e
        exact absurd h3 hn
      · rw [h4]
        exact h2

end Ticdat

import Verif.Spec.CsvCells
import Verif.Props.JsonCells
import Verif.Props.CsvTable
/-!
# C46: exactly which cells a csv file carries
-/
set_option linter.unusedSectionVars false
set_option linter.unusedSimpArgs false
namespace Ticdat
open Spec

/-- What `None` is read as. -/
theorem none_read_cases (env : TextEnv) (cf : IOConf) (t f : String) :
    (readCell env cf t f .none = some .none ∧ ¬ (t ≠ "parameters" ∧ cf.flag = .none ∧ ∃ i, NoneMeans env cf t f i)) ∨
    (∃ pos, (t ≠ "parameters" ∧ cf.flag = .none) ∧ (∀ i, NoneMeans env cf t f i ↔ i = infOf pos) ∧
      readCell env cf t f .none = some (.num (infOf pos))) ∨
    (t ≠ "parameters" ∧ cf.flag = .none ∧ NoneFlagAmbiguous env cf t f ∧ readCell env cf t f .none = none) := by
  by_cases ht : t = "parameters"
  · exact .inl ⟨readCell_none_plain env cf t f (.inl ht), fun h => h.1 ht⟩
  by_cases hf : cf.flag = .none
  · have hr : readCell env cf t f .none = (infBias env cf t f).map (fun b =>
        match b with
        | some pos => .num (infOf pos)
        | none => .none) := by
      unfold readCell
      simp [ht, hf, Cell.isNull, toFloat]
      rfl
    rcases infBias_cases env cf hf t f with ⟨h1, h2⟩ | ⟨h1, h2, h3⟩ | ⟨pos, h1, h2, h3⟩
    · exact .inr (.inr ⟨ht, hf, h1, by rw [hr, h2]; rfl⟩)
    · exact .inl ⟨by rw [hr, h3]; rfl, fun ⟨_, _, i, h⟩ => h2 i h⟩
    · exact .inr (.inl ⟨pos, ⟨ht, hf⟩, h2, by rw [hr, h3]; rfl⟩)
  · exact .inl ⟨readCell_none_plain env cf t f (.inr hf), fun h => hf h.2.1⟩

/-- How a csv reader sees a text. -/
theorem csvRead_seen {env : TextEnv} (hempty : env.float "" = none) (cf : IOConf) (dv : Defaults) (t f s : String) (ht : ¬ IsParams cf.params t) :
    (s = "" ∧ (CsvNullField cf dv t f ∨ ∃ y, readCell env cf t f .none = some y ∧ y.numericish = true) ∧
      csvReadCell env cf dv t f (.str s) = readCell env cf t f .none) ∨
    (s = "" ∧ ¬ CsvNullField cf dv t f ∧ readCell env cf t f .none = none ∧ csvReadCell env cf dv t f (.str s) = none) ∨
    ((s = "" → ¬ CsvNullField cf dv t f ∧ ∃ y, readCell env cf t f .none = some y ∧ y.numericish = false) ∧
      CsvNumField cf dv t f ∧ ∃ v, env.float s = some v ∧ csvReadCell env cf dv t f (.str s) = readCell env cf t f (floatCell v)) ∨
    ((s = "" → ¬ CsvNullField cf dv t f ∧ ∃ y, readCell env cf t f .none = some y ∧ y.numericish = false) ∧
      (CsvNumField cf dv t f → env.float s = none) ∧
      csvReadCell env cf dv t f (.str s) = readCell env cf t f (.str s)) := by
  have hp : ¬ (t = "parameters" ∧ cf.params ≠ []) := fun hh => ht ⟨hh.2, hh.1⟩
  have hnull : (((typeOf cf.types t f).map (·.nullable)).getD (decide (dv t f = some .none)) = true) ↔
      CsvNullField cf dv t f := by
    unfold CsvNullField
    cases typeOf cf.types t f <;> simp
  have hlast : ∀ (hs : s = "" → ¬ CsvNullField cf dv t f ∧ ∃ y, readCell env cf t f .none = some y ∧ y.numericish = false),
      (CsvNumField cf dv t f ∧ ∃ v, env.float s = some v ∧ csvReadCell env cf dv t f (.str s) = readCell env cf t f (floatCell v)) ∨
      ((CsvNumField cf dv t f → env.float s = none) ∧ csvReadCell env cf dv t f (.str s) = readCell env cf t f (.str s)) := by
    intro hs
    by_cases hc : CsvNumField cf dv t f
    · cases hfl : env.float s with
      | none =>
        exact .inr ⟨fun _ => rfl, csvReadCell_eq env cf dv t f s ht _ (.inr (.inr ⟨rfl, fun _ => hfl, hs⟩))⟩
      | some v =>
        refine .inl ⟨hc, v, rfl, csvReadCell_eq env cf dv t f s ht _ (.inr (.inl ⟨?_, hc, by rw [hfl]; rfl⟩))⟩
        rintro rfl
        rw [hempty] at hfl
        cases hfl
    · exact .inr ⟨fun h => absurd h hc, csvReadCell_eq env cf dv t f s ht _ (.inr (.inr ⟨rfl, fun h => absurd h hc, hs⟩))⟩
  by_cases he : s = ""
  · by_cases hn : CsvNullField cf dv t f
    · exact .inl ⟨he, .inl hn, csvReadCell_eq env cf dv t f s ht .none (.inl ⟨he, rfl, .inl hn⟩)⟩
    · cases hr : readCell env cf t f .none with
      | none =>
        refine .inr (.inl ⟨he, hn, rfl, ?_⟩)
        subst he
        unfold csvReadCell
        simp only [if_neg hp, at_eq_typeOf, if_true]
        rw [if_neg (fun hh => hn (hnull.mp hh)), hr]
        rfl
      | some y =>
        cases hy : y.numericish with
        | true =>
          have h := csvReadCell_eq env cf dv t f s ht .none (.inl ⟨he, rfl, .inr ⟨y, hr, hy⟩⟩)
          exact .inl ⟨he, .inr ⟨y, rfl, hy⟩, by rw [h, hr]⟩
        | false =>
          have hs : s = "" → ¬ CsvNullField cf dv t f ∧ ∃ z, some y = some z ∧ z.numericish = false := fun _ => ⟨hn, y, rfl, hy⟩
          rcases hlast (by rw [hr]; exact hs) with h | h
          · exact .inr (.inr (.inl ⟨hs, h⟩))
          · exact .inr (.inr (.inr ⟨hs, h⟩))
  · have hs : s = "" → ¬ CsvNullField cf dv t f ∧ ∃ y, readCell env cf t f .none = some y ∧ y.numericish = false :=
      fun h => absurd h he
    rcases hlast hs with h | h
    · exact .inr (.inr (.inl ⟨hs, h⟩))
    · exact .inr (.inr (.inr ⟨hs, h⟩))

theorem read_none_kind {env : TextEnv} {cf : IOConf} {t f : String} {y : Cell} (h : readCell env cf t f .none = some y) :
    y = .none ∨ ∃ i, y = .num i := by
  rcases none_read_cases env cf t f with ⟨h1, _⟩ | ⟨pos, _, _, h1⟩ | ⟨_, _, _, h1⟩
  · rw [h1] at h; cases h; exact .inl rfl
  · rw [h1] at h; cases h; exact .inr ⟨_, rfl⟩
  · rw [h1] at h; cases h

theorem read_float_kind {env : TextEnv} {cf : IOConf} {t f : String} (v : Option XNum) {y : Cell}
    (h : readCell env cf t f (floatCell v) = some y) : y = .nan ∨ ∃ i, y = .num i := by
  have hw : floatCell v = .nan ∨ ∃ i, floatCell v = .num i := by
    cases v with
    | none => exact .inl rfl
    | some i => exact .inr ⟨i, rfl⟩
  by_cases ht : t = "parameters"
  · simp [readCell, ht] at h
    rw [← h]; exact hw
  · rcases readCell_json env cf t f ht (floatCell v) (by rcases hw with e | ⟨i, e⟩ <;> rw [e] <;> intro d h <;> cases h)
      (by rcases hw with e | ⟨i, e⟩ <;> rw [e] <;> intro d h <;> cases h) with ⟨h1, _⟩ | ⟨_, h1, _⟩ | ⟨_, _, h1⟩
    · rcases h1.2.1 with ⟨b, e'⟩ | ⟨s, e'⟩ <;> rcases hw with e | ⟨i, e⟩ <;> rw [e] at e' <;> cases e'
    · rcases h1.2.2 with ⟨b, e'⟩ | ⟨s, _, e', _⟩ <;> rcases hw with e | ⟨i, e⟩ <;> rw [e] at e' <;> cases e'
    · rw [h1] at h
      rcases flagRead_no_text env cf t f _ _ h with e | e
      · rw [e]; exact hw
      · exact .inr e

theorem flagRead_str (env : TextEnv) (cf : IOConf) (t f s : String) : flagRead env cf t f (.str s) = some (.str s) := by
  unfold flagRead
  cases cf.flag <;> simp

theorem read_str_kind {env : TextEnv} {cf : IOConf} {dv : Defaults} {t f s : String} {y : Cell}
    (hn : CsvNumField cf dv t f → env.float s = none) (h : readCell env cf t f (.str s) = some y) :
    y = .str s ∨ ∃ d, y = .dt d := by
  by_cases ht : t = "parameters"
  · simp [readCell, ht] at h
    exact .inl h.symm
  · rcases readCell_json env cf t f ht (.str s) (fun d h => by cases h) (fun o h => by cases h) with
      ⟨_, d, h1⟩ | ⟨_, h1, _⟩ | ⟨_, _, h1⟩
    · rw [h1] at h; cases h; exact .inr ⟨d, rfl⟩
    · obtain ⟨_, ⟨td, hty, _, h3, _⟩, h4⟩ := h1
      rcases h4 with ⟨b, e⟩ | ⟨s', z, e, h5⟩
      · cases e
      · cases e
        rw [hn (by unfold CsvNumField; rw [hty]; exact h3)] at h5
        cases h5
    · rw [h1, flagRead_str] at h; cases h; exact .inl rfl

theorem json_cell_plain {env : TextEnv} {cf : IOConf} {t f : String} {x w : Cell} (hdt : ∀ d, x ≠ .dt d)
    (hw : writeCell env cf t f x = some w) (hj : jsonable w = true) (hr : readCell env cf t f w = some x) :
    JsonCell env cf t f x x := by
  refine ⟨w, ?_, hj, hr⟩
  cases x with
  | dt d => exact absurd rfl (hdt d)
  | _ => exact hw

theorem json_cell_unplain {env : TextEnv} {cf : IOConf} {t f : String} {x : Cell} (hdt : ∀ d, x ≠ .dt d)
    (h : JsonCell env cf t f x x) : ∃ w, writeCell env cf t f x = some w ∧ jsonable w = true ∧ readCell env cf t f w = some x := by
  obtain ⟨w, h1, h2, h3⟩ := h
  refine ⟨w, ?_, h2, h3⟩
  cases x with
  | dt d => exact absurd rfl (hdt d)
  | _ => exact h1

theorem write_dt (env : TextEnv) (cf : IOConf) (t f : String) (d : Nat) (hnp : ¬ IsParams cf.params t) :
    (∃ v, writeCell env cf t f (.dt d) = some v) ↔ (cf.flag = .none → ¬ NoneFlagAmbiguous env cf t f) := by
  have hp : ¬ (t = "parameters" ∧ cf.params ≠ []) := fun hh => hnp ⟨hh.2, hh.1⟩
  unfold writeCell
  rw [if_neg hp]
  cases hf : cf.flag with
  | na => simp
  | num q => simp
  | none =>
    simp only [forall_const]
    rw [← infBias_none_iff hf]
    cases infBias env cf t f <;> simp

/-- **C46, exactly which cells come back.** -/
theorem csv_cell_iff {env : TextEnv} (hT : CsvTextOK env) (cf : IOConf) (hq : ∀ q, cf.flag = .num q → 0 < q) (dv : Defaults)
    (t f : String) (x : Cell) (hnp : ¬ IsParams cf.params t) : CsvCell env cf dv t f x x ↔ CsvKeeps env cf dv t f x := by
  have hne : ∀ y, env.text (.num y) ≠ "" := by
    intro y e
    have := hT.num y
    rw [e, hT.empty] at this
    cases this
  have hnan : env.text .nan ≠ "" := by
    intro e
    have := hT.nan
    rw [e, hT.empty] at this
    cases this
  have hjson := json_cell_iff hT.dt cf hq t f x hnp
  unfold CsvKeeps
  rw [← hjson]
  cases x with
  | bool b =>
    simp only [and_false, iff_false]
    rintro ⟨v, hv, h⟩
    rcases csvRead_seen hT.empty cf dv t f (env.text v) hnp with ⟨_, _, h1⟩ | ⟨_, _, _, h1⟩ | ⟨_, _, w, _, h1⟩ | ⟨_, hn, h1⟩
    · rw [h1] at h; rcases read_none_kind h with e | ⟨i, e⟩ <;> cases e
    · rw [h1] at h; cases h
    · rw [h1] at h; rcases read_float_kind w h with e | ⟨i, e⟩ <;> cases e
    · rw [h1] at h; rcases read_str_kind hn h with e | ⟨i, e⟩ <;> cases e
  | other b =>
    simp only [and_false, iff_false]
    rintro ⟨v, hv, h⟩
    rcases csvRead_seen hT.empty cf dv t f (env.text v) hnp with ⟨_, _, h1⟩ | ⟨_, _, _, h1⟩ | ⟨_, _, w, _, h1⟩ | ⟨_, hn, h1⟩
    · rw [h1] at h; rcases read_none_kind h with e | ⟨i, e⟩ <;> cases e
    · rw [h1] at h; cases h
    · rw [h1] at h; rcases read_float_kind w h with e | ⟨i, e⟩ <;> cases e
    · rw [h1] at h; rcases read_str_kind hn h with e | ⟨i, e⟩ <;> cases e
  | str s =>
    simp only
    have hv' : ∀ v, writeCell env cf t f (.str s) = some v → v = .str s := by
      intro v hv
      rcases writeCell_cases hnp _ _ hv with h | ⟨_, _, _, h⟩ | ⟨_, _, h, _⟩
      · exact h
      · cases h
      · cases h
    constructor
    · rintro ⟨v, hv, h⟩
      have := hv' v hv
      subst this
      rw [hT.str] at h
      rcases csvRead_seen hT.empty cf dv t f s hnp with ⟨_, _, h1⟩ | ⟨_, _, _, h1⟩ | ⟨_, _, w, _, h1⟩ | ⟨hs, hn, h1⟩
      · rw [h1] at h; rcases read_none_kind h with e | ⟨i, e⟩ <;> cases e
      · rw [h1] at h; cases h
      · rw [h1] at h; rcases read_float_kind w h with e | ⟨i, e⟩ <;> cases e
      · rw [h1] at h
        refine ⟨json_cell_plain (fun d h => by cases h) hv rfl h, hn, ?_⟩
        intro e
        obtain ⟨g1, y, g2, g3⟩ := hs e
        refine ⟨g1, ?_⟩
        rintro ⟨k1, k2, i, k3⟩
        rcases none_read_cases env cf t f with ⟨_, m⟩ | ⟨pos, _, _, m⟩ | ⟨_, _, _, m⟩
        · exact m ⟨k1, k2, i, k3⟩
        · rw [m] at g2; cases g2; cases g3
        · rw [m] at g2; cases g2
    · rintro ⟨hj, hn, hs⟩
      obtain ⟨v, hv, _, hr⟩ := json_cell_unplain (fun d h => by cases h) hj
      have := hv' v hv
      subst this
      refine ⟨_, hv, ?_⟩
      rw [hT.str, csvReadCell_eq env cf dv t f s hnp (.str s) (.inr (.inr ⟨rfl, hn, ?_⟩)), hr]
      intro e
      obtain ⟨g1, g2⟩ := hs e
      refine ⟨g1, .none, ?_, rfl⟩
      rcases none_read_cases env cf t f with ⟨m, _⟩ | ⟨pos, ⟨m1, m2⟩, m3, _⟩ | ⟨m1, m2, m3, _⟩
      · exact m
      · exact absurd ⟨m1, m2, infOf pos, (m3 _).2 rfl⟩ g2
      · have := (infBias_none_iff m2).2 m3
        unfold writeCell at hv
        rw [if_neg (fun hh => m1 hh.1), m2, this] at hv
        cases hv
  | dt d =>
    simp only
    have hv' : ∀ v, writeCell env cf t f (.dt d) = some v → v = .dt d := by
      intro v hv
      rcases writeCell_cases hnp _ _ hv with h | ⟨_, _, _, h⟩ | ⟨_, _, h, _⟩
      · exact h
      · cases h
      · cases h
    have hjc : JsonCell env cf t f (.dt d) (.dt d) ↔ readCell env cf t f (.str (env.text (.dt d))) = some (.dt d) := by
      unfold JsonCell jsonWriteCell
      simp [jsonable]
    rw [hjc, ← write_dt env cf t f d hnp]
    constructor
    · rintro ⟨v, hv, h⟩
      have := hv' v hv
      subst this
      rcases csvRead_seen hT.empty cf dv t f (env.text (.dt d)) hnp with ⟨_, _, h1⟩ | ⟨_, _, _, h1⟩ | ⟨_, _, w, _, h1⟩ | ⟨hs, hn, h1⟩
      · rw [h1] at h; rcases read_none_kind h with e | ⟨i, e⟩ <;> cases e
      · rw [h1] at h; cases h
      · rw [h1] at h; rcases read_float_kind w h with e | ⟨i, e⟩ <;> cases e
      · rw [h1] at h
        exact ⟨h, hn, _, hv⟩
    · rintro ⟨hj, hn, v, hv⟩
      have := hv' v hv
      subst this
      refine ⟨_, hv, ?_⟩
      rw [csvReadCell_eq env cf dv t f _ hnp (.str (env.text (.dt d))) (.inr (.inr ⟨rfl, hn, fun e => absurd e (hT.dtText d)⟩)), hj]
  | nan =>
    simp only
    have hv' : ∀ v, writeCell env cf t f .nan = some v → v = .nan := by
      intro v hv
      rcases writeCell_cases hnp _ _ hv with h | ⟨_, _, _, h⟩ | ⟨_, _, h, _⟩
      · exact h
      · cases h
      · cases h
    constructor
    · rintro ⟨v, hv, h⟩
      have := hv' v hv
      subst this
      rcases csvRead_seen hT.empty cf dv t f (env.text .nan) hnp with ⟨_, _, h1⟩ | ⟨_, _, _, h1⟩ | ⟨_, hc, w, hw, h1⟩ | ⟨hs, hn, h1⟩
      · rw [h1] at h; rcases read_none_kind h with e | ⟨i, e⟩ <;> cases e
      · rw [h1] at h; cases h
      · rw [hT.nan] at hw
        cases hw
        rw [h1] at h
        exact ⟨json_cell_plain (fun d h => by cases h) hv rfl h, hc⟩
      · rw [h1] at h; rcases read_str_kind hn h with e | ⟨i, e⟩ <;> cases e
    · rintro ⟨hj, hc⟩
      obtain ⟨v, hv, _, hr⟩ := json_cell_unplain (fun d h => by cases h) hj
      have := hv' v hv
      subst this
      refine ⟨_, hv, ?_⟩
      rw [csvReadCell_eq env cf dv t f _ hnp .nan (.inr (.inl ⟨hnan, hc, by rw [hT.nan]; rfl⟩)), hr]
  | none =>
    simp only
    have hv' : ∀ v, writeCell env cf t f .none = some v → v = .none := by
      intro v hv
      rcases writeCell_cases hnp _ _ hv with h | ⟨_, _, _, h⟩ | ⟨_, _, h, _⟩
      · exact h
      · cases h
      · cases h
    constructor
    · rintro ⟨v, hv, h⟩
      have := hv' v hv
      subst this
      rw [hT.null] at h
      rcases csvRead_seen hT.empty cf dv t f "" hnp with ⟨_, h0, h1⟩ | ⟨_, _, _, h1⟩ | ⟨_, hc, w, hw, h1⟩ | ⟨hs, hn, h1⟩
      · rw [h1] at h
        refine ⟨json_cell_plain (fun d h => by cases h) hv rfl h, ?_⟩
        rcases h0 with h0 | ⟨y, h0, h0'⟩
        · exact h0
        · rw [h] at h0; cases h0; cases h0'
      · rw [h1] at h; cases h
      · rw [hT.empty] at hw; cases hw
      · rw [h1] at h; rcases read_str_kind hn h with e | ⟨i, e⟩ <;> cases e
    · rintro ⟨hj, hc⟩
      obtain ⟨v, hv, _, hr⟩ := json_cell_unplain (fun d h => by cases h) hj
      have := hv' v hv
      subst this
      refine ⟨_, hv, ?_⟩
      rw [hT.null, csvReadCell_eq env cf dv t f _ hnp .none (.inl ⟨rfl, rfl, .inl hc⟩), hr]
  | num y =>
    simp only
    constructor
    · rintro ⟨v, hv, h⟩
      have hnum : ∀ z, v = .num z → JsonCell env cf t f (.num y) (.num y) ∧ CsvNumField cf dv t f := by
        rintro z rfl
        rcases csvRead_seen hT.empty cf dv t f (env.text (.num z)) hnp with ⟨e, _, h1⟩ | ⟨e, _, _, h1⟩ | ⟨_, hc, w, hw, h1⟩ | ⟨hs, hn, h1⟩
        · exact absurd e (hne z)
        · exact absurd e (hne z)
        · rw [hT.num] at hw
          cases hw
          rw [h1] at h
          exact ⟨json_cell_plain (fun d h => by cases h) hv rfl h, hc⟩
        · rw [h1] at h; rcases read_str_kind hn h with e | ⟨i, e⟩ <;> cases e
      rcases writeCell_cases hnp _ _ hv with e | ⟨z, _, e, _⟩ | ⟨e, pos, e2, hf, hb⟩
      · obtain ⟨a, b⟩ := hnum y e; exact ⟨a, .inl b⟩
      · obtain ⟨a, b⟩ := hnum z e; exact ⟨a, .inl b⟩
      · subst e
        cases e2
        rw [hT.null] at h
        rcases csvRead_seen hT.empty cf dv t f "" hnp with ⟨_, h0, h1⟩ | ⟨_, _, _, h1⟩ | ⟨_, hc, w, hw, h1⟩ | ⟨hs, hn, h1⟩
        · rw [h1] at h
          exact ⟨json_cell_plain (fun d h => by cases h) hv rfl h, .inr ⟨hf, (infBias_some_iff hf pos).1 hb⟩⟩
        · rw [h1] at h; cases h
        · rw [hT.empty] at hw; cases hw
        · rw [h1] at h; rcases read_str_kind hn h with e | ⟨i, e⟩ <;> cases e
    · rintro ⟨hj, hc⟩
      obtain ⟨v, hv, _, hr⟩ := json_cell_unplain (fun d h => by cases h) hj
      refine ⟨v, hv, ?_⟩
      have hnumf : CsvNumField cf dv t f := by
        rcases hc with hc | ⟨_, td, h1, h2, _⟩
        · exact hc
        · unfold CsvNumField; rw [h1]; exact h2
      rcases writeCell_cases hnp _ _ hv with e | ⟨z, _, e, _⟩ | ⟨e, pos, e2, hf, hb⟩
      · subst e
        rw [csvReadCell_eq env cf dv t f _ hnp (.num y) (.inr (.inl ⟨hne y, hnumf, by rw [hT.num]; rfl⟩)), hr]
      · subst e
        rw [csvReadCell_eq env cf dv t f _ hnp (.num z) (.inr (.inl ⟨hne z, hnumf, by rw [hT.num]; rfl⟩)), hr]
      · subst e
        rw [hT.null, csvReadCell_eq env cf dv t f _ hnp .none (.inl ⟨rfl, rfl, .inr ⟨_, hr, rfl⟩⟩), hr]

/-- Without data types and defaults: text comes back, a number does not. -/
example : CsvCell unaryText ⟨[], .na, false, []⟩ (fun _ _ => none) "foods" "name" (.str "milk") (.str "milk") ∧
    ¬ CsvCell unaryText ⟨[], .na, false, []⟩ (fun _ _ => none) "foods" "cost" (.num (.fin 2)) (.num (.fin 2)) := by
  rw [csv_cell_iff unaryText_csv_ok _ (by intro q h; cases h) _ _ _ _ (fun h => h.1 rfl),
    csv_cell_iff unaryText_csv_ok _ (by intro q h; cases h) _ _ _ _ (fun h => h.1 rfl)]
  refine ⟨⟨⟨fun _ => ⟨?_, ?_⟩, trivial⟩, ?_, fun e => by simp at e⟩, ?_⟩
  · rintro ⟨⟨td, e, _⟩, _⟩; cases e
  · rintro ⟨e, _⟩; cases e
  · rintro ⟨v, e, _⟩; cases e
  · rintro ⟨_, ⟨v, e, _⟩ | ⟨e, _⟩⟩ <;> cases e

end Ticdat

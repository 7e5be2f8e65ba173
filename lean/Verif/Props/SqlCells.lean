import Verif.Spec.SqlCells
import Verif.Props.CsvCells
import Verif.Props.SqliteTable
/-!
# C47: exactly which cells a SQLite database or a .sql file carries
-/
set_option linter.unusedSectionVars false
set_option linter.unusedSimpArgs false
namespace Ticdat
open Spec

/-- Cells other than numbers and Booleans are handed to SQLite as they are. -/
theorem sql_put (env : TextEnv) (cf : IOConf) (keyed : Bool) (t f : String) (hnp : ¬ IsParams cf.params t) (x : Cell)
    (hx : ∀ y, x ≠ .num y) (hb : ∀ b, x ≠ .bool b) (P : Cell → Prop) :
    (∃ w, (if keyed then sqlWriteCell env cf t f x else some x) = some w ∧ P w) ↔
      (keyed = true → cf.flag = .none → ¬ NoneFlagAmbiguous env cf t f) ∧ P x := by
  cases keyed with
  | false => simp
  | true =>
    have hw : sqlWriteCell env cf t f x = writeCell env cf t f x := by
      cases x with
      | bool b => exact absurd rfl (hb b)
      | _ => rfl
    have hsame := write_same env cf t f (fun h => hnp ⟨h.2, h.1⟩) x
    have hcond : writeCell env cf t f x = some x ↔ (cf.flag = .none → ¬ NoneFlagAmbiguous env cf t f) := by
      rw [hsame]
      cases hf : cf.flag with
      | na => simp
      | num q => simp only [reduceCtorEq, false_implies, iff_true]; intro y e; exact absurd e (hx y)
      | none =>
        simp only [true_implies]
        exact ⟨fun h => h.1, fun h => ⟨h, fun i e => absurd e (hx i)⟩⟩
    simp only [if_true, true_implies, hw]
    rw [← hcond]
    constructor
    · rintro ⟨w, h1, h2⟩
      rcases writeCell_cases hnp _ _ h1 with e | ⟨_, z, _, e⟩ | ⟨_, pos, e, _⟩
      · subst e; exact ⟨h1, h2⟩
      · exact absurd e (hx z)
      · exact absurd e (hx _)
    · rintro ⟨h1, h2⟩
      exact ⟨x, h1, h2⟩

theorem sqlCell_split (env : TextEnv) (senv : SqlEnv) (cenv : CaseEnv) (cf : IOConf) (dv : Defaults) (asSql keyed : Bool)
    (t f : String) (x y : Cell) :
    SqlCell env senv cenv cf dv asSql keyed t f x y ↔
      ∃ w, (if keyed then sqlWriteCell env cf t f x else some x) = some w ∧
        ∃ v, sqlStore env senv asSql (sqlAffinity cf dv t f) w = some v ∧ sqlReadCell env cenv cf t f v = some y := by
  unfold SqlCell sqlCell
  constructor
  · rintro ⟨v, h1, h2⟩
    rw [Option.bind_eq_some_iff] at h1
    obtain ⟨w, h3, h4⟩ := h1
    exact ⟨w, h3, v, h4, h2⟩
  · rintro ⟨w, h3, v, h4, h2⟩
    exact ⟨v, by rw [h3]; exact h4, h2⟩

/-- How text from SQLite is read. -/
theorem sqlRead_text_cases (env : TextEnv) (cenv : CaseEnv) (cf : IOConf) (t f s : String) (hnp : ¬ IsParams cf.params t) :
    (NoSqlWord cenv cf s ∧ sqlReadCell env cenv cf t f (.str s) = readCell env cf t f (.str s)) ∨
    (¬ NoSqlWord cenv cf s ∧ ((∃ b, sqlReadCell env cenv cf t f (.str s) = some (.bool b)) ∨
      (cf.flag = .na ∧ ∃ y, sqlReadCell env cenv cf t f (.str s) = some (.num y)))) := by
  by_cases h : NoSqlWord cenv cf s
  · exact .inl ⟨h, sqlReadCell_text env cenv cf t f s h⟩
  · refine .inr ⟨h, ?_⟩
    unfold sqlReadCell
    simp only
    split
    · rename_i h1
      exact .inr ⟨h1.2.1, _, rfl⟩
    · rename_i h1
      split
      · exact .inl ⟨_, rfl⟩
      · rename_i h2
        split
        · exact .inl ⟨_, rfl⟩
        · rename_i h3
          refine absurd ⟨h2, h3, fun hf => ⟨fun e => h1 ⟨.inl e, hf, ?_⟩, fun e => h1 ⟨.inr e, hf, ?_⟩⟩⟩ h
          · exact fun hh => hnp ⟨hh.2, hh.1⟩
          · exact fun hh => hnp ⟨hh.2, hh.1⟩

theorem read_num_kind {env : TextEnv} {cf : IOConf} {t f : String} (z : XNum) {y : Cell} (h : readCell env cf t f (.num z) = some y) :
    ∃ i, y = .num i := by
  by_cases ht : t = "parameters"
  · simp [readCell, ht] at h; exact ⟨z, h.symm⟩
  · rw [readCell_num ht] at h
    cases hf : cf.flag <;> rw [hf] at h <;> cases h <;> exact ⟨_, rfl⟩

theorem read_text_self (env : TextEnv) (cf : IOConf) (t f s s' : String) :
    readCell env cf t f (.str s') = some (.str s) ↔
      s' = s ∧ (t ≠ "parameters" → ¬ ReadAsDate env cf t f (.str s) ∧ ¬ ReadAsNumber env cf t f (.str s)) := by
  by_cases ht : t = "parameters"
  · simp [readCell, ht]
  · rcases readCell_json env cf t f ht (.str s') (fun d h => by cases h) (fun o h => by cases h) with
      ⟨h1, d, h2⟩ | ⟨h0, h1, w, hw, h2⟩ | ⟨h0, h1, h2⟩
    · rw [h2]
      refine ⟨fun h => (by cases h), ?_⟩
      rintro ⟨rfl, h⟩
      exact absurd h1 (h ht).1
    · rw [h2]
      constructor
      · intro h
        rcases flagRead_no_text env cf t f w _ h with e | ⟨i, e⟩
        · rcases hw with rfl | ⟨i, rfl⟩ <;> cases e
        · cases e
      · rintro ⟨rfl, h⟩
        exact absurd h1 (h ht).2
    · rw [h2, flagRead_str]
      constructor
      · intro h
        cases h
        exact ⟨rfl, fun _ => ⟨h0, h1⟩⟩
      · rintro ⟨rfl, _⟩
        rfl

theorem sqlFileText_iff (s : String) : sqlFileText s = some s ↔ ¬ AdjacentQuotes s.toList ∧ ';' ∉ s.toList := by
  refine ⟨fun h => ?_, sqlFileText_ok s⟩
  unfold sqlFileText at h
  split at h
  · cases h
  · rename_i hc
    refine ⟨?_, by simpa using hc⟩
    split at h
    · rename_i x he
      have hx : x = s.toList := by
        have := congrArg String.toList (Option.some.inj h)
        simpa using this
      subst hx
      rw [← literal_round_trip_iff_partial s.toList [')'] (by decide)]
      simp only [insertFormat, List.cons_append, List.append_assoc, List.nil_append] at he
      unfold readVal at he
      simp only [if_true, Option.map_eq_some_iff] at he
      obtain ⟨p, h1, h2⟩ := he
      rw [h1]
      obtain ⟨p1, p2⟩ := p
      simp only [Prod.mk.injEq, SqlVal.text.injEq] at h2
      rw [h2.1, h2.2]
    · cases h

/-- Text, as stored and read. -/
theorem sql_text_iff (env : TextEnv) (senv : SqlEnv) (cenv : CaseEnv) (cf : IOConf) (dv : Defaults) (asSql : Bool)
    (t f s : String) (hnp : ¬ IsParams cf.params t) :
    (∃ v, sqlStore env senv asSql (sqlAffinity cf dv t f) (.str s) = some v ∧ sqlReadCell env cenv cf t f v = some (.str s)) ↔
      (t ≠ "parameters" → ¬ ReadAsDate env cf t f (.str s) ∧ ¬ ReadAsNumber env cf t f (.str s)) ∧
      NoSqlWord cenv cf s ∧ (SqlNumColumn cf dv t f → senv.num s = none) ∧ SqlFileOK asSql s := by
  constructor
  · rintro ⟨v, h1, h2⟩
    simp only [sqlStore, Option.map_eq_some_iff] at h1
    obtain ⟨s', h3, rfl⟩ := h1
    have hv : sqlStoreText senv (sqlAffinity cf dv t f) s' = .str s' ∧ (SqlNumColumn cf dv t f → senv.num s' = none) := by
      unfold sqlStoreText at h2 ⊢
      by_cases ha : sqlAffinity cf dv t f = true
      · rw [if_pos ha] at h2 ⊢
        cases hn : senv.num s' with
        | none => exact ⟨rfl, fun _ => rfl⟩
        | some z =>
          rw [hn] at h2
          obtain ⟨i, e⟩ := read_num_kind z (show readCell env cf t f (.num z) = _ from h2)
          cases e
      · rw [if_neg ha]
        exact ⟨rfl, fun h => absurd ((sqlAffinity_iff cf dv t f).mpr h) ha⟩
    rw [hv.1] at h2
    rcases sqlRead_text_cases env cenv cf t f s' hnp with ⟨h4, h5⟩ | ⟨_, ⟨b, h5⟩ | ⟨_, y, h5⟩⟩
    · rw [h5, read_text_self] at h2
      obtain ⟨rfl, h6⟩ := h2
      refine ⟨h6, h4, hv.2, ?_⟩
      rintro rfl
      exact (sqlFileText_iff s').mp h3
    · rw [h5] at h2; cases h2
    · rw [h5] at h2; cases h2
  · rintro ⟨h1, h2, h3, h4⟩
    exact ⟨_, sqlStore_text env senv cf dv asSql t f s h3 h4, by
      rw [sqlReadCell_text env cenv cf t f s h2, read_text_self]; exact ⟨rfl, h1⟩⟩

/-- Datetimes, as stored and read. -/
theorem sql_dt_iff {env : TextEnv} (hT : ∀ d, env.date (.str (env.text (.dt d))) = some d) (senv : SqlEnv) (cenv : CaseEnv) (cf : IOConf)
    (hq : ∀ q, cf.flag = .num q → 0 < q) (dv : Defaults) (asSql : Bool) (t f : String) (d : Nat) (hnp : ¬ IsParams cf.params t) :
    (∃ v, sqlStore env senv asSql (sqlAffinity cf dv t f) (.dt d) = some v ∧ sqlReadCell env cenv cf t f v = some (.dt d)) ↔
      (t ≠ "parameters" ∧ ∃ td, typeOf cf.types t f = some td ∧ td.datetime = true) ∧
      NoSqlWord cenv cf (env.text (.dt d)) ∧ (SqlNumColumn cf dv t f → senv.num (env.text (.dt d)) = none) := by
  have hjc : readCell env cf t f (.str (env.text (.dt d))) = some (.dt d) ↔
      (t ≠ "parameters" ∧ ∃ td, typeOf cf.types t f = some td ∧ td.datetime = true) := by
    have h := json_cell_iff hT cf hq t f (.dt d) hnp
    have h' : JsonCell env cf t f (.dt d) (.dt d) ↔ readCell env cf t f (.str (env.text (.dt d))) = some (.dt d) := by
      unfold JsonCell jsonWriteCell
      simp [jsonable]
    rw [← h', h]
    rfl
  rw [← hjc]
  constructor
  · rintro ⟨v, h1, h2⟩
    simp only [sqlStore, Option.some.injEq] at h1
    subst h1
    have hv : sqlStoreText senv (sqlAffinity cf dv t f) (env.text (.dt d)) = .str (env.text (.dt d)) ∧
        (SqlNumColumn cf dv t f → senv.num (env.text (.dt d)) = none) := by
      unfold sqlStoreText at h2 ⊢
      by_cases ha : sqlAffinity cf dv t f = true
      · rw [if_pos ha] at h2 ⊢
        cases hn : senv.num (env.text (.dt d)) with
        | none => exact ⟨rfl, fun _ => rfl⟩
        | some z =>
          rw [hn] at h2
          obtain ⟨i, e⟩ := read_num_kind z (show readCell env cf t f (.num z) = _ from h2)
          cases e
      · rw [if_neg ha]
        exact ⟨rfl, fun h => absurd ((sqlAffinity_iff cf dv t f).mpr h) ha⟩
    rw [hv.1] at h2
    rcases sqlRead_text_cases env cenv cf t f (env.text (.dt d)) hnp with ⟨h4, h5⟩ | ⟨_, ⟨b, h5⟩ | ⟨_, y, h5⟩⟩
    · rw [h5] at h2
      exact ⟨h2, h4, hv.2⟩
    · rw [h5] at h2; cases h2
    · rw [h5] at h2; cases h2
  · rintro ⟨h1, h2, h3⟩
    exact ⟨_, sqlStore_dt env senv cf dv asSql t f d h3, by rw [sqlReadCell_text env cenv cf t f _ h2, h1]⟩

/-- Numbers that are read as themselves. -/
theorem num_self_iff (env : TextEnv) (cf : IOConf) (t f : String) (y : XNum) :
    readCell env cf t f (.num y) = some (.num y) ↔
      match cf.flag with
      | .num q => t = "parameters" ∨ y = .pinf ∨ y = .ninf ∨ ∃ a, y = .fin a ∧ -q < a ∧ a < q
      | _ => True := by
  by_cases ht : t = "parameters"
  · simp only [ht, readCell, if_true, true_or]
    cases cf.flag <;> simp
  · rw [readCell_num ht]
    cases hf : cf.flag with
    | na => simp
    | none => simp
    | num q =>
      simp only [ht, false_or, Option.some.injEq, Cell.num.injEq]
      cases y with
      | pinf => simp [XNum.le, XNum.lt]
      | ninf => simp [XNum.le, XNum.lt]
      | fin a =>
        simp only [reduceCtorEq, false_or, XNum.fin.injEq, exists_eq_left', XNum.le, XNum.lt]
        by_cases h1 : a < q <;> by_cases h2 : -q < a <;> simp [h1, h2]

/-- Infinities spelled out, without the infinity flag `N/A`. -/
theorem inf_text_iff {env : TextEnv} (hI : FloatInf env) (cf : IOConf) (t f : String) (y : XNum) (hy : y = .pinf ∨ y = .ninf) :
    readCell env cf t f (.str (infText y)) = some (.num y) ↔ t ≠ "parameters" ∧ ReadAsNumber env cf t f (.str (infText y)) := by
  have hfl : env.float (infText y) = some (some y) := by
    rcases hy with rfl | rfl
    · exact hI.pinf
    · exact hI.ninf
  by_cases ht : t = "parameters"
  · simp [readCell, ht]
  · simp only [ne_eq, ht, not_false_eq_true, true_and]
    rcases readCell_json env cf t f ht (.str (infText y)) (fun d h => by cases h) (fun o h => by cases h) with
      ⟨h1, d, h2⟩ | ⟨h0, h1, w, hw, h2⟩ | ⟨h0, h1, h2⟩
    · rw [h2]
      refine ⟨fun h => (by cases h), ?_⟩
      rintro ⟨_, ⟨td, h3, h4, _⟩, _⟩
      obtain ⟨⟨td', h5, h6⟩, _⟩ := h1
      rw [h3] at h5
      cases h5
      rw [h4] at h6
      cases h6
    · refine ⟨fun _ => h1, fun _ => ?_⟩
      obtain ⟨h3, ⟨td, h4, h5, h6, h7⟩, _⟩ := h1
      have htr : td.strings.truthy = true := by
        cases hs : td.strings with
        | any => rfl
        | oneOf l =>
          cases l with
          | nil => exact absurd hs h7
          | cons a l => rfl
      have hnum := num_self_iff env cf t f y
      unfold readCell at hnum ⊢
      simp only [ht, if_false, at_eq_typeOf, h4, Option.map_some, Option.getD_some, h5, Bool.false_and, Bool.false_eq_true,
        Bool.not_false, Bool.true_and, htr, h6, h3, Bool.and_self, if_true, toFloat, hfl, floatCell] at hnum ⊢
      rw [hnum]
      cases cf.flag with
      | num q => exact .inr (by rcases hy with h | h <;> simp [h])
      | _ => trivial
    · rw [h2, flagRead_str]
      exact ⟨fun h => (by cases h), fun h => absurd h h1⟩

/-- An infinity in a .sql file. -/
theorem sql_inf_iff {env : TextEnv} (hI : FloatInf env) {senv : SqlEnv} {cenv : CaseEnv} (hW : SqlWords cenv senv) (cf : IOConf) (aff : Bool)
    (t f : String) (y : XNum) (hy : y = .pinf ∨ y = .ninf) (hnp : ¬ IsParams cf.params t) :
    (∃ v, sqlStore env senv true aff (.num y) = some v ∧ sqlReadCell env cenv cf t f v = some (.num y)) ↔
      cf.flag = .na ∨ (t ≠ "parameters" ∧ ReadAsNumber env cf t f (.str (infText y))) := by
  by_cases hf : cf.flag = .na
  · simp only [hf, true_or, iff_true]
    exact sql_infinity hW hnp hf aff y hy
  · simp only [hf, false_or]
    have hs : sqlStore env senv true aff (.num y) = some (.str (infText y)) := by
      rcases hy with rfl | rfl <;> rfl
    have hw : NoSqlWord cenv cf (infText y) := by
      rcases hy with rfl | rfl
      · exact ⟨by rw [show infText .pinf = "inf" from rfl, hW.inf]; decide, by rw [show infText .pinf = "inf" from rfl, hW.inf]; decide,
          fun h => absurd h hf⟩
      · exact ⟨by rw [show infText .ninf = "-inf" from rfl, hW.ninf]; decide,
          by rw [show infText .ninf = "-inf" from rfl, hW.ninf]; decide, fun h => absurd h hf⟩
    rw [hs]
    constructor
    · rintro ⟨v, h1, h2⟩
      cases h1
      rw [sqlReadCell_text env cenv cf t f _ hw, inf_text_iff hI cf t f y hy] at h2
      exact h2
    · intro h
      exact ⟨_, rfl, by rw [sqlReadCell_text env cenv cf t f _ hw, inf_text_iff hI cf t f y hy]; exact h⟩

/-- **C47, exactly which cells come back.** -/
theorem sql_cell_iff {env : TextEnv} (hT : ∀ d, env.date (.str (env.text (.dt d))) = some d) (hI : FloatInf env) {senv : SqlEnv}
    {cenv : CaseEnv} (hW : SqlWords cenv senv) (cf : IOConf) (hq : ∀ q, cf.flag = .num q → 0 < q) (dv : Defaults) (asSql keyed : Bool)
    (t f : String) (x : Cell) (hnp : ¬ IsParams cf.params t) :
    SqlCell env senv cenv cf dv asSql keyed t f x x ↔ SqlKeeps env senv cenv cf dv asSql keyed t f x := by
  cases x with
  | bool b =>
    show _ ↔ keyed = true
    refine ⟨?_, ?_⟩
    · cases keyed with
      | true => exact fun _ => rfl
      | false =>
        rintro ⟨w, h1, h2⟩
        simp only [sqlCell, Bool.false_eq_true, if_false, Option.bind_some, sqlStore, Option.some.injEq] at h1
        subst h1
        obtain ⟨i, e⟩ := read_num_kind _ (show readCell env cf t f (.num _) = _ from h2)
        cases e
    · rintro rfl
      exact sql_bool hW asSql b
  | nan =>
    show _ ↔ False
    rw [sqlCell_split, sql_put env cf keyed t f hnp .nan (fun y h => by cases h) (fun y h => by cases h), iff_false]
    rintro ⟨_, v, h1, h2⟩
    cases asSql with
    | true => simp [sqlStore] at h1
    | false =>
      simp only [sqlStore, Bool.false_eq_true, if_false, Option.some.injEq] at h1
      subst h1
      rcases read_none_kind (show readCell env cf t f .none = _ from h2) with e | ⟨i, e⟩ <;> cases e
  | other o =>
    show _ ↔ False
    rw [sqlCell_split, sql_put env cf keyed t f hnp (.other o) (fun y h => by cases h) (fun y h => by cases h), iff_false]
    rintro ⟨_, v, h1, h2⟩
    cases h1
  | none =>
    rw [sqlCell_split, sql_put env cf keyed t f hnp .none (fun y h => by cases h) (fun y h => by cases h)]
    show _ ↔ _ ∧ _
    refine and_congr Iff.rfl ?_
    have hs : (∃ v, sqlStore env senv asSql (sqlAffinity cf dv t f) .none = some v ∧ sqlReadCell env cenv cf t f v = some .none) ↔
        readCell env cf t f .none = some .none := by
      constructor
      · rintro ⟨v, h1, h2⟩; cases h1; exact h2
      · intro h; exact ⟨.none, rfl, h⟩
    rw [hs]
    rcases none_read_cases env cf t f with ⟨h1, h2⟩ | ⟨pos, ⟨h1, h2⟩, h3, h4⟩ | ⟨h1, h2, h3, h4⟩
    · rw [h1]
      refine iff_of_true rfl (fun h3 h4 => ⟨fun ha => ?_, fun i hi => h2 ⟨h3, h4, i, hi⟩⟩)
      have := (infBias_none_iff h4).mpr ha
      have hr : readCell env cf t f .none = (infBias env cf t f).map (fun b =>
          match b with
          | some pos => .num (infOf pos)
          | none => .none) := by
        unfold readCell
        simp [h3, h4, Cell.isNull, toFloat]
        rfl
      rw [hr, this] at h1
      cases h1
    · rw [h4]
      refine iff_of_false (by simp) (fun h => (h h1 h2).2 _ ((h3 _).mpr rfl))
    · rw [h4]
      exact iff_of_false (by simp) (fun h => (h h1 h2).1 h3)
  | str s =>
    rw [sqlCell_split, sql_put env cf keyed t f hnp (.str s) (fun y h => by cases h) (fun y h => by cases h),
      sql_text_iff env senv cenv cf dv asSql t f s hnp]
    rfl
  | dt d =>
    rw [sqlCell_split, sql_put env cf keyed t f hnp (.dt d) (fun y h => by cases h) (fun y h => by cases h),
      sql_dt_iff hT senv cenv cf hq dv asSql t f d hnp]
    rfl
  | num y =>
    have hstored : ∀ w, (w = .none ∨ ∃ z, w = .num z) → ¬ (asSql = true ∧ (w = .num .pinf ∨ w = .num .ninf)) →
        ((∃ v, sqlStore env senv asSql (sqlAffinity cf dv t f) w = some v ∧ sqlReadCell env cenv cf t f v = some (.num y)) ↔
          readCell env cf t f w = some (.num y)) := by
      intro w hw hi
      have hst : sqlStore env senv asSql (sqlAffinity cf dv t f) w = some w := by
        rcases hw with rfl | ⟨z, rfl⟩
        · rfl
        · exact sqlStore_num env senv asSql _ z (fun ha => ⟨fun e => hi ⟨ha, .inl (by rw [e])⟩, fun e => hi ⟨ha, .inr (by rw [e])⟩⟩)
      have hrd : sqlReadCell env cenv cf t f w = readCell env cf t f w := by
        rcases hw with rfl | ⟨z, rfl⟩ <;> rfl
      rw [hst]
      constructor
      · rintro ⟨v, h1, h2⟩; cases h1; rw [← hrd]; exact h2
      · intro h; exact ⟨w, rfl, by rw [hrd]; exact h⟩
    rw [sqlCell_split]
    cases keyed with
    | false =>
      simp only [Bool.false_eq_true, if_false, Option.some.injEq, exists_eq_left']
      by_cases hi : asSql = true ∧ (y = .pinf ∨ y = .ninf)
      · obtain ⟨rfl, hy⟩ := hi
        rw [sql_inf_iff hI hW cf _ t f y hy hnp]
        unfold SqlKeeps
        simp only [Bool.false_eq_true, false_implies, false_and, false_or, true_implies, hy]
        constructor
        · intro h
          refine ⟨?_, h⟩
          cases cf.flag with
          | na => trivial
          | none => trivial
          | num q =>
            simp only
            split
            · trivial
            · rcases hy with e | e <;> simp [e]
        · exact fun h => h.2
      · rw [hstored (.num y) (.inr ⟨y, rfl⟩) (by rintro ⟨ha, e | e⟩ <;> cases e <;> exact hi ⟨ha, (by simp)⟩), num_self_iff]
        unfold SqlKeeps
        simp only [Bool.false_eq_true, false_implies]
        constructor
        · intro h
          refine ⟨?_, fun ha hy => absurd ⟨ha, hy⟩ hi⟩
          cases hf : cf.flag with
          | na => trivial
          | none => trivial
          | num q =>
            rw [hf] at h
            simp only at h ⊢
            by_cases ht : t = "parameters"
            · simp [ht]
            · simpa [ht] using h
        · rintro ⟨h, _⟩
          cases hf : cf.flag with
          | na => trivial
          | none => trivial
          | num q =>
            rw [hf] at h
            simp only at h ⊢
            by_cases ht : t = "parameters"
            · exact .inl ht
            · right; simpa [ht] using h
    | true =>
      simp only [if_true]
      have hw : sqlWriteCell env cf t f (.num y) = writeCell env cf t f (.num y) := rfl
      rw [hw]
      -- what json does
      have hjson := json_cell_iff hT cf hq t f (.num y) hnp
      have hjc : JsonCell env cf t f (.num y) (.num y) ↔
          ∃ w, writeCell env cf t f (.num y) = some w ∧ readCell env cf t f w = some (.num y) := by
        constructor
        · rintro ⟨w, h1, _, h3⟩; exact ⟨w, h1, h3⟩
        · rintro ⟨w, h1, h3⟩
          refine ⟨w, h1, ?_, h3⟩
          rcases writeCell_cases hnp _ _ h1 with e | ⟨z, _, e, _⟩ | ⟨e, _⟩ <;> rw [e] <;> rfl
      have hnd : ¬ ReadAsDate env cf t f (.num y) := fun h => by rcases h.2.1 with ⟨b, e⟩ | ⟨b, e⟩ <;> cases e
      have hnn : ¬ ReadAsNumber env cf t f (.num y) := fun h => by rcases h.2.2 with ⟨b, e⟩ | ⟨b, _, e, _⟩ <;> cases e
      have hkeep : JsonKeeps env cf t f (.num y) ↔
          (match cf.flag with
            | .na => True
            | .num q =>
              if t = "parameters" then true = true → ∃ a, y = .fin a ∧ -q ≤ a ∧ a ≤ q
              else y = .pinf ∨ y = .ninf ∨ ∃ a, y = .fin a ∧ -q < a ∧ a < q
            | .none => true = true → ¬ NoneFlagAmbiguous env cf t f ∧ (t = "parameters" → ¬ NoneMeans env cf t f y)) := by
        unfold JsonKeeps
        simp only [hnd, hnn, not_false_eq_true, and_self, implies_true, true_and]
        cases cf.flag with
        | na => rfl
        | num q => simp
        | none =>
          simp only [true_implies]
          refine and_congr Iff.rfl ?_
          by_cases ht : t = "parameters" <;> simp [ht]
      have hclause : SqlKeeps env senv cenv cf dv asSql true t f (.num y) ↔ JsonKeeps env cf t f (.num y) ∧
          (asSql = true → y = .pinf ∨ y = .ninf → cf.flag = .na ∨ (true = true ∧ ((∃ q, cf.flag = .num q) ∨ NoneMeans env cf t f y)) ∨
            (t ≠ "parameters" ∧ ReadAsNumber env cf t f (.str (infText y)))) := by
        rw [hkeep]
        rfl
      rw [hclause, ← hjson, hjc]
      by_cases hi : ∃ w, writeCell env cf t f (.num y) = some w ∧ asSql = true ∧ (w = .num .pinf ∨ w = .num .ninf)
      · obtain ⟨w, h1, rfl, h2⟩ := hi
        have hwy : w = .num y ∧ (y = .pinf ∨ y = .ninf) ∧ (cf.flag = .na ∨ (cf.flag = .none ∧ ¬ NoneMeans env cf t f y)) := by
          unfold writeCell at h1
          rw [if_neg (fun hh => hnp ⟨hh.2, hh.1⟩)] at h1
          cases hf : cf.flag with
          | na =>
            rw [hf] at h1
            cases h1
            refine ⟨rfl, ?_, .inl rfl⟩
            rcases h2 with e | e <;> cases e <;> simp
          | num q =>
            rw [hf] at h1
            obtain ⟨r, hr⟩ := clamp_finite q y
            simp only [hr, Option.some.injEq] at h1
            subst h1
            rcases h2 with e | e <;> cases e
          | none =>
            rw [hf] at h1
            simp only at h1
            rcases infBias_cases env cf hf t f with ⟨_, h4⟩ | ⟨_, h3, h4⟩ | ⟨pos, _, h3, h4⟩
            · rw [h4] at h1; cases h1
            · rw [h4] at h1
              cases h1
              refine ⟨rfl, ?_, .inr ⟨rfl, h3 y⟩⟩
              rcases h2 with e | e <;> cases e <;> simp
            · rw [h4] at h1
              simp only [Option.map_some, Option.some.injEq] at h1
              split at h1
              · subst h1
                rcases h2 with e | e <;> cases e
              · rename_i hne
                subst h1
                refine ⟨rfl, ?_, .inr ⟨rfl, fun hm => hne ?_⟩⟩
                · rcases h2 with e | e <;> cases e <;> simp
                · rw [(h3 y).mp hm]
        obtain ⟨rfl, hy, hfl⟩ := hwy
        rw [h1]
        simp only [Option.some.injEq, exists_eq_left', true_implies]
        rw [sql_inf_iff hI hW cf _ t f y hy hnp]
        constructor
        · intro h
          refine ⟨?_, fun _ => ?_⟩
          · rw [num_self_iff]
            rcases hfl with e | ⟨e, _⟩ <;> rw [e] <;> trivial
          · rcases h with h | h
            · exact .inl h
            · exact .inr (.inr h)
        · rintro ⟨_, h⟩
          rcases h hy with h | ⟨_, ⟨q, h⟩ | h⟩ | h
          · exact .inl h
          · rcases hfl with e | ⟨e, _⟩ <;> rw [e] at h <;> cases h
          · rcases hfl with e | ⟨_, e⟩
            · exact .inl e
            · exact absurd h e
          · exact .inr h
      · have hrest : asSql = true → y = .pinf ∨ y = .ninf → ∀ w, writeCell env cf t f (.num y) = some w →
            cf.flag = .na ∨ (true = true ∧ ((∃ q, cf.flag = .num q) ∨ NoneMeans env cf t f y)) ∨
            (t ≠ "parameters" ∧ ReadAsNumber env cf t f (.str (infText y))) := by
          intro ha hy w h1
          cases hf : cf.flag with
          | na => exact .inl rfl
          | num q => exact .inr (.inl ⟨rfl, .inl ⟨q, rfl⟩⟩)
          | none =>
            refine .inr (.inl ⟨rfl, .inr ?_⟩)
            have h2 := h1
            unfold writeCell at h2
            rw [if_neg (fun hh => hnp ⟨hh.2, hh.1⟩), hf] at h2
            simp only at h2
            rcases infBias_cases env cf hf t f with ⟨_, h4⟩ | ⟨_, h3, h4⟩ | ⟨pos, _, h3, h4⟩
            · rw [h4] at h2; cases h2
            · rw [h4] at h2
              cases h2
              exact absurd ⟨_, h1, ha, (by rcases hy with e | e <;> simp [e])⟩ hi
            · rw [h4] at h2
              simp only [Option.map_some, Option.some.injEq] at h2
              split at h2
              · rename_i he
                cases he
                exact (h3 _).mpr rfl
              · subst h2
                exact absurd ⟨_, h1, ha, (by rcases hy with e | e <;> simp [e])⟩ hi
        constructor
        · rintro ⟨w, h1, h2⟩
          have hk : w = .none ∨ ∃ z, w = .num z := by
            rcases writeCell_cases hnp _ _ h1 with e | ⟨z, _, e, _⟩ | ⟨e, _⟩
            · exact .inr ⟨y, e⟩
            · exact .inr ⟨z, e⟩
            · exact .inl e
          rw [hstored w hk (fun hh => hi ⟨w, h1, hh⟩)] at h2
          exact ⟨⟨w, h1, h2⟩, fun ha hy => hrest ha hy w h1⟩
        · rintro ⟨⟨w, h1, h2⟩, _⟩
          have hk : w = .none ∨ ∃ z, w = .num z := by
            rcases writeCell_cases hnp _ _ h1 with e | ⟨z, _, e, _⟩ | ⟨e, _⟩
            · exact .inr ⟨y, e⟩
            · exact .inr ⟨z, e⟩
            · exact .inl e
          exact ⟨w, h1, (hstored w hk (fun hh => hi ⟨w, h1, hh⟩)).mpr h2⟩

theorem unary_floatInf : FloatInf unaryText := ⟨rfl, rfl⟩

/-- The hypotheses can be met, and the equivalence separates the two containers: under `infinity_io_flag = None`, a field without a data
type keeps an infinity in a database but not in a .sql file, which turns it into text. -/
theorem sql_inf_containers :
    SqlCell unaryText noNums asciiEnv ⟨[], .none, false, []⟩ (fun _ _ => none) false true "food" "cost" (.num .pinf) (.num .pinf) ∧
    ¬ SqlCell unaryText noNums asciiEnv ⟨[], .none, false, []⟩ (fun _ _ => none) true true "food" "cost" (.num .pinf) (.num .pinf) ∧
    SqlCell unaryText noNums asciiEnv ⟨[], .none, false, []⟩ (fun _ _ => none) true true "food" "cost" (.num .pinf) (.str "inf") := by
  have hna : ¬ NoneFlagAmbiguous unaryText ⟨[], .none, false, []⟩ "food" "cost" := by
    rw [← infBias_none_iff rfl]; decide
  have hnm : ¬ NoneMeans unaryText ⟨[], .none, false, []⟩ "food" "cost" .pinf := by
    rintro ⟨td, h, _⟩; cases h
  refine ⟨?_, ?_, ?_⟩
  · rw [sql_cell_iff unaryText_ok.dt unary_floatInf ascii_sqlWords _ (fun q h => by cases h) _ _ _ _ _ _ (by rintro ⟨h, h2⟩; first | exact absurd h (by decide) | exact absurd h2 (by decide))]
    exact ⟨fun _ => ⟨hna, fun h => absurd h (by decide)⟩, fun h => by cases h⟩
  · rw [sql_cell_iff unaryText_ok.dt unary_floatInf ascii_sqlWords _ (fun q h => by cases h) _ _ _ _ _ _ (by rintro ⟨h, h2⟩; first | exact absurd h (by decide) | exact absurd h2 (by decide))]
    rintro ⟨_, h⟩
    rcases h rfl (.inl rfl) with h | ⟨_, ⟨q, h⟩ | h⟩ | ⟨_, h⟩
    · cases h
    · cases h
    · exact hnm h
    · cases h.1
  · exact ⟨.str "inf", by decide +kernel, by decide +kernel⟩

/-- Text that looks like a number comes back from a column for text, not from one for numbers. -/
example (senv : SqlEnv) (hn : senv.num "12" = some (.fin 12)) :
    SqlCell unaryText senv asciiEnv ⟨[], .na, false, []⟩ (fun _ _ => some (.str "")) false true "food" "name" (.str "12") (.str "12") ↔
      ¬ SqlNumColumn ⟨[], .na, false, []⟩ (fun _ _ => some (.str "")) "food" "name" := by
  rw [sqlCell_split, sql_put _ _ _ _ _ (by rintro ⟨h, h2⟩; first | exact absurd h (by decide) | exact absurd h2 (by decide)) _ (fun y h => by cases h) (fun y h => by cases h),
    sql_text_iff _ _ _ _ _ _ _ _ _ (by rintro ⟨h, h2⟩; first | exact absurd h (by decide) | exact absurd h2 (by decide))]
  constructor
  · rintro ⟨_, _, _, h, _⟩ hc
    rw [h hc] at hn; cases hn
  · intro h
    refine ⟨fun _ e => (by cases e), fun _ => ⟨?_, fun hd => (by cases hd.1)⟩,
      ⟨by decide +kernel, by decide +kernel, fun _ => by decide +kernel⟩, fun hc => absurd hc h, fun e => (by cases e)⟩
    rintro ⟨⟨td, e, _⟩, _⟩
    cases e

end Ticdat

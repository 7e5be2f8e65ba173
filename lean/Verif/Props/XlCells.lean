import Verif.Spec.XlCells
import Verif.Props.SqlCells
import Verif.Props.ExcelRound
/-!
# C48: exactly which cells an Excel file carries
-/
set_option linter.unusedSectionVars false
set_option linter.unusedSimpArgs false
namespace Ticdat
open Spec

/-- What reading can make of a cell. -/
theorem readCell_form (env : TextEnv) (cf : IOConf) (t f : String) (x y : Cell) (h : readCell env cf t f x = some y) :
    y = x ∨ (∃ d, y = .dt d) ∨ y = .nan ∨ ∃ i, y = .num i := by
  by_cases ht : t = "parameters"
  · simp [readCell, ht] at h; exact .inl h.symm
  have hread : readCell env cf t f x =
      match (if ((cf.types.at t f).map (·.datetime)).getD false && !x.isNull then dateAdjust env x else none) with
      | some d => some (.dt d)
      | none => flagRead env cf t f (if ((cf.types.at t f).map (fun td => !td.datetime && td.strings.truthy && td.numberAllowed)).getD false &&
          cf.automunge then (toFloat env x).getD x else x) := by
    unfold readCell flagRead
    rw [if_neg ht]
    rfl
  rw [hread] at h
  split at h
  · cases h; exact .inr (.inl ⟨_, rfl⟩)
  · rcases flagRead_no_text _ _ _ _ _ _ h with e | ⟨i, e⟩
    · split at e
      · have hfl : (toFloat env x).getD x = x ∨ (toFloat env x).getD x = .nan ∨ ∃ i, (toFloat env x).getD x = .num i := by
          cases x with
          | str s =>
            cases hs : env.float s with
            | none => left; simp [toFloat, hs]
            | some v =>
              right
              cases v with
              | none => left; simp [toFloat, hs, floatCell]
              | some i => right; exact ⟨i, by simp [toFloat, hs, floatCell]⟩
          | bool b => right; right; exact ⟨_, rfl⟩
          | _ => left; rfl
        rw [← e] at hfl
        rcases hfl with h | h | h
        · exact .inl h
        · exact .inr (.inr (.inl h))
        · exact .inr (.inr (.inr h))
      · exact .inl e
    · exact .inr (.inr (.inr ⟨i, e⟩))

/-- Cells other than numbers, datetimes and unknown objects come back from json if they are written at all and read as they are. -/
theorem jsonKeeps_plain {env : TextEnv} (hT : ∀ d, env.date (.str (env.text (.dt d))) = some d) (cf : IOConf)
    (hq : ∀ q, cf.flag = .num q → 0 < q) (t f : String) (x : Cell) (hnp : ¬ IsParams cf.params t)
    (hx : ∀ y, x ≠ .num y) (hdt : ∀ d, x ≠ .dt d) (ho : ∀ i, x ≠ .other i) :
    JsonKeeps env cf t f x ↔ (cf.flag = .none → ¬ NoneFlagAmbiguous env cf t f) ∧ readCell env cf t f x = some x := by
  rw [← json_cell_iff hT cf hq t f x hnp]
  have hw : jsonWriteCell env cf t f x = writeCell env cf t f x := by
    cases x with
    | dt d => exact absurd rfl (hdt d)
    | _ => rfl
  have hsame := write_same env cf t f (fun h => hnp ⟨h.2, h.1⟩) x
  have hcond : writeCell env cf t f x = some x ↔ (cf.flag = .none → ¬ NoneFlagAmbiguous env cf t f) := by
    rw [hsame]
    cases hf : cf.flag with
    | na => simp
    | num q => simp only [reduceCtorEq, false_implies, iff_true]; intro y e; exact absurd e (hx y)
    | none =>
      simp only [true_implies]
      exact ⟨fun h => h.1, fun h => ⟨h, fun i e => absurd e (hx i)⟩⟩
  rw [← hcond]
  constructor
  · rintro ⟨w, h1, _, h3⟩
    rw [hw] at h1
    rcases writeCell_cases hnp _ _ h1 with e | ⟨_, z, _, e⟩ | ⟨_, pos, e, _⟩
    · subst e; exact ⟨h1, h3⟩
    · exact absurd e (hx z)
    · exact absurd e (hx _)
  · rintro ⟨h1, h2⟩
    refine ⟨x, by rw [hw, h1], ?_, h2⟩
    cases x with
    | dt d => exact absurd rfl (hdt d)
    | other i => exact absurd rfl (ho i)
    | _ => rfl

/-- Cells other than numbers and datetimes are handed to the library as they are. -/
theorem xl_put (env : XlEnv) (cf : IOConf) (kind : XlKind) (t f : String) (hnp : ¬ IsParams cf.params t) (x : Cell)
    (hx : ∀ y, x ≠ .num y) (hdt : ∀ d, x ≠ .dt d) (P : Cell → Prop) :
    (∃ w, xlWriteCell env cf kind t f x = some w ∧ P w) ↔
      (cf.flag = .none → ¬ NoneFlagAmbiguous env.text cf t f) ∧ ∃ w, xlPut env kind x = some w ∧ P w := by
  have hshow : xlsxShow env x = x := by
    cases x with
    | num y => exact absurd rfl (hx y)
    | dt d => exact absurd rfl (hdt d)
    | _ => rfl
  have hcl : ∀ w, xlClean env cf kind t f x = some w ↔ w = x ∧ writeCell env.text cf t f x = some x := by
    intro w
    have hwx : ∀ w, writeCell env.text cf t f x = some w → w = x := by
      intro w h
      rcases writeCell_cases hnp _ _ h with e | ⟨_, z, _, e⟩ | ⟨_, pos, e, _⟩
      · exact e
      · exact absurd e (hx z)
      · exact absurd e (hx _)
    cases kind with
    | xls =>
      rw [xlClean_xls]
      have hw : jsonWriteCell env.text cf t f x = writeCell env.text cf t f x := by
        cases x with
        | dt d => exact absurd rfl (hdt d)
        | _ => rfl
      rw [hw]
      constructor
      · intro h; have := hwx w h; subst this; exact ⟨rfl, h⟩
      · rintro ⟨rfl, h⟩; exact h
    | xlsx =>
      rw [xlClean_xlsx, Option.map_eq_some_iff]
      constructor
      · rintro ⟨v, h1, rfl⟩
        have := hwx v h1
        subst this
        exact ⟨hshow, h1⟩
      · rintro ⟨rfl, h⟩; exact ⟨_, h, hshow⟩
  have hsame := write_same env.text cf t f (fun h => hnp ⟨h.2, h.1⟩) x
  have hcond : writeCell env.text cf t f x = some x ↔ (cf.flag = .none → ¬ NoneFlagAmbiguous env.text cf t f) := by
    rw [hsame]
    cases hf : cf.flag with
    | na => simp
    | num q => simp only [reduceCtorEq, false_implies, iff_true]; intro y e; exact absurd e (hx y)
    | none =>
      simp only [true_implies]
      exact ⟨fun h => h.1, fun h => ⟨h, fun i e => absurd e (hx i)⟩⟩
  rw [← hcond]
  unfold xlWriteCell
  constructor
  · rintro ⟨w, h1, h2⟩
    rw [Option.bind_eq_some_iff] at h1
    obtain ⟨v, h3, h4⟩ := h1
    obtain ⟨rfl, h5⟩ := (hcl v).mp h3
    exact ⟨h5, w, h4, h2⟩
  · rintro ⟨h1, w, h2, h3⟩
    exact ⟨w, by rw [(hcl x).mpr ⟨rfl, h1⟩]; exact h2, h3⟩

/-- Reading cells that are neither text nor numbers. -/
theorem xlRead_other (env : XlEnv) (cf : IOConf) (dv : Defaults) (o : XlOpts) (t f : String) (x : Cell) (hs : ∀ s, x ≠ .str s)
    (hn : x.numericish = false) : xlReadCell env cf dv o t f x = readCell env.text cf t f x :=
  xlReadCell_plain env cf dv o t f x (hs _) (fun _ _ _ s e => absurd e (hs s)) (fun h => by rw [hn] at h; cases h)

/-- Reading numbers and NaN. -/
theorem xlRead_number (env : XlEnv) (cf : IOConf) (dv : Defaults) (o : XlOpts) (t f : String) (x : Cell) (hn : x.numericish = true)
    (hs : ∀ s, x ≠ .str s) :
    (NoDates cf o t f ∧ xlReadCell env cf dv o t f x = readCell env.text cf t f x) ∨
    (¬ NoDates cf o t f ∧ ∃ y, (y = .none ∨ ∃ d, y = .dt d) ∧
      xlReadCell env cf dv o t f x = readCell env.text cf t f y) := by
  by_cases hd : NoDates cf o t f
  · exact .inl ⟨hd, xlReadCell_plain env cf dv o t f x (hs _) (fun _ _ _ s e => absurd e (hs s)) (fun _ => hd)⟩
  · refine .inr ⟨hd, ?_⟩
    obtain ⟨hk, td, htd, hdt⟩ : o.kind = .xls ∧ ∃ td, typeOf cf.types t f = some td ∧ td.datetime = true := by
      refine Classical.byContradiction (fun hno => hd (fun hk td htd => ?_))
      cases h : td.datetime with
      | false => rfl
      | true => exact absurd ⟨hk, td, htd, h⟩ hno
    have hi : (if xlTreatInf cf o t = true then xlInfText env.case x else none) = none := by
      split
      · cases x with
        | str s => exact absurd rfl (hs s)
        | _ => rfl
      · rfl
    have hr : xlReadCell env cf dv o t f x = readCell env.text cf t f (xlDate env true x) := by
      unfold xlReadCell
      simp only [at_eq_typeOf]
      rw [if_neg (fun h => hs _ h.1), hi]
      simp only
      rw [if_neg (hs _), Option.bind_some]
      simp [htd, hdt, hk, Cell.numericish]
    rw [hr]
    cases x with
    | num q =>
      simp only [xlDate, if_true]
      cases env.xldate q with
      | none => exact ⟨.none, .inl rfl, rfl⟩
      | some d => exact ⟨.dt d, .inr ⟨d, rfl⟩, rfl⟩
    | nan => exact ⟨.none, .inl rfl, rfl⟩
    | _ => cases hn

theorem read_dt_form {env : TextEnv} {cf : IOConf} {t f : String} {d : Nat} {y : Cell}
    (htd : ∃ td, typeOf cf.types t f = some td ∧ td.datetime = true) (h : readCell env cf t f (.dt d) = some y) : y = .dt d := by
  obtain ⟨td, h1, h2⟩ := htd
  unfold readCell at h
  split at h
  · cases h; rfl
  · simp [at_eq_typeOf, h1, h2, Cell.isNull, dateAdjust] at h
    exact h.symm

/-- The text of an infinity, as it is read from a sheet. -/
theorem xl_text_self (env : XlEnv) (cf : IOConf) (dv : Defaults) (o : XlOpts) (t f s : String) (hs : s ≠ "")
    (hnp : ¬ IsParams cf.params t) :
    xlReadCell env cf dv o t f (.str s) = some (.str s) ↔
      (o.treatInf = true → cf.flag = .na →
          env.case.lower s.toList ≠ "inf".toList ∧ env.case.lower s.toList ≠ "-inf".toList) ∧
      readCell env.text cf t f (.str s) = some (.str s) := by
  by_cases h : o.treatInf = true → cf.flag = .na →
      env.case.lower s.toList ≠ "inf".toList ∧ env.case.lower s.toList ≠ "-inf".toList
  · rw [xlReadCell_plain env cf dv o t f (.str s) (by simp [hs]) (fun a b _ s' e => by cases e; exact h a b)
      (fun h => by cases h)]
    exact ⟨fun h' => ⟨h, h'⟩, fun h' => h'.2⟩
  · refine iff_of_false ?_ (fun hh => h hh.1)
    have ⟨ha, hb, hc⟩ : o.treatInf = true ∧ cf.flag = .na ∧
        (env.case.lower s.toList = "inf".toList ∨ env.case.lower s.toList = "-inf".toList) := by
      refine Classical.byContradiction (fun hno => h (fun a b => ⟨fun e => hno ⟨a, b, .inl e⟩, fun e => hno ⟨a, b, .inr e⟩⟩))
    have hti : xlTreatInf cf o t = true := by
      unfold xlTreatInf
      simp only [ha, hb, decide_true, Bool.and_true, Bool.true_and, Bool.not_eq_true', decide_eq_false_iff_not]
      exact fun hh => hnp ⟨hh.2, hh.1⟩
    obtain ⟨y, hy⟩ : ∃ y, xlInfText env.case (.str s) = some y := by
      unfold xlInfText
      by_cases hi : env.case.lower s.toList = "inf".toList
      · exact ⟨.pinf, by simp only [if_pos hi]⟩
      · rcases hc with e | e
        · exact absurd e hi
        · exact ⟨.ninf, by simp only [if_neg hi, if_pos e]⟩
    rw [xlReadCell_inf env cf dv o t f s y hti hs hy]
    simp

/-- The empty text, as it is read from a sheet. -/
theorem xl_empty_cases (env : XlEnv) (cf : IOConf) (dv : Defaults) (o : XlOpts) (t f : String) :
    (CsvNullField cf dv t f ∧ xlReadCell env cf dv o t f (.str "") = some .none) ∨
    (¬ CsvNullField cf dv t f ∧ readCell env.text cf t f .none = none ∧ xlReadCell env cf dv o t f (.str "") = none) ∨
    (¬ CsvNullField cf dv t f ∧ ∃ i, readCell env.text cf t f .none = some (.num i) ∧ xlReadCell env cf dv o t f (.str "") = some (.num i)) ∨
    (¬ CsvNullField cf dv t f ∧ readCell env.text cf t f .none = some .none ∧
      xlReadCell env cf dv o t f (.str "") = readCell env.text cf t f (.str "")) := by
  by_cases hn : CsvNullField cf dv t f
  · exact .inl ⟨hn, xlReadCell_null env cf dv o t f hn⟩
  · right
    cases hr : readCell env.text cf t f .none with
    | none =>
      left
      refine ⟨hn, rfl, ?_⟩
      have hi : (if xlTreatInf cf o t = true then xlInfText env.case (.str "") else none) = none := by
        split
        · have : env.case.lower "".toList = [] := rfl
          simp only [xlInfText, this]
          rw [if_neg (by decide), if_neg (by decide)]
        · rfl
      have hn' : (((typeOf cf.types t f).map (·.nullable)).getD (decide (dv t f = some .none))) = false := by
        rw [Bool.eq_false_iff]
        exact fun hh => hn ((nullCond_iff cf dv t f).mp hh)
      unfold xlReadCell
      simp only [at_eq_typeOf, hi, hn']
      simp only [Bool.false_eq_true, and_false, if_false, if_true, hr, Option.bind_none]
    | some y =>
      right
      rcases read_none_kind hr with rfl | ⟨i, rfl⟩
      · right
        exact ⟨hn, rfl, by rw [xlReadCell_empty env cf dv o t f hn _ hr]; rfl⟩
      · left
        exact ⟨hn, i, rfl, by rw [xlReadCell_empty env cf dv o t f hn _ hr]; rfl⟩

/-- Only text is read as text. -/
theorem xlRead_text {env : XlEnv} {cf : IOConf} {dv : Defaults} {o : XlOpts} {t f s : String} {x : Cell}
    (h : xlReadCell env cf dv o t f x = some (.str s)) : x = .str s := by
  have key : ∀ c, readCell env.text cf t f c = some (.str s) → c = .str s := by
    intro c hc
    rcases readCell_form _ _ _ _ _ _ hc with e | ⟨d, e⟩ | e | ⟨i, e⟩
    · exact e.symm
    all_goals cases e
  by_cases hx : ∃ s', x = .str s'
  · obtain ⟨s', rfl⟩ := hx
    by_cases hs' : s' = ""
    · subst hs'
      rcases xl_empty_cases env cf dv o t f with ⟨_, h1⟩ | ⟨_, _, h1⟩ | ⟨_, i, _, h1⟩ | ⟨_, _, h1⟩
      · rw [h1] at h; cases h
      · rw [h1] at h; cases h
      · rw [h1] at h; cases h
      · rw [h1] at h; exact key _ h
    · unfold xlReadCell at h
      simp only at h
      rw [if_neg (by simp [hs'])] at h
      split at h
      · cases h
      · rw [if_neg (by simp [hs']), Option.bind_some] at h
        exact key _ h
  · have hs : ∀ s', x ≠ .str s' := fun s' e => hx ⟨s', e⟩
    by_cases hn : x.numericish = true
    · rcases xlRead_number env cf dv o t f x hn hs with ⟨_, h1⟩ | ⟨_, y, hy, h1⟩
      · rw [h1] at h; exact key _ h
      · rw [h1] at h
        have := key _ h
        rcases hy with e | ⟨d, e⟩ <;> rw [e] at this <;> cases this
    · rw [xlRead_other env cf dv o t f x hs (by simpa using hn)] at h
      exact key _ h

/-- How numbers are written. -/
theorem write_num_cases (env : TextEnv) (cf : IOConf) (t f : String) (hnp : ¬ IsParams cf.params t) (y : XNum) (v : Cell)
    (h : writeCell env cf t f (.num y) = some v) :
    (v = .none ∧ cf.flag = .none ∧ NoneMeans env cf t f y) ∨
    (v = .num y ∧ (cf.flag = .na ∨ (cf.flag = .none ∧ ¬ NoneMeans env cf t f y))) ∨
    ∃ q r, cf.flag = .num q ∧ v = .num (.fin r) := by
  unfold writeCell at h
  rw [if_neg (fun hh => hnp ⟨hh.2, hh.1⟩)] at h
  cases hf : cf.flag with
  | na => rw [hf] at h; cases h; exact .inr (.inl ⟨rfl, .inl rfl⟩)
  | num q =>
    rw [hf] at h
    obtain ⟨r, hr⟩ := clamp_fin q y
    simp only [hr, Option.some.injEq] at h
    exact .inr (.inr ⟨q, r, rfl, h.symm⟩)
  | none =>
    rw [hf] at h
    simp only at h
    rcases infBias_cases env cf hf t f with ⟨_, h4⟩ | ⟨_, h3, h4⟩ | ⟨pos, _, h3, h4⟩
    · rw [h4] at h; cases h
    · rw [h4] at h
      cases h
      exact .inr (.inl ⟨rfl, .inr ⟨rfl, h3 y⟩⟩)
    · rw [h4] at h
      simp only [Option.map_some, Option.some.injEq] at h
      split at h
      · rename_i he
        cases he
        exact .inl ⟨h.symm, rfl, (h3 _).mpr rfl⟩
      · rename_i hne
        subst h
        exact .inr (.inl ⟨rfl, .inr ⟨rfl, fun hm => hne (by rw [(h3 y).mp hm])⟩⟩)

theorem noneMeans_notNull {env : TextEnv} {cf : IOConf} {dv : Defaults} {t f : String} {i : XNum} (h : NoneMeans env cf t f i) :
    ¬ CsvNullField cf dv t f := by
  obtain ⟨td, htd, _, hnn, _⟩ := h
  unfold CsvNullField
  rw [htd]
  intro hnull
  exact hnn (.inl ⟨.inl rfl, hnull⟩)

theorem xlText_floatInf {env : XlEnv} (hT : XlTextOK env) : FloatInf env.text :=
  ⟨by rw [← hT.pinf]; exact hT.num _, by rw [← hT.ninf]; exact hT.num _⟩

/-- **C48, exactly which cells come back.** -/
theorem xl_cell_iff {env : XlEnv} (hT : XlTextOK env) (cf : IOConf) (hq : ∀ q, cf.flag = .num q → 0 < q) (dv : Defaults) (o : XlOpts)
    (t f : String) (x : Cell) (hnp : ¬ IsParams cf.params t) :
    XlCell env cf dv o t f x x ↔ XlKeeps env cf dv o t f x := by
  cases x with
  | other i =>
    refine iff_of_false ?_ (fun h => h.2)
    unfold XlCell
    rw [xl_put env cf o.kind t f hnp (.other i) (by simp) (by simp)]
    rintro ⟨_, w, h, _⟩
    cases h
  | bool b =>
    unfold XlCell XlKeeps
    rw [xl_put env cf o.kind t f hnp (.bool b) (by simp) (by simp),
      jsonKeeps_plain hT.dt cf hq t f (.bool b) hnp (by simp) (by simp) (by simp)]
    cases hk : o.kind with
    | xls =>
      refine iff_of_false ?_ (fun h => by cases h.2)
      rintro ⟨_, w, h, h2⟩
      simp only [xlPut, if_true, Option.some.injEq] at h
      subst h
      simp only [xlFill] at h2
      rcases xlRead_number env cf dv o t f (.num (.fin (if b then 1 else 0))) rfl (by simp) with ⟨_, h1⟩ | ⟨_, y, hy, h1⟩
      · rw [h1] at h2
        obtain ⟨i, e⟩ := read_num_kind _ h2
        cases e
      · rw [h1] at h2
        rcases readCell_form _ _ _ _ _ _ h2 with e | ⟨d, e⟩ | e | ⟨i, e⟩
        · rw [← e] at hy; rcases hy with e | ⟨d, e⟩ <;> cases e
        all_goals cases e
    | xlsx =>
      simp only [and_true]
      refine and_congr Iff.rfl ?_
      have hr := xlRead_other env cf dv o t f (.bool b) (by simp) rfl
      constructor
      · rintro ⟨w, h, h2⟩
        simp [xlPut] at h
        subst h
        rw [← hr]; exact h2
      · intro h
        exact ⟨.bool b, by simp [xlPut], by simp only [xlFill]; rw [hr]; exact h⟩
  | nan =>
    unfold XlCell XlKeeps
    rw [xl_put env cf o.kind t f hnp .nan (by simp) (by simp),
      jsonKeeps_plain hT.dt cf hq t f .nan hnp (by simp) (by simp) (by simp), and_assoc]
    refine and_congr Iff.rfl ?_
    cases hk : o.kind with
    | xlsx =>
      refine iff_of_false ?_ (fun h => by cases h.2.1)
      rintro ⟨w, h, h2⟩
      simp [xlPut] at h
    | xls =>
      simp only [true_and]
      have hput : xlPut env .xls .nan = some .nan := by simp [xlPut]
      rw [hput]
      simp only [Option.some.injEq, exists_eq_left', xlFill]
      rcases xlRead_number env cf dv o t f .nan rfl (by simp) with ⟨hd, h1⟩ | ⟨hd, y, hy, h1⟩
      · rw [h1]
        exact ⟨fun h => ⟨h, hd⟩, fun h => h.1⟩
      · rw [h1]
        refine iff_of_false ?_ (fun h => hd h.2)
        intro h2
        rcases hy with rfl | ⟨d, rfl⟩
        · rcases read_none_kind h2 with e | ⟨i, e⟩ <;> cases e
        · have htd : ∃ td, typeOf cf.types t f = some td ∧ td.datetime = true := by
            refine Classical.byContradiction (fun hno => hd (fun _ td htd => ?_))
            cases h : td.datetime with
            | false => rfl
            | true => exact absurd ⟨td, htd, h⟩ hno
          have := read_dt_form htd h2
          cases this
  | none =>
    unfold XlCell XlKeeps
    rw [xl_put env cf o.kind t f hnp .none (by simp) (by simp),
      jsonKeeps_plain hT.dt cf hq t f .none hnp (by simp) (by simp) (by simp), and_assoc]
    have hput : xlPut env o.kind .none = some .none := rfl
    rw [hput]
    simp only [Option.some.injEq, exists_eq_left']
    constructor
    · rintro ⟨h1, h2⟩
      refine ⟨h1, ?_⟩
      cases hk : o.kind with
      | xlsx =>
        rw [hk] at h2
        simp only [xlFill, reduceCtorEq, if_false] at h2
        rw [xlRead_other env cf dv o t f .none (by simp) rfl] at h2
        exact ⟨h2, fun h => by cases h⟩
      | xls =>
        rw [hk] at h2
        simp only [xlFill, if_true] at h2
        rcases xl_empty_cases env cf dv o t f with ⟨h3, _⟩ | ⟨_, _, h4⟩ | ⟨_, i, _, h4⟩ | ⟨_, _, h4⟩
        · refine ⟨?_, fun _ => h3⟩
          rcases none_read_cases env.text cf t f with ⟨h5, _⟩ | ⟨pos, _, h5, _⟩ | ⟨_, h5, h6, _⟩
          · exact h5
          · exact absurd h3 (noneMeans_notNull ((h5 _).mpr rfl))
          · exact absurd h6 (h1 h5)
        · rw [h4] at h2; cases h2
        · rw [h4] at h2; cases h2
        · rw [h4] at h2
          rcases readCell_form _ _ _ _ _ _ h2 with e | ⟨d, e⟩ | e | ⟨i, e⟩ <;> cases e
    · rintro ⟨h1, h2, h3⟩
      refine ⟨h1, ?_⟩
      cases hk : o.kind with
      | xlsx =>
        simp only [xlFill, reduceCtorEq, if_false]
        rw [xlRead_other env cf dv o t f .none (by simp) rfl]
        exact h2
      | xls =>
        simp only [xlFill, if_true]
        exact xlReadCell_null env cf dv o t f (h3 hk)
  | str s =>
    unfold XlCell XlKeeps
    rw [xl_put env cf o.kind t f hnp (.str s) (by simp) (by simp),
      jsonKeeps_plain hT.dt cf hq t f (.str s) hnp (by simp) (by simp) (by simp), and_assoc]
    refine and_congr_right (fun hamb => ?_)
    by_cases hs : s = ""
    · subst hs
      have hput : xlPut env o.kind (.str "") = some .none := by simp [xlPut]
      rw [hput]
      simp only [Option.some.injEq, exists_eq_left']
      cases hk : o.kind with
      | xlsx =>
        refine iff_of_false ?_ ?_
        · simp only [xlFill, reduceCtorEq, if_false]
          intro h
          have := xlRead_text h
          cases this
        · rintro ⟨_, _, h | ⟨_, h, _⟩⟩
          · exact h.1 rfl
          · cases h
      | xls =>
        simp only [xlFill, if_true]
        have hlow : env.case.lower "".toList = [] := rfl
        constructor
        · intro h
          rcases xl_empty_cases env cf dv o t f with ⟨_, h4⟩ | ⟨_, _, h4⟩ | ⟨_, i, _, h4⟩ | ⟨h3, h5, h4⟩
          · rw [h4] at h; cases h
          · rw [h4] at h; cases h
          · rw [h4] at h; cases h
          · rw [h4] at h
            refine ⟨h, fun _ _ => by rw [hlow]; exact ⟨by decide, by decide⟩, .inr ⟨trivial, trivial, h3, ?_⟩⟩
            rcases none_read_cases env.text cf t f with ⟨_, h6⟩ | ⟨pos, _, _, h6⟩ | ⟨_, _, _, h6⟩
            · exact h6
            · rw [h5] at h6; cases h6
            · rw [h5] at h6; cases h6
        · rintro ⟨h, _, h2 | ⟨_, _, h2, h3⟩⟩
          · exact absurd rfl h2.1
          · rcases xl_empty_cases env cf dv o t f with ⟨h4, _⟩ | ⟨_, h5, _⟩ | ⟨_, i, h5, _⟩ | ⟨_, _, h4⟩
            · exact absurd h4 h2
            · rcases none_read_cases env.text cf t f with ⟨h6, _⟩ | ⟨pos, _, _, h6⟩ | ⟨_, h7, h8, _⟩
              · rw [h5] at h6; cases h6
              · rw [h5] at h6; cases h6
              · exact absurd h8 (hamb h7)
            · rcases none_read_cases env.text cf t f with ⟨h6, _⟩ | ⟨pos, h7, h8, h6⟩ | ⟨_, _, _, h6⟩
              · rw [h5] at h6; cases h6
              · exact absurd ⟨h7.1, h7.2, _, (h8 _).mpr rfl⟩ h3
              · rw [h5] at h6; cases h6
            · rw [h4]; exact h
    · have hself := xl_text_self env cf dv o t f s hs hnp
      constructor
      · rintro ⟨w, h1, h2⟩
        have hw : xlFill o.kind w = .str s := xlRead_text h2
        have hw' : w = .str s := by
          unfold xlFill at hw
          split at hw
          · split at hw
            · cases hw; exact absurd rfl hs
            · cases hw
          · exact hw
        rw [hw, hself] at h2
        refine ⟨h2.2, h2.1, .inl ⟨hs, fun hk => ?_⟩⟩
        rw [hw'] at h1
        simpa [xlPut, hs, hk] using h1
      · rintro ⟨h1, h2, ⟨_, h3⟩ | ⟨h3, _⟩⟩
        · refine ⟨.str s, ?_, hself.mpr ⟨h2, h1⟩⟩
          cases hk : o.kind with
          | xls => simp [xlPut, hs]
          | xlsx => simp [xlPut, hs, h3 hk]
        · exact absurd h3 hs
  | dt d =>
    obtain ⟨ht1, ht2, ht3, ht4⟩ := hT.dtText d
    have hput : xlPut env o.kind (.str (env.text.text (.dt d))) = some (.str (env.text.text (.dt d))) := by
      cases o.kind <;> simp [xlPut, ht1, ht2]
    have hread : xlReadCell env cf dv o t f (.str (env.text.text (.dt d))) = readCell env.text cf t f (.str (env.text.text (.dt d))) :=
      xlReadCell_plain env cf dv o t f _ (by simp [ht1]) (fun _ _ _ s e => by cases e; exact ⟨ht3, ht4⟩) (fun h => by cases h)
    have hj : JsonKeeps env.text cf t f (.dt d) ↔ readCell env.text cf t f (.str (env.text.text (.dt d))) = some (.dt d) := by
      rw [← json_cell_iff hT.dt cf hq t f (.dt d) hnp]
      unfold JsonCell jsonWriteCell
      simp [jsonable]
    have hclean : ∀ w, xlClean env cf o.kind t f (.dt d) = some w ↔
        w = .str (env.text.text (.dt d)) ∧ (o.kind = .xlsx → cf.flag = .none → ¬ NoneFlagAmbiguous env.text cf t f) := by
      intro w
      cases hk : o.kind with
      | xls =>
        rw [xlClean_xls]
        simp only [jsonWriteCell, Option.some.injEq, reduceCtorEq, false_implies, and_true]
        exact eq_comm
      | xlsx =>
        have hsame := write_same env.text cf t f (fun h => hnp ⟨h.2, h.1⟩) (.dt d)
        have hcond : writeCell env.text cf t f (.dt d) = some (.dt d) ↔ (cf.flag = .none → ¬ NoneFlagAmbiguous env.text cf t f) := by
          rw [hsame]
          cases cf.flag <;> simp
        rw [xlClean_xlsx, Option.map_eq_some_iff]
        simp only [true_implies]
        rw [← hcond]
        constructor
        · rintro ⟨v, h1, rfl⟩
          rcases writeCell_cases hnp _ _ h1 with e | ⟨_, z, _, e⟩ | ⟨_, pos, e, _⟩
          · subst e; exact ⟨rfl, h1⟩
          · cases e
          · cases e
        · rintro ⟨rfl, h⟩
          exact ⟨_, h, rfl⟩
    unfold XlCell XlKeeps
    rw [hj]
    constructor
    · rintro ⟨w, h1, h2⟩
      rw [xlWriteCell, Option.bind_eq_some_iff] at h1
      obtain ⟨v, h3, h4⟩ := h1
      obtain ⟨rfl, h5⟩ := (hclean v).mp h3
      rw [hput] at h4
      cases h4
      rw [← hread]
      exact ⟨h2, h5⟩
    · rintro ⟨h1, h2⟩
      refine ⟨_, by rw [xlWriteCell, (hclean _).mpr ⟨rfl, h2⟩, Option.bind_some, hput], ?_⟩
      simp only [xlFill]
      rw [hread]
      exact h1
  | num y =>
    have hjson : JsonKeeps env.text cf t f (.num y) ↔
        ∃ v, writeCell env.text cf t f (.num y) = some v ∧ readCell env.text cf t f v = some (.num y) := by
      rw [← json_cell_iff hT.dt cf hq t f (.num y) hnp]
      constructor
      · rintro ⟨w, h1, _, h3⟩; exact ⟨w, h1, h3⟩
      · rintro ⟨w, h1, h3⟩
        refine ⟨w, h1, ?_, h3⟩
        rcases writeCell_cases hnp _ _ h1 with e | ⟨z, _, e, _⟩ | ⟨e, _⟩ <;> rw [e] <;> rfl
    have hsplit : XlCell env cf dv o t f (.num y) (.num y) ↔ ∃ v, writeCell env.text cf t f (.num y) = some v ∧
        ∃ w, xlPut env o.kind (if o.kind = .xlsx then xlsxShow env v else v) = some w ∧
          xlReadCell env cf dv o t f (xlFill o.kind w) = some (.num y) := by
      unfold XlCell xlWriteCell
      cases hk : o.kind with
      | xls =>
        rw [xlClean_xls]
        have : jsonWriteCell env.text cf t f (.num y) = writeCell env.text cf t f (.num y) := rfl
        rw [this]
        simp only [reduceCtorEq, if_false, Option.bind_eq_some_iff]
        constructor
        · rintro ⟨w, ⟨v, h1, h2⟩, h3⟩; exact ⟨v, h1, w, h2, h3⟩
        · rintro ⟨v, h1, w, h2, h3⟩; exact ⟨w, ⟨v, h1, h2⟩, h3⟩
      | xlsx =>
        rw [xlClean_xlsx]
        simp only [if_true, Option.bind_eq_some_iff, Option.map_eq_some_iff]
        constructor
        · rintro ⟨w, ⟨v, ⟨u, h0, h1⟩, h2⟩, h3⟩; exact ⟨u, h0, w, by rw [h1]; exact h2, h3⟩
        · rintro ⟨u, h1, w, h2, h3⟩; exact ⟨w, ⟨_, ⟨u, h1, rfl⟩, h2⟩, h3⟩
    unfold XlKeeps
    rw [hsplit, hjson]
    cases hwr : writeCell env.text cf t f (.num y) with
    | none => simp
    | some v =>
      simp only [Option.some.injEq, exists_eq_left']
      have hnum : ∀ z, ¬ (cf.flag = .none ∧ NoneMeans env.text cf t f y) →
          (xlReadCell env cf dv o t f (.num z) = some (.num y) ↔
            readCell env.text cf t f (.num z) = some (.num y) ∧ NoDates cf o t f) := by
        intro z hno
        rcases xlRead_number env cf dv o t f (.num z) rfl (by simp) with ⟨hd, h1⟩ | ⟨hd, u, hu, h1⟩
        · rw [h1]
          exact ⟨fun h => ⟨h, hd⟩, fun h => h.1⟩
        · rw [h1]
          refine iff_of_false ?_ (fun h => hd h.2)
          intro h2
          rcases hu with rfl | ⟨d, rfl⟩
          · rcases none_read_cases env.text cf t f with ⟨h3, _⟩ | ⟨pos, h3, h4, h5⟩ | ⟨_, _, _, h3⟩
            · rw [h3] at h2; cases h2
            · rw [h5] at h2
              cases h2
              exact hno ⟨h3.2, (h4 _).mpr rfl⟩
            · rw [h3] at h2; cases h2
          · have htd : ∃ td, typeOf cf.types t f = some td ∧ td.datetime = true := by
              refine Classical.byContradiction (fun hno => hd (fun _ td htd => ?_))
              cases h : td.datetime with
              | false => rfl
              | true => exact absurd ⟨td, htd, h⟩ hno
            have := read_dt_form htd h2
            cases this
      rcases write_num_cases env.text cf t f hnp y v hwr with ⟨rfl, hf, hm⟩ | ⟨rfl, hf⟩ | ⟨q, r, hf, rfl⟩
      · -- written as `None`
        have hput : xlPut env o.kind (if o.kind = .xlsx then xlsxShow env .none else .none) = some .none := by
          cases o.kind <;> rfl
        rw [hput]
        simp only [Option.some.injEq, exists_eq_left']
        have hr : xlReadCell env cf dv o t f (xlFill o.kind .none) = some (.num y) ↔ readCell env.text cf t f .none = some (.num y) := by
          cases hk : o.kind with
          | xlsx =>
            simp only [xlFill, reduceCtorEq, if_false]
            rw [xlRead_other env cf dv o t f .none (by simp) rfl]
          | xls =>
            simp only [xlFill, if_true]
            rcases xl_empty_cases env cf dv o t f with ⟨h4, _⟩ | ⟨_, h5, h4⟩ | ⟨_, i, h5, h4⟩ | ⟨_, h5, h4⟩
            · exact absurd h4 (noneMeans_notNull hm)
            · rw [h4, h5]
            · rw [h4, h5]
            · rw [h4, h5]
              refine iff_of_false ?_ (by simp)
              rcases none_read_cases env.text cf t f with ⟨_, h6⟩ | ⟨pos, _, _, h6⟩ | ⟨_, _, _, h6⟩
              · have ht : t = "parameters" := Classical.byContradiction (fun ht => h6 ⟨ht, hf, _, hm⟩)
                simp [readCell, ht]
              · rw [h5] at h6; cases h6
              · rw [h5] at h6; cases h6
        rw [hr]
        exact ⟨fun h => ⟨h, .inl ⟨hf, hm⟩⟩, fun h => h.1⟩
      · -- written as it is
        have hno : ¬ (cf.flag = .none ∧ NoneMeans env.text cf t f y) := by
          rintro ⟨h1, h2⟩
          rcases hf with h | ⟨_, h⟩
          · rw [h] at h1; cases h1
          · exact h h2
        simp only [hno, false_or]
        by_cases hi : (y = .pinf ∨ y = .ninf) ∧ o.kind = .xlsx
        · obtain ⟨hy, hk⟩ := hi
          have hnd : NoDates cf o t f := fun h => by rw [hk] at h; cases h
          have hself : readCell env.text cf t f (.num y) = some (.num y) := by
            rw [num_self_iff]
            rcases hf with h | ⟨h, _⟩ <;> rw [h] <;> trivial
          have hnq : ¬ ∃ q, cf.flag = .num q := by
            rintro ⟨q, h⟩
            rcases hf with h' | ⟨h', _⟩ <;> rw [h] at h' <;> cases h'
          have hput : xlPut env o.kind (if o.kind = .xlsx then xlsxShow env (.num y) else .num y) = some (.str (infText y)) := by
            rw [hk]
            rcases hy with rfl | rfl
            · simp [xlsxShow, xlPut, hT.pinf, hT.infText.1, infText]
            · simp [xlsxShow, xlPut, hT.ninf, hT.infText.2, infText]
          rw [hput]
          simp only [Option.some.injEq, exists_eq_left', xlFill]
          simp only [hself, hnd, hy, hk, hnq, true_and, true_implies, false_or]
          have hne : infText y ≠ "" := by rcases hy with rfl | rfl <;> decide
          by_cases hti : cf.flag = .na ∧ o.treatInf = true
          · refine iff_of_true ?_ (.inl hti)
            have hti' : xlTreatInf cf o t = true := by
              unfold xlTreatInf
              simp only [hti.1, hti.2, decide_true, Bool.and_true, Bool.true_and, Bool.not_eq_true', decide_eq_false_iff_not]
              exact fun hh => hnp ⟨hh.2, hh.1⟩
            refine xlReadCell_inf env cf dv o t f (infText y) y hti' hne ?_
            unfold xlInfText
            rcases hy with rfl | rfl
            · rw [show infText .pinf = "inf" from rfl]
              simp only [hT.infLower.1, if_true]
            · rw [show infText .ninf = "-inf" from rfl]
              simp only [hT.infLower.2]
              rw [if_neg (by decide)]
              simp
          · simp only [hti, false_or]
            rw [xlReadCell_plain env cf dv o t f _ (by simp [hne]) (fun a b => absurd ⟨b, a⟩ hti) (fun h => by cases h),
              inf_text_iff (xlText_floatInf hT) cf t f y hy]
        · have hput : xlPut env o.kind (if o.kind = .xlsx then xlsxShow env (.num y) else .num y) = some (.num y) := by
            cases hk : o.kind with
            | xls => cases y <;> simp [xlPut]
            | xlsx =>
              cases y with
              | fin a => rfl
              | pinf => exact absurd ⟨.inl rfl, hk⟩ hi
              | ninf => exact absurd ⟨.inr rfl, hk⟩ hi
          rw [hput]
          simp only [Option.some.injEq, exists_eq_left', xlFill]
          rw [hnum y hno]
          exact and_congr_right (fun _ => ⟨fun h => ⟨h, fun a b => absurd ⟨a, b⟩ hi⟩, fun h => h.1⟩)
      · -- the flag
        have hno : ¬ (cf.flag = .none ∧ NoneMeans env.text cf t f y) := fun h => by rw [hf] at h; cases h.1
        have hput : xlPut env o.kind (if o.kind = .xlsx then xlsxShow env (.num (.fin r)) else .num (.fin r)) = some (.num (.fin r)) := by
          cases o.kind <;> rfl
        rw [hput]
        simp only [Option.some.injEq, exists_eq_left', xlFill, hno, false_or]
        rw [hnum _ hno]
        exact and_congr_right (fun _ => ⟨fun h => ⟨h, fun _ _ => .inr (.inl ⟨q, hf⟩)⟩, fun h => h.1⟩)

/-- A visible cell that comes back is stored. -/
theorem xl_cell_visible {env : XlEnv} (hT : XlTextOK env) (cf : IOConf) (dv : Defaults) (o : XlOpts) (t f : String) (x : Cell)
    (hnp : ¬ IsParams cf.params t) (h : XlCell env cf dv o t f x x) :
    ∃ w, xlWriteCell env cf o.kind t f x = some w ∧ xlReadCell env cf dv o t f (xlFill o.kind w) = some x ∧
      (Visible cf x → w ≠ .none) := by
  obtain ⟨w, h1, h2⟩ := h
  refine ⟨w, h1, h2, ?_⟩
  rintro hv rfl
  by_cases hn : ∃ y, x = .num y
  · obtain ⟨y, rfl⟩ := hn
    rw [xlWriteCell, Option.bind_eq_some_iff] at h1
    obtain ⟨u, h3, h4⟩ := h1
    have hu : u = .none ∨ ∃ s, u = .str s := by
      unfold xlPut at h4
      cases u with
      | none => exact .inl rfl
      | str s => exact .inr ⟨s, rfl⟩
      | num z => cases z <;> simp at h4
      | nan => simp at h4
      | bool b => simp at h4; split at h4 <;> cases h4
      | dt d => cases h4
      | other i => cases h4
    have hvis : ¬ (cf.flag = .none ∧ NoneMeans env.text cf t f y) := by
      rintro ⟨hf, td, _, _, _, ⟨rfl, _⟩ | ⟨rfl, _⟩⟩
      · exact (hv.2.2 hf).1 rfl
      · exact (hv.2.2 hf).2 rfl
    have hw : ∀ v, writeCell env.text cf t f (.num y) = some v → ∃ z, v = .num z ∧ (z = y ∨ ∃ r, z = .fin r) := by
      intro v hwr
      rcases write_num_cases env.text cf t f hnp y v hwr with ⟨_, hf, hm⟩ | ⟨rfl, _⟩ | ⟨q, r, _, rfl⟩
      · exact absurd ⟨hf, hm⟩ hvis
      · exact ⟨y, rfl, .inl rfl⟩
      · exact ⟨_, rfl, .inr ⟨r, rfl⟩⟩
    cases hk : o.kind with
    | xls =>
      rw [hk, xlClean_xls] at h3
      obtain ⟨z, e, _⟩ := hw u h3
      rcases hu with e' | ⟨s, e'⟩ <;> rw [e] at e' <;> cases e'
    | xlsx =>
      rw [hk, xlClean_xlsx, Option.map_eq_some_iff] at h3
      obtain ⟨v, h5, h6⟩ := h3
      obtain ⟨z, rfl, _⟩ := hw v h5
      rw [hk] at h4
      cases z with
      | fin r => subst h6; cases h4
      | pinf =>
        subst h6
        simp [xlsxShow, hT.pinf, xlPut, hT.infText.1] at h4
      | ninf =>
        subst h6
        simp [xlsxShow, hT.ninf, xlPut, hT.infText.2] at h4
  · by_cases hd : ∃ d, x = .dt d
    · obtain ⟨d, rfl⟩ := hd
      obtain ⟨ht1, ht2, _, _⟩ := hT.dtText d
      rw [xlWriteCell, Option.bind_eq_some_iff] at h1
      obtain ⟨u, h3, h4⟩ := h1
      have hu : u = .str (env.text.text (.dt d)) := by
        cases hk : o.kind with
        | xls => rw [hk, xlClean_xls] at h3; exact (Option.some.inj h3).symm
        | xlsx =>
          rw [hk, xlClean_xlsx, Option.map_eq_some_iff] at h3
          obtain ⟨v, h5, h6⟩ := h3
          rcases writeCell_cases hnp _ _ h5 with e | ⟨_, z, _, e⟩ | ⟨_, pos, e, _⟩
          · subst e; exact h6.symm
          · cases e
          · cases e
      subst hu
      cases hk : o.kind <;> rw [hk] at h4 <;> simp [xlPut, ht1, ht2] at h4
    · obtain ⟨_, w, h3, rfl⟩ := (xl_put env cf o.kind t f hnp x (fun y e => hn ⟨y, e⟩) (fun d e => hd ⟨d, e⟩) (fun w => w = .none)).mp
        ⟨.none, h1, rfl⟩
      cases x with
      | none => exact hv.1 rfl
      | str s =>
        have hs : s ≠ "" := fun e => hv.2.1 (by rw [e])
        have := xlRead_text h2
        cases hk : o.kind <;> rw [hk] at this <;> simp [xlFill] at this
        exact hs this
      | num y => exact hn ⟨y, rfl⟩
      | dt d => exact hd ⟨d, rfl⟩
      | bool b => simp only [xlPut] at h3; split at h3 <;> cases h3
      | nan => simp only [xlPut] at h3; split at h3 <;> cases h3
      | other i => cases h3

/-- **C48.**  As `xl_round_trip`, for all the cells that an Excel file can carry. -/
theorem xl_round_trip_keeps (env : XlEnv) (hT : XlTextOK env) (laws : CaseLaws env.case) (hs : SimpleCase env.case) (cf : IOConf)
    (hq : ∀ q, cf.flag = .num q → 0 < q)
    (dv : Defaults) (policy : DupPolicy) (o : XlOpts) (ho : o.headers = true) (allowOverwrite caseSpace : Bool)
    (schema : List (String × TabClass)) (hoff : ∀ tc ∈ schema, o.offset tc.1 = 0)
    (hg : goodTableNames env.case (schema.map (fun tc => tc.1.toList)) = true)
    (hlow : (schema.map (fun tc => (env.case.lower tc.1.toList).take longestSheet)).Nodup)
    (hrt : ∀ tc ∈ schema, CaseRoundTrip env.case tc.1.toList)
    (hok : ∀ tc ∈ schema, okSheetName o.kind (xlSheetName env.case schema caseSpace tc.1) = true)
    (hf : ∀ tc ∈ schema, tc.2.fields ≠ [] ∧ ((tc.2.fields.map String.toList).map env.case.lower).Nodup ∧
      ∀ f ∈ tc.2.fields, HeaderText env o.kind f)
    (dat : PyDict String TabVal) (hk : PyDict.keys dat = schema.map Prod.fst)
    (hw : ∀ tc ∈ schema, ∀ tab, PyDict.get? dat tc.1 = some tab → WellShaped tc.2 tab)
    (hc : ∀ tc ∈ schema, ∀ tab, PyDict.get? dat tc.1 = some tab → ¬ IsParams cf.params tc.1 → ∀ f x,
      HasCell tc.2 tab f x → XlKeeps env cf dv o tc.1 f x)
    (hlast : ∀ tc ∈ schema, ∀ tab, PyDict.get? dat tc.1 = some tab → ¬ IsParams cf.params tc.1 → ∀ r,
      (tabRows tab).getLast? = some r → ∃ x ∈ r, Visible cf x)
    (hp : ∀ tab, PyDict.get? dat "parameters" = some tab → cf.params ≠ [] →
      ParamEntries (XlParam env cf.params o.kind) tab)
    (hty : cf.params ≠ [] → ∀ f, typeOf cf.types "parameters" f = none ∧ dv "parameters" f ≠ some .none)
    (existing : Option Book) (hover : allowOverwrite = true ∨ existing = none) :
    ∃ book, xlWrite env cf o.kind allowOverwrite caseSpace schema dat existing = some book ∧
      ∀ book', List.Perm book' book → xlCreate env cf dv policy o schema book' = some dat :=
  xl_trip_cells env hT laws hs cf dv policy o ho allowOverwrite caseSpace schema hoff hg hlow hrt hok hf dat hk hw
    (fun tc htc tab hget hnp f x hx => xl_cell_visible hT cf dv o tc.1 f x hnp
      ((xl_cell_iff hT cf hq dv o tc.1 f x hnp).mpr (hc tc htc tab hget hnp f x hx))) hlast hp hty existing hover

/-- The hypotheses can be met, and the equivalence separates the two formats: NaN comes back from `.xls` files, Booleans from `.xlsx`
files, text that looks like a formula from `.xls` files. -/
theorem xl_formats (prune : Bool) (dv : Defaults) (b : Bool) :
    (XlCell demoXl plainIO dv (demoOpts .xls prune 0) "t" "f" .nan .nan ∧
      ¬ XlCell demoXl plainIO dv (demoOpts .xlsx prune 0) "t" "f" .nan .nan) ∧
    (¬ XlCell demoXl plainIO dv (demoOpts .xls prune 0) "t" "f" (.bool b) (.bool b) ∧
      XlCell demoXl plainIO dv (demoOpts .xlsx prune 0) "t" "f" (.bool b) (.bool b)) ∧
    (XlCell demoXl plainIO dv (demoOpts .xls prune 0) "t" "f" (.str "=1") (.str "=1") ∧
      ¬ XlCell demoXl plainIO dv (demoOpts .xlsx prune 0) "t" "f" (.str "=1") (.str "=1")) := by
  have hnp : ¬ IsParams plainIO.params "t" := fun h => h.1 rfl
  have hq : ∀ q, plainIO.flag = .num q → 0 < q := fun q h => by cases h
  have hd : ∀ x, ¬ ReadAsDate demoXl.text plainIO "t" "f" x := by
    rintro x ⟨⟨td, h, _⟩, _⟩; cases h
  have hn : ∀ x, ¬ ReadAsNumber demoXl.text plainIO "t" "f" x := by
    rintro x ⟨h, _⟩; cases h
  have hnd : ∀ k, NoDates plainIO (demoOpts k prune 0) "t" "f" := by
    intro k _ td h; cases h
  simp only [xl_cell_iff demoXl_ok plainIO hq dv _ "t" "f" _ hnp]
  refine ⟨⟨⟨⟨fun _ => ⟨hd _, hn _⟩, trivial⟩, rfl, hnd _⟩, fun h => by cases h.2.1⟩,
    ⟨fun h => (by cases h.2), ⟨⟨fun _ => ⟨hd _, hn _⟩, trivial⟩, rfl⟩⟩,
    ⟨⟨⟨fun _ => ⟨hd _, hn _⟩, trivial⟩, fun _ _ => (by decide +kernel), .inl ⟨by decide, fun h => by cases h⟩⟩, ?_⟩⟩
  rintro ⟨_, _, h | h⟩
  · exact absurd (h.2 rfl) (by decide +kernel)
  · exact absurd h.1 (by decide)

end Ticdat

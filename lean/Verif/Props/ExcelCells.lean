import Verif.Props.ExcelTable
import Verif.Spec.ExcelIO
/-!
# C48: cells in Excel files, and the round trip
-/
namespace Ticdat
open Spec
set_option linter.unusedSimpArgs false

theorem clamp_fin (q : Rat) (x : XNum) : ∃ r, clamp q x = .fin r := by
  unfold clamp
  cases x with
  | pinf => simp [XNum.lt]; split <;> exact ⟨_, rfl⟩
  | ninf => simp [XNum.lt]
  | fin y =>
    simp only
    split <;> split <;> exact ⟨_, rfl⟩

theorem nullCond_iff (cf : IOConf) (dv : Defaults) (t f : String) :
    (((typeOf cf.types t f).map (·.nullable)).getD (decide (dv t f = some .none)) = true) ↔ CsvNullField cf dv t f := by
  unfold CsvNullField
  cases typeOf cf.types t f <;> simp

/-- Cells that are read by types and flags alone. -/
theorem xlReadCell_plain (env : XlEnv) (cf : IOConf) (dv : Defaults) (o : XlOpts) (t f : String) (x : Cell)
    (he : x ≠ .str "")
    (hinf : o.treatInf = true → cf.flag = .na → ¬ IsParams cf.params t → ∀ s, x = .str s →
      env.case.lower s.toList ≠ "inf".toList ∧ env.case.lower s.toList ≠ "-inf".toList)
    (hd : x.numericish = true → NoDates cf o t f) :
    xlReadCell env cf dv o t f x = readCell env.text cf t f x := by
  have hd' : x.numericish = true → (((typeOf cf.types t f).map (·.datetime)).getD false && decide (o.kind = .xls)) = false := by
    intro hx
    by_cases hk : o.kind = .xls
    · cases htd : typeOf cf.types t f with
      | none => simp
      | some td => simp [hd hx hk td htd]
    · simp [hk]
  have hi : (if xlTreatInf cf o t = true then xlInfText env.case x else none) = none := by
    split
    · rename_i h1
      unfold xlTreatInf at h1
      simp only [Bool.and_eq_true, decide_eq_true_eq, Bool.not_eq_true', decide_eq_false_iff_not] at h1
      unfold xlInfText
      cases x with
      | str s =>
        have := hinf h1.1.1 h1.1.2 (fun hp => h1.2 ⟨hp.2, hp.1⟩) s rfl
        simp only [if_neg this.1, if_neg this.2]
      | _ => rfl
    · rfl
  unfold xlReadCell
  simp only [at_eq_typeOf]
  rw [if_neg (fun h => he h.1), hi]
  simp only
  rw [if_neg he, Option.bind_some]
  have hx : xlDate env (((typeOf cf.types t f).map (·.datetime)).getD false && decide (o.kind = .xls)) x = x := by
    cases x with
    | num q => rw [hd' rfl]; rfl
    | nan => rw [hd' rfl]; rfl
    | _ => rfl
  rw [hx]
  rfl

theorem xlReadCell_null (env : XlEnv) (cf : IOConf) (dv : Defaults) (o : XlOpts) (t f : String)
    (h : CsvNullField cf dv t f) : xlReadCell env cf dv o t f (.str "") = some .none := by
  unfold xlReadCell
  simp only [at_eq_typeOf]
  have := (nullCond_iff cf dv t f).mpr h
  simp [this]

theorem xlReadCell_empty (env : XlEnv) (cf : IOConf) (dv : Defaults) (o : XlOpts) (t f : String)
    (h : ¬ CsvNullField cf dv t f) (y : Cell) (hy : readCell env.text cf t f .none = some y) :
    xlReadCell env cf dv o t f (.str "") = if y.numericish then some y else readCell env.text cf t f (.str "") := by
  have hi : (if xlTreatInf cf o t = true then xlInfText env.case (.str "") else none) = none := by
    split
    · have : env.case.lower "".toList = [] := rfl
      simp only [xlInfText, this]
      rw [if_neg (by decide), if_neg (by decide)]
    · rfl
  have hn : (((typeOf cf.types t f).map (·.nullable)).getD (decide (dv t f = some .none))) = false := by
    rw [Bool.eq_false_iff]
    exact fun hh => h ((nullCond_iff cf dv t f).mp hh)
  unfold xlReadCell
  simp only [at_eq_typeOf, hi, hn]
  simp only [Bool.false_eq_true, and_false, if_false, if_true, hy, Option.bind_some]
  rfl

theorem xlReadCell_inf (env : XlEnv) (cf : IOConf) (dv : Defaults) (o : XlOpts) (t f : String) (s : String) (y : XNum)
    (h : xlTreatInf cf o t = true) (hs : s ≠ "") (hy : xlInfText env.case (.str s) = some y) :
    xlReadCell env cf dv o t f (.str s) = some (.num y) := by
  unfold xlReadCell
  simp only [h, if_true, hy]
  simp [hs]

theorem xlClean_xlsx (env : XlEnv) (cf : IOConf) (t f : String) (x : Cell) :
    xlClean env cf .xlsx t f x = (writeCell env.text cf t f x).map (xlsxShow env) := by
  unfold xlClean
  simp only
  split
  · rfl
  · rename_i h
    have hf : cf.flag = .na := Classical.byContradiction (fun hc => h (.inl hc))
    have hp : ¬ (t = "parameters" ∧ cf.params ≠ []) := fun hc => h (.inr hc)
    unfold writeCell
    rw [if_neg hp, hf]

theorem xlClean_xls (env : XlEnv) (cf : IOConf) (t f : String) (x : Cell) :
    xlClean env cf .xls t f x = jsonWriteCell env.text cf t f x := by
  cases x <;> rfl

/-- Datetimes are written as they are by cells that survive. -/
theorem writeCell_dt {env : TextEnv} {cf : IOConf} {t f : String} (hnp : ¬ IsParams cf.params t) (d : Nat)
    (hj : JsonSafe env cf t f (.dt d)) : writeCell env cf t f (.dt d) = some (.dt d) := by
  have hwr : ∃ v, writeCell env cf t f (.dt d) = some v := by
    unfold writeCell
    split
    · exact ⟨_, rfl⟩
    · cases hf : cf.flag with
      | na => exact ⟨_, rfl⟩
      | num q => exact ⟨_, rfl⟩
      | none =>
        obtain ⟨_, hj⟩ := hj
        split at hj
        · rw [hf] at hj; cases hj.2
        · have hfs := hj.2
          unfold FlagSafe at hfs
          rw [hf] at hfs
          have hamb := hfs.1
          rw [← infBias_none_iff hf] at hamb
          cases hb : infBias env cf t f with
          | none => exact absurd hb hamb
          | some b => exact ⟨_, rfl⟩
  obtain ⟨v, hv⟩ := hwr
  rcases writeCell_cases hnp _ _ hv with h | ⟨_, _, _, h⟩ | ⟨_, _, h, _⟩
  · rw [hv, h]
  · cases h
  · cases h

/-- An infinity that a valid field stands for is written as `None` under the flag `None`. -/
theorem inf_written_none {env : TextEnv} {cf : IOConf} {t f : String} (hnp : ¬ IsParams cf.params t)
    (hf : cf.flag = .none) (pos : Bool) (hamb : ¬ NoneFlagAmbiguous env cf t f)
    (td : TypeDict) (htd : typeOf cf.types t f = some td) (hnn : ¬ Valid env.parses td .none)
    (hv : Valid env.parses td (.num (infOf pos))) : writeCell env cf t f (.num (infOf pos)) = some .none := by
  unfold writeCell
  rw [if_neg (fun hh => hnp ⟨hh.2, hh.1⟩), hf]
  have hb : infBias env cf t f = some (some pos) := by
    have hnum : td.numberAllowed = true := by
      rcases hv with ⟨h, _⟩ | ⟨_, h, h2⟩ | ⟨_, x, _, h, _⟩ | ⟨_, s, h, _⟩
      · rcases h with h | h <;> cases h
      · rcases h2 with ⟨d, h2⟩ | h2
        · cases h2
        · simp [TextEnv.parses, dateAdjust] at h2
      · exact h
      · cases h
    have hamb' : ¬ (Valid env.parses td (.num .pinf) ∧ Valid env.parses td (.num .ninf)) := fun hh =>
      hamb ⟨td, htd, hnum, hnn, hh.1, hh.2⟩
    unfold infBias
    simp only [hf, ne_eq, not_true_eq_false, if_false, at_eq_typeOf, htd, hnum, Bool.true_and]
    rw [← valid_data_iff] at hnn hv
    rw [← valid_data_iff, ← valid_data_iff] at hamb'
    cases pos with
    | true =>
      have hv : td.validData env.parses (.num .pinf) = true := hv
      have hn : td.validData env.parses (.num .ninf) = false := by
        cases h : td.validData env.parses (.num .ninf)
        · rfl
        · exact absurd ⟨hv, h⟩ hamb'
      simp [hnn, hv, hn]
    | false =>
      have hv : td.validData env.parses (.num .ninf) = true := hv
      have hn : td.validData env.parses (.num .pinf) = false := by
        cases h : td.validData env.parses (.num .pinf)
        · rfl
        · exact absurd ⟨h, hv⟩ hamb'
      simp [hnn, hv, hn]
  rw [hb]
  simp

/-- **C48, cells.**  Moreover a visible cell is stored. -/
theorem xl_cell_stored {env : XlEnv} (hT : XlTextOK env) (cf : IOConf) (dv : Defaults) (o : XlOpts) (t f : String) (x : Cell)
    (hnp : ¬ IsParams cf.params t) (h : XlSafe env cf dv o t f x) :
    ∃ w, xlWriteCell env cf o.kind t f x = some w ∧ xlReadCell env cf dv o t f (xlFill o.kind w) = some x ∧
      (Visible cf x → w ≠ .none) := by
  obtain ⟨hj, h⟩ := h
  obtain ⟨w, h1, _, h3⟩ := json_cell_survives hT.dt cf t f x hnp hj
  have clean : ∀ v, (∀ d, x ≠ .dt d) → w = v → xlClean env cf o.kind t f x =
      some (match o.kind with | .xls => v | .xlsx => xlsxShow env v) := by
    rintro v hdt rfl
    cases hk : o.kind with
    | xls => rw [xlClean_xls, h1]
    | xlsx =>
      rw [xlClean_xlsx]
      have : writeCell env.text cf t f x = jsonWriteCell env.text cf t f x := by
        cases x with
        | dt d => exact absurd rfl (hdt d)
        | _ => rfl
      rw [this, h1]
      rfl
  have same : ∀ (_ : ∀ y, x ≠ .num y) (_ : ∀ d, x ≠ .dt d), w = x := by
    intro hn hd
    have h1' : writeCell env.text cf t f x = some w := by
      cases x with
      | dt d => exact absurd rfl (hd d)
      | _ => exact h1
    rcases writeCell_cases hnp _ _ h1' with h | ⟨_, z, _, h⟩ | ⟨_, pos, h, _⟩
    · exact h
    · exact absurd h (hn z)
    · exact absurd h (hn _)
  unfold xlWriteCell
  cases x with
  | other n => exact absurd h id
  | bool b =>
    have h : o.kind = .xlsx := h
    have hw := same (by simp) (by simp)
    rw [clean _ (by simp) hw, h]
    refine ⟨.bool b, by simp [xlsxShow, xlPut], ?_, by simp⟩
    subst hw
    rw [xlReadCell_plain] <;> simp [xlFill, h3, Cell.numericish]
  | nan =>
    have h : o.kind = .xls ∧ NoDates cf o t f := h
    have hw := same (by simp) (by simp)
    rw [clean _ (by simp) hw, h.1]
    refine ⟨.nan, by simp [xlPut], ?_, by simp⟩
    subst hw
    rw [xlReadCell_plain]
    · simp [xlFill, h3]
    · simp [xlFill]
    · simp [xlFill]
    · intro _; exact h.2
  | none =>
    have hw := same (by simp) (by simp)
    rw [clean _ (by simp) hw]
    refine ⟨.none, by cases o.kind <;> simp [xlsxShow, xlPut], ?_, fun hv => absurd rfl hv.1⟩
    subst hw
    cases hk : o.kind with
    | xls => exact xlReadCell_null env cf dv o t f (h hk)
    | xlsx => rw [xlReadCell_plain] <;> simp [xlFill, h3, Cell.numericish]
  | str s =>
    have hw := same (by simp) (by simp)
    rw [clean _ (by simp) hw]
    subst hw
    obtain ⟨hinf, hs⟩ := h
    rcases hs with ⟨hs1, hs2⟩ | ⟨rfl, hk, hs2, hs3⟩
    · refine ⟨.str s, ?_, ?_, by simp⟩
      · cases hk : o.kind with
        | xls => simp [xlPut, hs1]
        | xlsx => simp [xlsxShow, xlPut, hs1, hs2 hk]
      · rw [xlReadCell_plain]
        · exact h3
        · simp [xlFill, hs1]
        · intro a b _ s' e
          cases e
          exact hinf a b
        · simp [xlFill, Cell.numericish]
    · refine ⟨.none, by simp [hk, xlPut], ?_, fun hv => absurd rfl hv.2.1⟩
      rw [hk]
      show xlReadCell env cf dv o t f (.str "") = _
      rw [xlReadCell_empty env cf dv o t f hs2 .none (readCell_none_plain env.text cf t f (.inr hs3))]
      simp [Cell.numericish, h3]
  | dt d =>
    have hw : w = .str (env.text.text (.dt d)) := (Option.some.inj h1).symm
    obtain ⟨ht1, ht2, ht3, ht4⟩ := hT.dtText d
    have hcl : xlClean env cf o.kind t f (.dt d) = some (.str (env.text.text (.dt d))) := by
      cases hk : o.kind with
      | xls => rfl
      | xlsx => rw [xlClean_xlsx, writeCell_dt hnp d hj]; rfl
    rw [hcl]
    refine ⟨.str (env.text.text (.dt d)), ?_, ?_, by simp⟩
    · cases o.kind <;> simp [xlPut, ht1, ht2]
    · rw [xlReadCell_plain]
      · simp only [xlFill]; rw [← hw]; exact h3
      · simp [xlFill, ht1]
      · intro _ _ _ s' e
        cases e
        exact ⟨ht3, ht4⟩
      · simp [xlFill, Cell.numericish]
  | num y =>
    obtain ⟨hnd, hinf⟩ := h
    have h1' : writeCell env.text cf t f (.num y) = some w := h1
    have hplain : ∀ z, xlReadCell env cf dv o t f (.num z) = readCell env.text cf t f (.num z) := by
      intro z
      rw [xlReadCell_plain]
      · simp
      · simp
      · intro _; exact hnd
    -- finite cells
    have hfin : ∀ q, w = .num (.fin q) → ∃ w, (xlClean env cf o.kind t f (.num y)).bind (xlPut env o.kind) = some w ∧
        xlReadCell env cf dv o t f (xlFill o.kind w) = some (.num y) ∧ (Visible cf (.num y) → w ≠ .none) := by
      intro q hw
      rw [clean _ (by simp) hw]
      refine ⟨.num (.fin q), by cases o.kind <;> simp [xlsxShow, xlPut], ?_, by simp⟩
      simp only [xlFill]
      rw [hplain, ← hw, h3]
    -- cells written as `None`
    have hnone : w = .none → ∃ w, (xlClean env cf o.kind t f (.num y)).bind (xlPut env o.kind) = some w ∧
        xlReadCell env cf dv o t f (xlFill o.kind w) = some (.num y) ∧ (Visible cf (.num y) → w ≠ .none) := by
      intro hw
      rw [clean _ (by simp) hw]
      have hcase := writeCell_cases hnp _ _ h1'
      rcases hcase with h | ⟨_, _, h, _⟩ | ⟨_, pos, hx, hf, hb⟩
      · rw [hw] at h; cases h
      · rw [hw] at h; cases h
      · refine ⟨.none, by cases o.kind <;> simp [xlsxShow, xlPut], ?_, ?_⟩
        · rw [hw] at h3
          cases hk : o.kind with
          | xlsx =>
            rw [xlReadCell_plain]
            · exact h3
            · simp [xlFill]
            · simp [xlFill]
            · simp [xlFill, Cell.numericish]
          | xls =>
            show xlReadCell env cf dv o t f (.str "") = _
            rw [xlReadCell_empty env cf dv o t f ?_ _ h3]
            · simp [Cell.numericish]
            · obtain ⟨td, htd, hnn, _⟩ := infBias_some hb
              unfold CsvNullField
              rw [htd]
              intro hnull
              exact hnn (.inl ⟨.inl rfl, hnull⟩)
        · intro hv
          have := hv.2.2 hf
          cases pos
          · exact absurd hx this.2
          · exact absurd hx this.1
    -- infinite cells
    have hinfc : ∀ pos, y = infOf pos → w = .num y → ∃ w, (xlClean env cf o.kind t f (.num y)).bind (xlPut env o.kind) = some w ∧
        xlReadCell env cf dv o t f (xlFill o.kind w) = some (.num y) ∧ (Visible cf (.num y) → w ≠ .none) := by
      intro pos hy hw
      rw [clean _ (by simp) hw]
      cases hk : o.kind with
      | xls =>
        refine ⟨.num y, by cases y <;> simp [xlPut], ?_, by simp⟩
        simp only [xlFill]
        rw [hplain, ← hw, h3, hw]
      | xlsx =>
        have hy' : y = .pinf ∨ y = .ninf := by cases pos <;> simp [hy, infOf]
        have hc := hinf hy' hk
        cases hf : cf.flag with
        | num q =>
          rw [writeCell, if_neg (fun hh => hnp ⟨hh.2, hh.1⟩), hf] at h1'
          obtain ⟨r, hr⟩ := clamp_fin q y
          simp only [hr, Option.some.injEq] at h1'
          rw [← h1'] at hw
          cases hw
          cases pos <;> cases hy
        | none =>
          rw [hf] at hc
          obtain ⟨td, htd, hnn⟩ := hc
          obtain ⟨_, hj⟩ := hj
          split at hj
          · rw [hf] at hj; cases hj.2
          · have hfs := hj.2
            unfold FlagSafe at hfs
            rw [hf] at hfs
            have := inf_written_none (t := t) (f := f) hnp hf pos hfs.1 td htd hnn (hy ▸ hfs.2 td htd)
            rw [hy] at h1'
            rw [this, hw] at h1'
            cases h1'
        | na =>
          rw [hf] at hc
          have hc : o.treatInf = true := hc
          have hti : xlTreatInf cf o t = true := by
            unfold xlTreatInf
            simp only [hc, hf, decide_true, Bool.and_true, Bool.true_and, Bool.not_eq_true', decide_eq_false_iff_not]
            exact fun hh => hnp ⟨hh.2, hh.1⟩
          rcases hy' with rfl | rfl
          · refine ⟨.str "inf", by simp [xlsxShow, xlPut, hT.pinf, hT.infText.1], ?_, by simp⟩
            exact xlReadCell_inf env cf dv o t f "inf" .pinf hti (by decide) (by
              unfold xlInfText
              simp only [hT.infLower.1, if_true])
          · refine ⟨.str "-inf", by simp [xlsxShow, xlPut, hT.ninf, hT.infText.2], ?_, by simp⟩
            refine xlReadCell_inf env cf dv o t f "-inf" .ninf hti (by decide) ?_
            unfold xlInfText
            simp only [hT.infLower.2]
            rw [if_neg (by decide)]
            simp
    have hcase := writeCell_cases hnp _ _ h1'
    rcases hcase with hw | ⟨z, z', hw, hz⟩ | ⟨hw, _⟩
    · cases y with
      | fin q => exact hfin q hw
      | pinf => exact hinfc true rfl hw
      | ninf => exact hinfc false rfl hw
    · cases z with
      | fin q => exact hfin q hw
      | _ =>
        have hy : w = .num y := by
          unfold writeCell at h1'
          rw [if_neg (fun hh => hnp ⟨hh.2, hh.1⟩)] at h1'
          cases hf : cf.flag with
          | na => rw [hf] at h1'; simpa using h1'.symm
          | num q =>
            rw [hf] at h1'
            obtain ⟨r, hr⟩ := clamp_fin q y
            simp only [hr, Option.some.injEq] at h1'
            rw [← h1'] at hw
            cases hw
          | none =>
            rw [hf] at h1'
            cases hb : infBias env.text cf t f with
            | none => rw [hb] at h1'; simp at h1'
            | some b =>
              rw [hb] at h1'
              cases b with
              | none => simpa using h1'.symm
              | some pos =>
                simp only [Option.map_some, Option.some.injEq] at h1'
                split at h1'
                · rw [← h1'] at hw; cases hw
                · exact h1'.symm
        rw [hy] at hw
        have hyz := Cell.num.inj hw
        first
          | exact hinfc true hyz hy
          | exact hinfc false hyz hy
    · exact hnone hw

end Ticdat

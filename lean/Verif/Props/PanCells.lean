import Verif.Props.PanIO
import Verif.Spec.PanRead
/-!
# PanDat adjustments, cell by cell

The adjustments of a column treat each cell by itself.
-/
set_option linter.unusedSectionVars false
set_option linter.unusedSimpArgs false
namespace Ticdat
open Spec

theorem isNull_iff (x : Cell) : x.isNull = true ↔ Null x := by
  cases x <;> simp [Cell.isNull, Null]

/-- `float` of a text or a Boolean in a field that is both text and number. -/
def panMulti (env : TextEnv) (cf : IOConf) (t f : String) (x : Cell) : Cell :=
  if ((cf.types.at t f).map (fun td => !td.datetime && td.strings.truthy && td.numberAllowed)).getD false && cf.automunge then
    (toFloat env x).getD x else x

/-- A datetime in a field of datetimes. -/
def panDate (env : TextEnv) (cf : IOConf) (t f : String) (x : Cell) : Cell :=
  if ((cf.types.at t f).map (·.datetime)).getD false then
    match dateAdjust env x with
    | some d => .dt d
    | none => x
  else x

/-- Infinity for null. -/
def panNullInf (b : Option Bool) (x : Cell) : Cell :=
  match b with
  | some pos => if x.isNull then .num (infOf pos) else x
  | none => x

/-- Infinities by a numeric flag. -/
def panFlagInf (cf : IOConf) (x : Cell) : Cell :=
  match cf.flag with
  | .num q => infCellAdj q x
  | _ => x

def panReadCell (env : TextEnv) (cf : IOConf) (t f : String) (b : Option Bool) (x : Cell) : Cell :=
  panDate env cf t f (panNullInf b (panMulti env cf t f (panFlagInf cf x)))

def panWriteCell (cf : IOConf) (b : Option Bool) (x : Cell) : Cell :=
  match cf.flag with
  | .na => x
  | .num q => match x with
    | .num y => .num (clamp q y)
    | x => x
  | .none => match b with
    | some pos => if x = .num (infOf pos) then .none else x
    | none => x

theorem panReadCol_cells (env : TextEnv) (lower : String → String) (cf : IOConf) (t f : String) (col : List Cell) :
    panReadCol env lower cf false t f col = (infBias env cf t f).map (fun b => col.map (panReadCell env cf t f b)) := by
  have e : ∀ b, panReadCell env cf t f b = panDate env cf t f ∘ panNullInf b ∘ panMulti env cf t f ∘ panFlagInf cf :=
    fun b => rfl
  simp only [e]
  unfold panReadCol panDate panMulti
  cases hm : (((cf.types.at t f).map (fun td => !td.datetime && td.strings.truthy && td.numberAllowed)).getD false &&
    cf.automunge) <;> cases hd : ((cf.types.at t f).map (fun td => td.datetime)).getD false <;>
  cases hf : cf.flag with
  | num q =>
    have hb : infBias env cf t f = some none := by simp [infBias, hf]
    have e1 : panFlagInf cf = infCellAdj q := by funext x; simp [panFlagInf, hf]
    rw [hb, e1]
    simp only [hm, hd, panRead_infStep, Bool.false_and, Bool.false_eq_true, if_false, if_true, Option.map_some,
        Option.bind_eq_bind, Option.bind_some, List.map_map, Option.some.injEq]
    rfl
  | na =>
    have hb : infBias env cf t f = some none := by simp [infBias, hf]
    have e1 : panFlagInf cf = id := by funext x; simp [panFlagInf, hf]
    rw [hb, e1]
    simp only [hm, hd, Bool.false_and, Bool.false_eq_true, if_false, if_true, Option.map_some,
        Option.bind_eq_bind, Option.bind_some, List.map_map, Option.some.injEq]
    first | rfl | exact (List.map_id' col).symm
  | none =>
    have e1 : panFlagInf cf = id := by funext x; simp [panFlagInf, hf]
    rw [e1]
    cases infBias env cf t f with
    | none => rfl
    | some b =>
      cases b <;>
        simp only [hm, hd, Bool.false_and, Bool.false_eq_true, if_false, if_true, Option.map_some,
          Option.bind_eq_bind, Option.bind_some, List.map_map, Option.some.injEq] <;>
        first | rfl | exact (List.map_id' col).symm

/-- "none" in a field of nullable text, when reading json. -/
def panJsonNone (lower : String → String) (cf : IOConf) (json : Bool) (t f : String) (x : Cell) : Cell :=
  if json && ((cf.types.at t f).map (fun td => !td.datetime && !td.numberAllowed && td.strings.truthy && td.nullable)).getD false then
    match x with
    | .str s => if lower s = "none" then .none else x
    | x => x
  else x

theorem panReadCol_any (env : TextEnv) (lower : String → String) (cf : IOConf) (json : Bool) (t f : String) (col : List Cell) :
    panReadCol env lower cf json t f col =
      (infBias env cf t f).map (fun b => col.map (fun x => panJsonNone lower cf json t f (panReadCell env cf t f b x))) := by
  have h : panReadCol env lower cf json t f col =
      (panReadCol env lower cf false t f col).map (List.map (panJsonNone lower cf json t f)) := by
    have e : panJsonNone lower cf json t f = fun x => if json && ((cf.types.at t f).map (fun td =>
        !td.datetime && !td.numberAllowed && td.strings.truthy && td.nullable)).getD false then
      (match x with
        | .str s => if lower s = "none" then .none else x
        | x => x) else x := rfl
    rw [e]
    unfold panReadCol
    cases hj : (json && ((cf.types.at t f).map (fun td => !td.datetime && !td.numberAllowed && td.strings.truthy && td.nullable)).getD false) with
    | false =>
      have hid : (List.map (fun x : Cell => x)) = id := by funext l; simp
      simp only [hj, Bool.false_and, Bool.false_eq_true, if_false, hid, Option.map_id, id_eq]
    | true =>
      simp only [hj, Bool.false_and, Bool.false_eq_true, if_false, if_true, Option.bind_eq_bind]
      split <;> simp only [Option.map_bind, Option.bind_some, Option.map_some] <;> rfl
  rw [h, panReadCol_cells, Option.map_map]
  congr 1
  funext b
  simp [Function.comp_def]

theorem panWriteCol_cells (env : TextEnv) (cf : IOConf) (hq : ∀ q, cf.flag = .num q → 0 < q) (t f : String) (col : List Cell) :
    panWriteCol env cf t f col = (infBias env cf t f).map (fun b => col.map (panWriteCell cf b)) := by
  cases hf : cf.flag with
  | num q =>
    have hb : infBias env cf t f = some none := by simp [infBias, hf]
    rw [panWriteCol_num hf (hq q hf), hb, Option.map_some]
    congr 1
    apply List.map_congr_left
    intro x _
    simp only [panWriteCell, hf]
    cases x <;> rfl
  | na =>
    have hb : infBias env cf t f = some none := by simp [infBias, hf]
    have e : panWriteCell cf none = id := by funext x; simp [panWriteCell, hf]
    simp [panWriteCol, hf, hb, e]
  | none =>
    simp only [panWriteCol, hf]
    cases hb : infBias env cf t f with
    | none => rfl
    | some b =>
      simp only [Option.map_some, Option.some.injEq]
      cases b with
      | none =>
        have e : panWriteCell cf none = id := by funext x; simp [panWriteCell, hf]
        simp [e]
      | some pos =>
        have e : panWriteCell cf (some pos) = fun x => if x = .num (infOf pos) then .none else x := by
          funext x; simp [panWriteCell, hf]
        simp only [e]
        split
        · rfl
        · rename_i h
          symm
          apply map_eq_self
          intro x hxm
          split
          · rename_i e
            exact absurd (List.any_eq_true.2 ⟨x, hxm, by simp [e]⟩) h
          · rfl

/-- What surviving means for one cell. -/
structure CellSurvives (env : TextEnv) (cf : IOConf) (t f : String) (x : Cell) : Prop where
  asIs : PanAsIs env cf t f x
  valid : cf.flag = .none → ValidAt env cf t f x
  num : ∀ q, cf.flag = .num q → 0 < q ∧ ∀ a : Rat, x = .num (.fin a) → -q < a ∧ a < q

theorem panMulti_self {env : TextEnv} {cf : IOConf} {t f : String} {x : Cell} (h : PanAsIs env cf t f x) :
    panMulti env cf t f x = x := by
  unfold panMulti
  split
  · rename_i hm
    rw [at_eq_typeOf, Bool.and_eq_true] at hm
    cases htd : typeOf cf.types t f with
    | none => rw [htd] at hm; simp at hm
    | some td =>
      rw [htd] at hm
      simp only [Option.map_some, Option.getD_some, Bool.and_eq_true, Bool.not_eq_true'] at hm
      obtain ⟨h1, h2⟩ := (h td htd).2 hm.1.1.1 hm.2 hm.1.2 (by
        intro e
        have := hm.1.1.2
        rw [e] at this
        simp [Strings.truthy] at this)
      cases x with
      | bool b => exact absurd rfl (h1 b)
      | str s => simp [toFloat, h2 s rfl]
      | _ => rfl
  · rfl

theorem panMulti_null {env : TextEnv} {cf : IOConf} {t f : String} {x : Cell} (h : Null x) : panMulti env cf t f x = x := by
  unfold panMulti
  split
  · rcases h with rfl | rfl <;> rfl
  · rfl

theorem panMulti_num {env : TextEnv} {cf : IOConf} {t f : String} (x : XNum) : panMulti env cf t f (.num x) = .num x := by
  unfold panMulti
  split <;> rfl

theorem panDate_num {env : TextEnv} {cf : IOConf} {t f : String} (x : XNum) : panDate env cf t f (.num x) = .num x := by
  unfold panDate
  split <;> rfl

theorem panDate_self {env : TextEnv} {cf : IOConf} {t f : String} {x : Cell} (h : PanAsIs env cf t f x) (y : Cell)
    (hy : SameOrNull x y) : SameOrNull x (panDate env cf t f y) ∧ (y = x → panDate env cf t f y = x) := by
  unfold panDate
  split
  · rename_i hm
    rw [at_eq_typeOf] at hm
    cases htd : typeOf cf.types t f with
    | none => rw [htd] at hm; simp at hm
    | some td =>
      rw [htd] at hm
      rcases (h td htd).1 (by simpa using hm) with ⟨d, rfl⟩ | ⟨hn, hd⟩
      · rcases hy with rfl | ⟨h, _⟩
        · exact ⟨.inl rfl, fun _ => rfl⟩
        · rcases h with h | h <;> cases h
      · have hyn : Null y := by rcases hy with rfl | ⟨_, h⟩; exact hn; exact h
        have : dateAdjust env y = none := by
          rcases hyn with rfl | rfl
          · exact hd
          · rfl
        rw [this]
        exact ⟨hy, fun e => e⟩
  · exact ⟨hy, fun e => e⟩

theorem clamp_read_self {q : Rat} (hq : 0 < q) (x : XNum) (h : ∀ a, x = .fin a → -q < a ∧ a < q) :
    infCellAdj q (.num (clamp q x)) = .num x := by
  have key : ∃ b, infCellAdj q (.num (clamp q x)) = .num b ∧ ReadBack q x b := by
    refine ⟨_, ?_, clamp_read q hq x _ rfl⟩
    simp only [infCellAdj]
    split
    · rfl
    · split <;> rfl
  obtain ⟨b, e, hrb⟩ := key
  rw [e]
  congr 1
  cases hrb with
  | big hx =>
    cases x with
    | pinf => rfl
    | ninf => rcases hx with hx | hx <;> cases hx
    | fin a =>
      have := h a rfl
      rcases hx with hx | hx
      · cases hx; exact absurd this.2 (by grind)
      · cases hx; exact absurd this.2 (by grind)
  | small hx =>
    cases x with
    | ninf => rfl
    | pinf => rcases hx with hx | hx <;> cases hx
    | fin a =>
      have := h a rfl
      rcases hx with hx | hx
      · cases hx; exact absurd this.1 (by grind)
      · cases hx; exact absurd this.1 (by grind)
  | between _ _ => rfl

theorem sameOrNull_not_null {x y : Cell} (h : SameOrNull x y) (hx : ¬ Null x) : y = x := by
  rcases h with h | ⟨h, _⟩
  · exact h.symm
  · exact absurd h hx

theorem flagInf_null {cf : IOConf} {y : Cell} (h : Null y) : panFlagInf cf y = y := by
  unfold panFlagInf
  split
  · rcases h with rfl | rfl <;> rfl
  · rfl

/-- A cell that survives is read back, also if what was written for it comes back as another null. -/
theorem cell_survives {env : TextEnv} {cf : IOConf} {t f : String} {b : Option Bool} (hb : infBias env cf t f = some b) {x : Cell}
    (h : CellSurvives env cf t f x) (y : Cell) (hy : SameOrNull (panWriteCell cf b x) y) :
    SameOrNull x (panReadCell env cf t f b y) ∧ (y = panWriteCell cf b x → panReadCell env cf t f b y = x) := by
  have hplain : ∀ z, SameOrNull x z → SameOrNull x (panDate env cf t f (panMulti env cf t f z)) ∧
      (z = x → panDate env cf t f (panMulti env cf t f z) = x) := by
    intro z hz
    rcases hz with rfl | ⟨h1, h2⟩
    · rw [panMulti_self h.asIs]
      exact panDate_self h.asIs _ (.inl rfl)
    · rw [panMulti_null h2]
      exact panDate_self h.asIs _ (.inr ⟨h1, h2⟩)
  unfold panReadCell
  cases hf : cf.flag with
  | na =>
    have hb' : infBias env cf t f = some none := by simp [infBias, hf]
    obtain rfl : b = none := by rw [hb'] at hb; exact (Option.some.inj hb).symm
    have e : panWriteCell cf none x = x := by simp [panWriteCell, hf]
    rw [e] at hy ⊢
    have e2 : panFlagInf cf y = y := by simp [panFlagInf, hf]
    rw [e2]
    exact hplain y hy
  | num q =>
    have hb' : infBias env cf t f = some none := by simp [infBias, hf]
    obtain rfl : b = none := by rw [hb'] at hb; exact (Option.some.inj hb).symm
    obtain ⟨hq, hx⟩ := h.num q hf
    simp only [panNullInf]
    cases x with
    | num a =>
      have e : panWriteCell cf none (.num a) = .num (clamp q a) := by simp [panWriteCell, hf]
      rw [e] at hy ⊢
      have hyx := sameOrNull_not_null hy (by rintro (h | h) <;> cases h)
      rw [hyx]
      have e2 : panFlagInf cf (.num (clamp q a)) = .num a := by
        simp only [panFlagInf, hf]
        exact clamp_read_self hq a (fun r e => hx r (by rw [e]))
      rw [e2, panMulti_num, panDate_num]
      exact ⟨.inl rfl, fun _ => rfl⟩
    | _ =>
      simp only [panWriteCell, hf] at hy ⊢
      have e2 : panFlagInf cf y = y := by
        rcases hy with rfl | ⟨_, h⟩
        · simp [panFlagInf, hf, infCellAdj]
        · exact flagInf_null h
      rw [e2]
      exact hplain y hy
  | none =>
    have e2 : panFlagInf cf y = y := by simp [panFlagInf, hf]
    rw [e2]
    cases b with
    | none =>
      have e : panWriteCell cf none x = x := by simp [panWriteCell, hf]
      rw [e] at hy ⊢
      exact hplain y hy
    | some pos =>
      obtain ⟨td, h1, h2, h3⟩ := infBias_some hb
      have e : panWriteCell cf (some pos) x = if x = .num (infOf pos) then .none else x := by simp [panWriteCell, hf]
      rw [e] at hy ⊢
      have hnull : ¬ Null x := by
        intro hn
        apply h2
        rcases h.valid hf td h1 with ⟨_, h⟩ | ⟨h, _⟩ | ⟨_, y, h, _⟩ | ⟨_, s, h, _⟩
        · exact Or.inl ⟨Or.inl rfl, h⟩
        · exact absurd hn h
        · subst h; rcases hn with h | h <;> cases h
        · subst h; rcases hn with h | h <;> cases h
      by_cases hi : x = .num (infOf pos)
      · rw [if_pos hi] at hy ⊢
        have hyn : Null y := by
          rcases hy with h | ⟨_, h⟩
          · exact .inl h.symm
          · exact h
        rw [panMulti_null hyn]
        have e3 : panNullInf (some pos) y = .num (infOf pos) := by simp only [panNullInf, if_pos ((isNull_iff y).2 hyn)]
        rw [e3, panDate_num, hi]
        exact ⟨.inl rfl, fun _ => rfl⟩
      · rw [if_neg hi] at hy ⊢
        have hyx := sameOrNull_not_null hy hnull
        subst hyx
        rw [panMulti_self h.asIs]
        have : y.isNull = false := by
          cases hh : y.isNull with
          | false => rfl
          | true => exact absurd ((isNull_iff y).1 hh) hnull
        have e3 : panNullInf (some pos) y = y := by simp only [panNullInf, this, Bool.false_eq_true, if_false]
        rw [e3]
        exact panDate_self h.asIs _ (.inl rfl)

theorem survives_cells {env : TextEnv} {cf : IOConf} {t f : String} {col : List Cell} (h : Survives env cf t f col) :
    (∀ q, cf.flag = .num q → 0 < q) ∧ (∃ b, infBias env cf t f = some b) ∧ ∀ x ∈ col, CellSurvives env cf t f x := by
  obtain ⟨h1, h2, h3⟩ := h
  refine ⟨fun q hq => (h3 q hq).1, ?_, fun x hx => ⟨h1 x hx, fun hf => (h2 hf).2 x hx, fun q hq =>
    ⟨(h3 q hq).1, (h3 q hq).2 x hx⟩⟩⟩
  by_cases hf : cf.flag = .none
  · cases hb : infBias env cf t f with
    | none => exact absurd ((infBias_none_iff hf).1 hb) (h2 hf).1
    | some b => exact ⟨b, rfl⟩
  · exact ⟨none, by simp [infBias, hf]⟩

/-- A column that survives is read back as it was. -/
theorem survives_col {env : TextEnv} {lower : String → String} {cf : IOConf} {t f : String} {col : List Cell}
    (h : Survives env cf t f col) :
    ∃ w, panWriteCol env cf t f col = some w ∧ panReadCol env lower cf false t f w = some col := by
  obtain ⟨hq, ⟨b, hb⟩, hx⟩ := survives_cells h
  refine ⟨col.map (panWriteCell cf b), by rw [panWriteCol_cells env cf hq, hb, Option.map_some], ?_⟩
  rw [panReadCol_cells, hb, Option.map_some, List.map_map]
  congr 1
  apply map_eq_self
  intro x hxm
  exact (cell_survives hb (hx x hxm) _ (.inl rfl)).2 rfl

end Ticdat

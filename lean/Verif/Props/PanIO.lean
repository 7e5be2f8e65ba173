import Verif.Model.PanIO
import Verif.Props.Params
/-!
# C42: PanDat infinity flags and parameters
-/
set_option linter.unusedSimpArgs false
namespace Ticdat
open Spec

theorem map_eq_self {A : Type} {g : A → A} (l : List A) (h : ∀ x ∈ l, g x = x) : l.map g = l := by
  rw [List.map_congr_left h, List.map_id']

theorem beyond_false {q : Rat} {x : XNum} (h : Cell.beyond q (.num x) = false) :
    XNum.le (.fin q) x = false ∧ XNum.le x (.fin (-q)) = false := by
  simpa [Cell.beyond] using h

/-- The two passes over a column are one `clamp` per cell. -/
theorem panWriteCol_num {env : TextEnv} {cf : IOConf} {q : Rat} (hf : cf.flag = .num q) (hq : 0 < q) (t f : String)
    (col : List Cell) :
    panWriteCol env cf t f col = some (col.map (fun x => match x with
      | .num y => .num (clamp q y)
      | x => x)) := by
  have hcl : ∀ y, XNum.le (.fin q) y = true → clamp q y = .fin q := by
    intro y h
    have h0 : ¬ q < -q := by grind
    rcases (le_iff _ _).1 h with h | h
    · simp [clamp, (xlt_iff _ _).2 h]; simp [XNum.lt, h0]
    · subst h; simp [clamp, XNum.lt, h0]
  have hcs : ∀ y, XNum.le (.fin q) y = false → XNum.le y (.fin (-q)) = true → clamp q y = .fin (-q) := by
    intro y h1 h
    have h2 : XNum.lt (.fin q) y = false := by
      cases h3 : XNum.lt (.fin q) y with
      | false => rfl
      | true => rw [(le_iff _ _).2 (Or.inl ((xlt_iff _ _).1 h3))] at h1; cases h1
    rcases (le_iff _ _).1 h with h | h
    · simp [clamp, h2, (xlt_iff _ _).2 h]
    · subst h; simp [clamp, h2]
  have hcb : ∀ y, XNum.le (.fin q) y = false → XNum.le y (.fin (-q)) = false → clamp q y = y := by
    intro y h1 h
    have h2 : XNum.lt (.fin q) y = false := by
      cases h3 : XNum.lt (.fin q) y with
      | false => rfl
      | true => rw [(le_iff _ _).2 (Or.inl ((xlt_iff _ _).1 h3))] at h1; cases h1
    have h4 : XNum.lt y (.fin (-q)) = false := by
      cases h3 : XNum.lt y (.fin (-q)) with
      | false => rfl
      | true => rw [(le_iff _ _).2 (Or.inl ((xlt_iff _ _).1 h3))] at h; cases h
    simp [clamp, h2, h4]
  have hqq : XNum.le (.fin q) (.fin (-q)) = false := by simp [XNum.le, XNum.lt]; grind
  unfold panWriteCol
  rw [hf]
  simp only
  split
  · rw [List.map_map]
    congr 1
    apply List.map_congr_left
    intro x _
    cases x with
    | num y =>
      simp only [Function.comp_def]
      cases h1 : XNum.le (.fin q) y with
      | true => simp [hcl y h1, hqq]
      | false =>
        cases h2 : XNum.le y (.fin (-q)) with
        | true => simp [hcs y h1 h2, h2]
        | false => simp [hcb y h1 h2, h2]
    | _ => rfl
  · rename_i h
    congr 1
    symm
    apply map_eq_self
    intro x hx
    cases x with
    | num y =>
      have : Cell.beyond q (.num y) = false := by
        cases hb : Cell.beyond q (.num y) with
        | false => rfl
        | true => exact absurd (List.any_eq_true.2 ⟨_, hx, hb⟩) h
      obtain ⟨h1, h2⟩ := beyond_false this
      simp [hcb y h1 h2]
    | _ => rfl

theorem panRead_infStep (q : Rat) (col : List Cell) :
    (if col.any (Cell.beyond q) then col.map (infCellAdj q) else col) = col.map (infCellAdj q) := by
  split
  · rfl
  · rename_i h
    symm
    apply map_eq_self
    intro x hx
    cases x with
    | num y =>
      have : Cell.beyond q (.num y) = false := by
        cases hb : Cell.beyond q (.num y) with
        | false => rfl
        | true => exact absurd (List.any_eq_true.2 ⟨_, hx, hb⟩) h
      obtain ⟨h1, h2⟩ := beyond_false this
      simp [infCellAdj, h1, h2]
    | _ => rfl

/-- Reading a column of a plain field. -/
theorem panReadCol_plain {env : TextEnv} {lower : String → String} {cf : IOConf} {t f : String} (hp : PlainField cf t f)
    (col : List Cell) :
    panReadCol env lower cf false t f col = match cf.flag with
      | .num q => some (col.map (infCellAdj q))
      | _ => (infBias env cf t f).map (fun b =>
        match b with
        | some pos => col.map (fun x => if x.isNull then .num (infOf pos) else x)
        | none => col) := by
  obtain ⟨h1, h2⟩ := plain_multi hp
  unfold panReadCol
  simp only [h1, h2, Bool.false_and, Bool.false_eq_true, if_false]
  cases cf.flag with
  | na =>
    cases infBias env cf t f with
    | none => rfl
    | some b => cases b <;> rfl
  | none =>
    cases infBias env cf t f with
    | none => rfl
    | some b => cases b <;> rfl
  | num q =>
    simp only [panRead_infStep]
    rfl

/-- **C42, numeric flag.**  Each number of a column that is written with a positive numeric flag and read back is infinite
if it was beyond the flag and else unchanged; other values of a plain field are unchanged. -/
theorem pan_num_flag_round_trip_partial {env : TextEnv} {lower : String → String} {cf : IOConf} {q : Rat} (hf : cf.flag = .num q)
    (hq : 0 < q) {t f : String} (hp : PlainField cf t f) (col : List Cell) :
    ∃ w r, panWriteCol env cf t f col = some w ∧ panReadCol env lower cf false t f w = some r ∧
      r.length = col.length ∧ ∀ (i : Nat) (x y : Cell), col[i]? = some x → r[i]? = some y →
        (∃ a b, x = .num a ∧ y = .num b ∧ ReadBack q a b) ∨ ((∀ a, x ≠ .num a) ∧ y = x) := by
  refine ⟨_, _, panWriteCol_num hf hq t f col, by rw [panReadCol_plain hp, hf], by simp, ?_⟩
  intro i x y hx hy
  rw [List.map_map, List.getElem?_map, hx, Option.map_some, Option.some.injEq] at hy
  subst hy
  cases x with
  | num a =>
    left
    refine ⟨a, _, rfl, ?_, clamp_read q hq a _ rfl⟩
    simp only [Function.comp_def, infCellAdj]
    split
    · rfl
    · split <;> rfl
  | _ => exact Or.inr ⟨fun a h => (by cases h), rfl⟩

/-- **C42, `None` flag.**  Unless the flag is ambiguous for the field, a column of valid values of a plain field is read
back as it was. -/
theorem pan_none_flag_round_trip_partial {env : TextEnv} {lower : String → String} {cf : IOConf} (hf : cf.flag = .none)
    {t f : String} (hp : PlainField cf t f) (hn : ¬ NoneFlagAmbiguous env cf t f) (col : List Cell)
    (hx : ∀ x ∈ col, ValidAt env cf t f x) :
    ∃ w, panWriteCol env cf t f col = some w ∧ panReadCol env lower cf false t f w = some col := by
  rw [← infBias_none_iff hf] at hn
  cases hb : infBias env cf t f with
  | none => exact absurd hb hn
  | some b =>
    cases b with
    | none =>
      refine ⟨col, by simp [panWriteCol, hf, hb], ?_⟩
      rw [panReadCol_plain hp, hf]
      simp [hb]
    | some pos =>
      obtain ⟨td, h1, h2, h3⟩ := infBias_some hb
      have hw : panWriteCol env cf t f col = some (col.map (fun x => if x = .num (infOf pos) then .none else x)) := by
        simp only [panWriteCol, hf, hb, Option.map_some]
        split
        · rfl
        · rename_i h
          congr 1
          symm
          apply map_eq_self
          intro x hxm
          split
          · rename_i e
            exact absurd (List.any_eq_true.2 ⟨x, hxm, by simp [e]⟩) h
          · rfl
      refine ⟨_, hw, ?_⟩
      rw [panReadCol_plain hp, hf]
      simp only [hb, Option.map_some, List.map_map]
      congr 1
      apply map_eq_self
      intro x hxm
      have hnull : x.isNull = false := by
        cases x with
        | none => exact absurd (hx _ hxm td h1) h2
        | nan =>
          exfalso
          apply h2
          rcases hx _ hxm td h1 with ⟨_, h⟩ | ⟨h, _⟩ | ⟨_, y, h, _⟩ | ⟨_, s, h, _⟩
          · exact Or.inl ⟨Or.inl rfl, h⟩
          · exact absurd (Or.inr rfl) h
          · cases h
          · cases h
        | _ => rfl
      simp only [Function.comp_def]
      by_cases h : x = .num (infOf pos)
      · simp [h, Cell.isNull]
      · simp [h, hnull]

/-- TicDat and PanDat write the same cells. -/
theorem pan_write_same_as_tic {env : TextEnv} {cf : IOConf} (hq : ∀ q, cf.flag = .num q → 0 < q) {t f : String}
    (ht : t ≠ "parameters") (col w : List Cell) (h : panWriteCol env cf t f col = some w) :
    col.map (writeCell env cf t f) = w.map some := by
  cases hf : cf.flag with
  | na =>
    simp only [panWriteCol, hf, Option.some.injEq] at h
    subst h
    apply List.map_congr_left
    intro x _
    simp [writeCell, ht, hf]
  | num q =>
    rw [panWriteCol_num hf (hq q hf)] at h
    cases h
    rw [List.map_map]
    apply List.map_congr_left
    intro x _
    simp only [writeCell, ht, hf, false_and, if_false, Function.comp_def]
    cases x <;> rfl
  | none =>
    simp only [panWriteCol, hf] at h
    cases hb : infBias env cf t f with
    | none => simp [hb] at h
    | some b =>
      cases b with
      | none =>
        simp only [hb, Option.map_some, Option.some.injEq] at h
        subst h
        apply List.map_congr_left
        intro x _
        simp [writeCell, ht, hf, hb]
      | some pos =>
        simp only [hb, Option.map_some, Option.some.injEq] at h
        have hw : w = col.map (fun x => if x = .num (infOf pos) then .none else x) := by
          rw [← h]
          split
          · rfl
          · rename_i h
            symm
            apply map_eq_self
            intro x hxm
            split
            · rename_i e
              exact absurd (List.any_eq_true.2 ⟨x, hxm, by simp [e]⟩) h
            · rfl
        rw [hw, List.map_map]
        apply List.map_congr_left
        intro x _
        simp [writeCell, ht, hf, hb]

/-- **Finding.**  In a field that allows numbers and strings, PanDat looks for the numeric flag before it turns text into
numbers, TicDat afterwards.  So a column that the file library hands over as text (because it also holds text) keeps the
flag instead of infinity with PanDat, and gets infinity with TicDat. -/
theorem pan_automunge_misses_flag (lower : String → String) :
    let td : TypeDict := ⟨true, true, true, .fin 0, .pinf, false, .any, false, false⟩
    let cf : IOConf := ⟨[("t", [("f", td)])], .num 12, true, []⟩
    panReadCol demoText lower cf false "t" "f" [.str "12", .str "many"] = some [.num (.fin 12), .str "many"] ∧
    [Cell.str "12", .str "many"].map (readCell demoText cf "t" "f") = [some (.num .pinf), some (.str "many")] := by
  constructor
  · rfl
  · decide +kernel

/-- **C42, parameters.**  After the reading adjustments of PanDat, number parameters written as text come back as
numbers, text of parameters that allow no numbers as the same text. -/
theorem pan_param_text_round_trip {env : TextEnv} (hT : TextOK env) (lower : String → String) (params : Params)
    (push : Bool) (k v : Cell) (td : TypeDict) (htd : paramType params k = some td) (hd : td.datetime = false)
    (hv : Valid env.parses td v)
    (hc : (∃ x, v = .num x) ∨ ∃ s, v = .str s ∧ (td.numberAllowed = true → env.float s = none)) :
    panFixParam env lower params push false k (.str (env.text (panWriteParam v))) = v := by
  unfold panFixParam
  simp only [paramType_eq, htd, Option.map_some, Option.getD_some, hd, Bool.false_and, Bool.false_eq_true, if_false,
    Option.bind_none]
  rcases hc with ⟨x, rfl⟩ | ⟨s, rfl, hn⟩
  · have hna : td.numberAllowed = true := by
      rcases hv with ⟨h, _⟩ | ⟨_, h, _⟩ | ⟨_, y, _, h2, _⟩ | ⟨_, s, h, _⟩
      · rcases h with h | h <;> cases h
      · rw [hd] at h; cases h
      · exact h2
      · cases h
    simp [hna, panWriteParam, Cell.isNull, toFloat, hT.num, floatCell]
  · rw [show panWriteParam (.str s) = .str s from rfl, hT.str]
    cases hna : td.numberAllowed with
    | true => simp [toFloat, hn hna]
    | false => simp [(valid_data_iff _ _ _).2 hv]

example : panWriteCol demoText (demoIO (.num 1000)) "t" "cap" [.num .pinf, .num (.fin 7), .num .ninf, .str "x"] =
    some [.num (.fin 1000), .num (.fin 7), .num (.fin (-1000)), .str "x"] := by decide +kernel

example : panReadCol demoText id (demoIO (.num 1000)) false "t" "cap"
      [.num (.fin 1000), .num (.fin 7), .num (.fin (-1000)), .str "x"] =
    some [.num .pinf, .num (.fin 7), .num .ninf, .str "x"] := by decide +kernel

/-- **Finding.**  Files that carry Booleans (JSON, Excel) do not return them: both factories turn the value `True` of a parameter
that allows numbers, and is no datetime, into 1 and `False` into 0 (which Python holds to be equal). -/
theorem param_boolean_becomes_number (env : TextEnv) (lower : String → String) (params : Params) (push json : Bool) (k : Cell)
    (h : ∀ td, paramType params k = some td → td.datetime = false ∧ td.numberAllowed = true) :
    fixParam env params k (.bool true) = .num (.fin 1) ∧ fixParam env params k (.bool false) = .num (.fin 0) ∧
      panFixParam env lower params push json k (.bool true) = .num (.fin 1) ∧
      panFixParam env lower params push json k (.bool false) = .num (.fin 0) := by
  unfold fixParam panFixParam
  simp only [paramType_eq]
  cases htd : paramType params k with
  | none => simp [toFloat]
  | some td => simp [(h td htd).1, (h td htd).2, toFloat]

example : ∀ td, paramType [(Cell.str "x", (none, Cell.none))] (.str "x") = some td → td.datetime = false ∧ td.numberAllowed = true := by
  intro td h
  cases h

end Ticdat

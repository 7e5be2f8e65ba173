import Verif.Props.CellIO
import Verif.Props.PredNames
/-!
# C17, C36: parameters
-/
set_option linter.unusedSimpArgs false
namespace Ticdat
open Spec

/-- Assigning entry after entry: the keys and the values afterwards. -/
theorem foldl_set_get? {A B C : Type} [DecidableEq A] (g : A × B → C) (l : PyDict A B) (hn : (PyDict.keys l).Nodup)
    (d : PyDict A C) (k : A) :
    PyDict.get? (l.foldl (fun acc kv => PyDict.set acc kv.1 (g kv)) d) k =
      match l.find? (fun p => decide (p.1 = k)) with
      | some p => some (g p)
      | none => PyDict.get? d k := by
  induction l generalizing d with
  | nil => rfl
  | cons p l ih =>
    obtain ⟨a, b⟩ := p
    simp only [PyDict.keys, List.map_cons, List.nodup_cons] at hn
    simp only [List.foldl_cons]
    rw [ih hn.2]
    by_cases h : a = k
    · subst h
      have : l.find? (fun p => decide (p.1 = a)) = none := by
        rw [List.find?_eq_none]
        intro x hx
        simp only [decide_eq_true_eq]
        intro e
        exact hn.1 (List.mem_map.2 ⟨x, hx, e⟩)
      simp [this, List.find?_cons, PyDict.get?_set]
    · simp only [List.find?_cons, h, decide_false]
      cases l.find? (fun p => decide (p.1 = k)) with
      | none => simp [PyDict.get?_set, h]
      | some p => rfl

theorem foldl_set_keys_nodup {A B C : Type} [DecidableEq A] (g : A × B → C) (l : PyDict A B) (d : PyDict A C)
    (hd : (PyDict.keys d).Nodup) : (PyDict.keys (l.foldl (fun acc kv => PyDict.set acc kv.1 (g kv)) d)).Nodup := by
  induction l generalizing d with
  | nil => exact hd
  | cons p l ih => exact ih _ (PyDict.keys_set_nodup _ _ _ hd)

namespace Spec

/-- The value of parameter `k`: that of the table, else the declared default, where the default of a datetime parameter is
made a datetime if possible; nothing for a name that is neither in the table nor declared (docstring of
`create_full_parameters_dict`). -/
def fullParam (env : TextEnv) (params : Params) (tbl : PyDict Cell Cell) (k : Cell) : Option Cell :=
  match tbl.find? (fun p => decide (p.1 = k)) with
  | some p => some p.2
  | none =>
    match params.find? (fun p => decide (p.1 = k)) with
    | none => none
    | some p =>
      if ∃ td, p.2.1 = some td ∧ td.datetime = true then
        some (match dateAdjust env p.2.2 with
          | some d => .dt d
          | none => p.2.2)
      else some p.2.2

end Spec

/-- **C17.**  With declared parameters, and parameter names that are strings, `create_full_parameters_dict` returns the
dictionary of the table's values, of the defaults of the other declared parameters, and of nothing else. -/
theorem full_params_spec_partial (env : TextEnv) (params : Params) (tbl : PyDict Cell Cell) (hp : params ≠ [])
    (hpn : (PyDict.keys params).Nodup) (htn : (PyDict.keys tbl).Nodup) (hs : ∀ p ∈ tbl, ∃ s, p.1 = .str s) :
    ∃ d, fullParams env params tbl = some d ∧ (PyDict.keys d).Nodup ∧
      ∀ k, PyDict.get? d k = fullParam env params tbl k := by
  have hall : tbl.all (fun kv => kv.1.isStr) = true := by
    rw [List.all_eq_true]
    intro p h
    obtain ⟨s, e⟩ := hs p h
    rw [e]; rfl
  have hfull : fullParams env params tbl = some (tbl.foldl (fun acc kv => PyDict.set acc kv.1 kv.2)
      (params.foldl (fun acc kv => PyDict.set acc kv.1 (paramDefault env kv.2)) [])) := by
    unfold fullParams
    rw [if_neg hp, if_pos hall]
  refine ⟨_, hfull, ?_, ?_⟩
  · exact foldl_set_keys_nodup (fun p => p.2) tbl _ (foldl_set_keys_nodup (fun p => paramDefault env p.2) params [] (by simp [PyDict.keys]))
  · intro k
    rw [foldl_set_get? (fun p => p.2) tbl htn, foldl_set_get? (fun p => paramDefault env p.2) params hpn]
    unfold fullParam
    cases tbl.find? (fun p => decide (p.1 = k)) with
    | some p => rfl
    | none =>
      simp only
      cases params.find? (fun p => decide (p.1 = k)) with
      | none => rfl
      | some p =>
        obtain ⟨n, td, dv⟩ := p
        cases td with
        | none => cases h' : dateAdjust env dv <;> simp [paramDefault, h']
        | some td => cases h : td.datetime <;> cases h' : dateAdjust env dv <;> simp [paramDefault, h, h']

/-- **Finding.**  A parameters table with a key that is no string makes `create_full_parameters_dict` raise, although such
tables are good and such parameters can be declared. -/
theorem full_params_raises (env : TextEnv) (params : Params) (tbl : PyDict Cell Cell) (p : Cell × Cell) (hp : p ∈ tbl)
    (hs : ∀ s, p.1 ≠ .str s) : fullParams env params tbl = none := by
  have hall : tbl.all (fun kv => kv.1.isStr) = false := by
    rw [List.all_eq_false]
    refine ⟨p, hp, ?_⟩
    cases h : p.1 with
    | str s => exact absurd h (hs s)
    | _ => simp [Cell.isStr]
  unfold fullParams
  split
  · rfl
  · simp [hall]

/-- `add_parameter` keeps the names unique, and accepts only valid defaults. -/
theorem add_parameter_spec (env : TextEnv) (params params' : Params) (name dv : Cell) (e : Option TypeArgs)
    (hn : (PyDict.keys params).Nodup) (h : addParameter env params name dv e = some params') :
    (PyDict.keys params').Nodup ∧ params' ≠ [] ∧ (∀ td, paramType params' name = some td → Valid env.parses td dv) ∧
      ∀ k, k ≠ name → PyDict.get? params' k = PyDict.get? params k := by
  have key : ∀ td, params' = PyDict.set params name (td, dv) → (∀ td', td = some td' → Valid env.parses td' dv) →
      (PyDict.keys params').Nodup ∧ params' ≠ [] ∧ (∀ td, paramType params' name = some td → Valid env.parses td dv) ∧
      ∀ k, k ≠ name → PyDict.get? params' k = PyDict.get? params k := by
    rintro td rfl hv
    refine ⟨PyDict.keys_set_nodup _ _ _ hn, ?_, ?_, ?_⟩
    · intro e
      have := PyDict.get?_set params name name (td, dv)
      rw [e] at this
      simp [PyDict.get?] at this
    · intro td' h'
      have := PyDict.get?_set params name name (td, dv)
      rw [get?_eq_find] at this
      simp only [if_true, Option.map_eq_some_iff] at this
      obtain ⟨p, h1, h2⟩ := this
      simp only [paramType, h1, Option.bind_some, h2] at h'
      exact hv _ h'
    · intro k hk
      rw [PyDict.get?_set]
      simp [Ne.symm hk]
  cases e with
  | none =>
    simp only [addParameter, Option.some.injEq] at h
    exact key none h.symm (by simp)
  | some a =>
    simp only [addParameter] at h
    cases hc : TypeDict.safeCreator a with
    | none => simp [hc] at h
    | some td =>
      simp only [hc, Option.bind_eq_bind, Option.bind_some] at h
      split at h
      · cases h
        refine key (some td) rfl ?_
        rintro td' ⟨⟩
        exact (valid_data_iff _ _ _).1 (by assumption)
      · cases h

/-! ### C36 -/

theorem paramType_eq (params : Params) (k : Cell) : (PyDict.get? params k).bind (·.1) = paramType params k := by
  rw [get?_eq_find]
  unfold paramType
  cases params.find? (fun p => decide (p.1 = k)) <;> rfl

theorem fixParams_get (env : TextEnv) (params : Params) (hp : params ≠ []) (tbl : PyDict Cell Cell)
    (htn : (PyDict.keys tbl).Nodup) (k : Cell) :
    PyDict.get? (fixParams env params tbl) k = (PyDict.get? tbl k).map (fixParam env params k) := by
  unfold fixParams
  simp only [hp, if_false]
  rw [foldl_set_get? (fun kv => fixParam env params kv.1 kv.2) tbl htn, get?_eq_find]
  cases h : tbl.find? (fun p => decide (p.1 = k)) with
  | none => rfl
  | some p =>
    have := List.find?_some h
    simp only [decide_eq_true_eq] at this
    simp [this]

/-- The value of a parameter after writing it as text and reading it back (with declared parameters the writer turns nulls
into `None`, and the reader passes the text to the adjustment). -/
def paramTextTrip (env : TextEnv) (params : Params) (k v : Cell) : Cell :=
  fixParam env params k (.str (env.text (if v.isNull then .none else v)))

/-- **C36, numbers.**  A number that is valid for its parameter, or belongs to a parameter without a type, is read back
from text as that number. -/
theorem param_number_survives {env : TextEnv} (hT : TextOK env) (params : Params) (k : Cell) (x : XNum)
    (hv : ∀ td, paramType params k = some td → Valid env.parses td (.num x)) :
    paramTextTrip env params k (.num x) = .num x := by
  have hne : env.text (.num x) ≠ "" := by
    intro e
    have := hT.num x
    rw [e, hT.empty] at this
    cases this
  unfold paramTextTrip fixParam
  simp only [paramType_eq, Cell.isNull, Bool.false_eq_true, if_false]
  cases htd : paramType params k with
  | none => simp [toFloat, hT.num, floatCell]
  | some td =>
    have hv := hv td htd
    have : td.datetime = false ∧ td.numberAllowed = true := by
      rcases hv with ⟨h, _⟩ | ⟨_, _, h⟩ | ⟨h1, y, _, h2, _⟩ | ⟨_, s, h, _⟩
      · rcases h with h | h <;> cases h
      · rcases h with ⟨d, h⟩ | h
        · cases h
        · simp [TextEnv.parses, dateAdjust] at h
      · exact ⟨h1, h2⟩
      · cases h
    simp [toFloat, hT.num, floatCell, this.1, this.2, hne]

/-- **C36, text.**  Text that is valid for its parameter is read back as the same text, unless the parameter allows numbers
and the text reads as a number.  In particular all text survives in parameters that allow no numbers. -/
theorem param_text_survives {env : TextEnv} (hT : TextOK env) (params : Params) (k : Cell) (s : String) (td : TypeDict)
    (htd : paramType params k = some td) (hd : td.datetime = false) (hv : Valid env.parses td (.str s))
    (hnum : td.numberAllowed = true → env.float s = none) : paramTextTrip env params k (.str s) = .str s := by
  unfold paramTextTrip fixParam
  simp only [paramType_eq, Cell.isNull, Bool.false_eq_true, if_false, hT.str, htd, Option.map_some, Option.getD_some, hd]
  rw [(valid_data_iff _ _ _).2 hv]
  simp only [Bool.not_true, Bool.and_false, Bool.false_eq_true, if_false]
  cases hn : td.numberAllowed with
  | false => simp
  | true => simp [toFloat, hnum hn]

/-- **C36, nulls.**  A null is read back as `None` if the parameter's type is nullable and does not allow the empty text. -/
theorem param_null_survives {env : TextEnv} (hT : TextOK env) (params : Params) (k : Cell) (v : Cell) (td : TypeDict)
    (htd : paramType params k = some td) (hnull : Null v) (hv : Valid env.parses td v)
    (hempty : ¬ Valid env.parses td (.str "")) : paramTextTrip env params k v = .none := by
  have h1 : td.nullable = true := by
    rcases hv with ⟨_, h⟩ | ⟨h, _⟩ | ⟨_, y, rfl, _⟩ | ⟨_, s, rfl, _⟩
    · exact h
    · exact absurd hnull h
    · rcases hnull with h | h <;> cases h
    · rcases hnull with h | h <;> cases h
  have h2 : v.isNull = true := by rcases hnull with rfl | rfl <;> rfl
  have h3 : td.validData env.parses (.str "") = false := by
    cases h : td.validData env.parses (.str "") with
    | false => rfl
    | true => exact absurd ((valid_data_iff _ _ _).1 h) hempty
  unfold paramTextTrip fixParam
  simp [paramType_eq, h2, hT.null, htd, h1, h3]

/-- **C36, dates.** -/
theorem param_date_survives {env : TextEnv} (hT : TextOK env) (params : Params) (k : Cell) (d : Nat) (td : TypeDict)
    (htd : paramType params k = some td) (hd : td.datetime = true) : paramTextTrip env params k (.dt d) = .dt d := by
  have h1 : td.validData env.parses (.str (env.text (.dt d))) = true := by
    rw [valid_data_iff]
    refine Or.inr (Or.inl ⟨?_, hd, Or.inr ?_⟩)
    · rintro (h | h) <;> cases h
    · simp [TextEnv.parses, dateAdjust, hT.dt]
  unfold paramTextTrip fixParam
  simp [paramType_eq, Cell.isNull, htd, h1, hd, dateAdjust, hT.dt]

/-- **Finding.**  A text that is valid for a parameter that also allows numbers (as every parameter without type rules
does) is read back as a number if it reads as one. -/
theorem param_digits_become_number {env : TextEnv} (hT : TextOK env) (params : Params) (k : Cell) (s : String) (x : XNum)
    (hs : env.float s = some (some x)) (htd : paramType params k = none) :
    paramTextTrip env params k (.str s) = .num x := by
  unfold paramTextTrip fixParam
  simp [paramType_eq, Cell.isNull, htd, hT.str, toFloat, hs, floatCell]

/-- **C36, the whole table.**  If every entry survives as described above then the table is read back as it was. -/
theorem param_table_survives (env : TextEnv) (params : Params) (hp : params ≠ []) (tbl : PyDict Cell Cell)
    (htn : (PyDict.keys tbl).Nodup) (h : ∀ p ∈ tbl, paramTextTrip env params p.1 p.2 = p.2) (k : Cell) :
    PyDict.get? (fixParams env params
        (tbl.map (fun p => (p.1, Cell.str (env.text (if p.2.isNull then .none else p.2)))))) k = PyDict.get? tbl k := by
  have hk : PyDict.keys (tbl.map (fun p => (p.1, Cell.str (env.text (if p.2.isNull then .none else p.2))))) =
      PyDict.keys tbl := by simp [PyDict.keys, Function.comp_def]
  rw [fixParams_get env params hp _ (by rw [hk]; exact htn), get?_map_snd tbl
    (fun _ v => Cell.str (env.text (if v.isNull then .none else v)))]
  cases hg : PyDict.get? tbl k with
  | none => rfl
  | some v =>
    have := h (k, v) (PyDict.get?_mem hg)
    simp only [Option.map_some, Option.some.injEq]
    exact this

/-! ### Non-vacuity -/

/-- A text form of numbers and dates that meets `TextOK`: unary numerator, sign and denominator. -/
def unaryRat (q : Rat) : String :=
  String.ofList (List.replicate q.num.toNat 'a' ++ List.replicate (-q.num).toNat 'c' ++ List.replicate q.den 'b')

def unaryText : TextEnv where
  text := fun c => match c with
    | .num .pinf => "inf"
    | .num .ninf => "-inf"
    | .num (.fin q) => unaryRat q
    | .bool _ => "True"
    | .str s => s
    | .dt d => String.ofList (List.replicate (d + 1) 'd')
    | .other _ => "object"
    | .nan => "nan"
    | .none => ""
  float := fun s =>
    if s = "inf" then some (some .pinf) else if s = "-inf" then some (some .ninf) else if s = "nan" then some none
    else
      let q := mkRat ((s.toList.count 'a' : Int) - s.toList.count 'c') (s.toList.count 'b')
      if s = unaryRat q then some (some (.fin q)) else none
  date := fun c => match c with
    | .str s => if s.toList.all (· == 'd') then some (s.toList.length - 1) else none
    | _ => none

theorem unaryRat_head (q : Rat) (s : String) (h : ∃ c, c ∈ s.toList ∧ c ≠ 'a' ∧ c ≠ 'b' ∧ c ≠ 'c') : unaryRat q ≠ s := by
  rintro rfl
  obtain ⟨c, h1, h2, h3, h4⟩ := h
  simp [unaryRat, List.mem_replicate] at h1
  grind

theorem unaryRat_decode (q : Rat) :
    mkRat (((unaryRat q).toList.count 'a' : Int) - (unaryRat q).toList.count 'c') ((unaryRat q).toList.count 'b') = q := by
  have ha : (unaryRat q).toList.count 'a' = q.num.toNat := by simp [unaryRat, List.count_replicate]
  have hc : (unaryRat q).toList.count 'c' = (-q.num).toNat := by simp [unaryRat, List.count_replicate]
  have hb : (unaryRat q).toList.count 'b' = q.den := by simp [unaryRat, List.count_replicate]
  rw [ha, hb, hc]
  have : (q.num.toNat : Int) - (-q.num).toNat = q.num := by omega
  rw [this]
  exact Rat.mkRat_self q

/-- The hypothesis `TextOK` can be met. -/
theorem unaryText_ok : TextOK unaryText where
  num := by
    intro x
    cases x with
    | pinf => decide +kernel
    | ninf => decide +kernel
    | fin q =>
      have h1 : unaryRat q ≠ "inf" := unaryRat_head q _ ⟨'i', by decide, by decide⟩
      have h2 : unaryRat q ≠ "-inf" := unaryRat_head q _ ⟨'i', by decide, by decide⟩
      have h3 : unaryRat q ≠ "nan" := unaryRat_head q _ ⟨'n', by decide, by decide⟩
      simp [unaryText, h1, h2, h3, unaryRat_decode]
  dt := by intro d; simp [unaryText]
  empty := by
    have h : mkRat 0 0 = 0 := by decide
    have h2 : "" ≠ unaryRat 0 := by decide
    simp [unaryText, h, h2]
  null := rfl
  str := by intro s; rfl

def demoParams : Params :=
  [(.str "limit", (some ⟨true, true, false, .fin 0, .pinf, false, .oneOf [], false, false⟩, .num (.fin 5))),
   (.str "mode", (some ⟨false, true, true, .fin 0, .pinf, false, .any, false, false⟩, .str "fast")),
   (.str "start", (some ⟨false, true, true, .fin 0, .pinf, false, .oneOf [], true, true⟩, .str "today")),
   (.str "free", (none, .none))]

example : fullParams demoText demoParams [(.str "limit", .num (.fin 12)), (.str "odd", .str "x")] =
    some [(.str "limit", .num (.fin 12)), (.str "mode", .str "fast"), (.str "start", .dt 7), (.str "free", .none),
      (.str "odd", .str "x")] := by decide +kernel

example : fixParams demoText demoParams
      [(.str "limit", .str "12"), (.str "mode", .str "12"), (.str "start", .str ""), (.str "free", .str "12")] =
    [(.str "limit", .num (.fin 12)), (.str "mode", .str "12"), (.str "start", .none), (.str "free", .num (.fin 12))] := by
  decide +kernel

example : (paramType demoParams (.str "mode")).map (·.numberAllowed) = some false ∧
    (paramType demoParams (.str "limit")).map (·.numberAllowed) = some true := by decide +kernel

end Ticdat

import Verif.Lemmas.DataType
/-!
# C11, C13, C14: data types

`findTypes parses s dts db lim` models `tdf.find_data_type_failures(dat, max_failures=lim)`, `TypeDict.validData` models
`TypeDictionary.valid_data`, and `TypeDict.safeCreator` models the argument handling of `set_data_type`.
-/
set_option linter.unusedSimpArgs false
namespace Ticdat
open Spec

/-- **C13.**  `valid_data` decides the documented rule, for every data type and every value. -/
theorem valid_data_iff (parses : Cell → Bool) (td : TypeDict) (c : Cell) :
    td.validData parses c = true ↔ Valid parses td c := by
  have num : ∀ x, c = .num x → td.datetime = false → (td.validData parses c = true ↔ td.numberAllowed = true ∧
      InRange td x ∧ (td.mustBeInt = true → IsInt x ∨ (x = .pinf ∧ td.max = .pinf ∧ td.inclusiveMax = true))) := by
    rintro x rfl hdt
    have h1 := xlt_trichotomy x td.min
    have h2 := xlt_trichotomy td.max x
    have h3 := isInt_iff x
    have h4 : ∀ y, x = y → ¬ XLt y x := by rintro y rfl; exact xlt_irrefl x
    have h5 : ∀ y, x = y → ¬ XLt x y := by rintro y rfl; exact xlt_irrefl x
    have h6 := h4 td.min
    have h7 := h5 td.max
    simp only [TypeDict.validData, Cell.isNull, hdt, Bool.false_eq_true, if_false, InRange]
    rw [← h3]
    by_cases hm : x = td.min <;> by_cases hM : x = td.max <;>
      cases e1 : td.numberAllowed <;> cases e2 : XNum.lt x td.min <;> cases e3 : XNum.lt td.max x <;>
      cases e4 : td.inclusiveMin <;> cases e5 : td.inclusiveMax <;> cases e6 : td.mustBeInt <;> cases e7 : x.isInt <;>
      grind
  unfold Valid Null
  cases c with
  | none => simp [TypeDict.validData, Cell.isNull]
  | nan => simp [TypeDict.validData, Cell.isNull]
  | bool b =>
    cases hd : td.datetime <;> simp [TypeDict.validData, Cell.isNull, hd]
  | other n =>
    cases hd : td.datetime <;> simp [TypeDict.validData, Cell.isNull, hd]
  | dt d =>
    cases hd : td.datetime <;> simp [TypeDict.validData, Cell.isNull, hd]
  | str w =>
    cases hd : td.datetime
    · cases hs : td.strings <;> simp [TypeDict.validData, Cell.isNull, hd, hs]
    · simp [TypeDict.validData, Cell.isNull, hd]
  | num x =>
    cases hd : td.datetime
    · rw [num x rfl hd]
      constructor
      · intro h; exact Or.inr (Or.inr (Or.inl ⟨rfl, x, rfl, h⟩))
      · rintro (⟨h, _⟩ | ⟨_, h, _⟩ | ⟨_, y, h1, h2⟩ | ⟨_, w, h1, _⟩)
        · simp at h
        · simp at h
        · cases h1; exact h2
        · simp at h1
    · simp [TypeDict.validData, Cell.isNull, hd]

/-- Non-vacuity: the default arguments of `set_data_type` (0 inclusive to infinity exclusive) accept 7/2 and reject
`True`, text, -1 and infinity. -/
example :
    let td : TypeDict := ⟨true, true, false, .fin 0, .pinf, false, .oneOf [], false, false⟩
    [Cell.num (.fin (7/2)), .bool true, .str "x", .num (.fin (-1)), .num .pinf, .none].map (td.validData (fun _ => false)) =
      [true, false, false, false, false, false] := by decide +kernel

/-- **Finding (C13).**  Infinity is special for integer fields on one side only: with bounds `[-inf, inf]`, both inclusive,
`inf` is a valid integer and `-inf` is not. -/
theorem valid_int_infinity_asymmetric (parses : Cell → Bool) (strings : Strings) (nullable : Bool) :
    let td : TypeDict := ⟨true, true, true, .ninf, .pinf, true, strings, nullable, false⟩
    td.validData parses (.num .pinf) = true ∧ td.validData parses (.num .ninf) = false := by
  simp [TypeDict.validData, Cell.isNull, XNum.lt, XNum.isInt]

/-- A container of strings. -/
theorem allStrings_map (l : List String) : allStrings (l.map Cell.str) = some l := by
  induction l with
  | nil => rfl
  | cons a l ih => simp [allStrings, ih]

theorem allStrings_isSome (l : List Cell) : (∃ ss, allStrings l = some ss) ↔ ∀ c ∈ l, ∃ w, c = .str w := by
  induction l with
  | nil => simp [allStrings]
  | cons c l ih =>
    cases c with
    | str w =>
      simp only [allStrings, Option.map_eq_some_iff, List.mem_cons, forall_eq_or_imp]
      constructor
      · rintro ⟨ss, a, ha, rfl⟩; exact ⟨⟨w, rfl⟩, ih.1 ⟨a, ha⟩⟩
      · rintro ⟨_, h⟩; obtain ⟨ss, h⟩ := ih.2 h; exact ⟨_, ss, h, rfl⟩
    | _ => simp [allStrings]

/-- **C14.**  `set_data_type`'s arguments are refused exactly when they are contradictory (unless `datetime` is given, which
makes the others irrelevant): `strings_allowed` is not `'*'` or a container of strings, or numbers are allowed with
non-numeric bounds or `max < min`.  An accepted type without numbers records the bounds as `[0, inf]` inclusive.  Feeding
the recorded attributes of an accepted type back gives the same type. -/
theorem safe_creator_spec (a : TypeArgs) :
    (TypeDict.safeCreator a = none ↔ a.datetime = false ∧
      ((a.strings = .bad ∨ ∃ l, a.strings = .coll l ∧ ∃ c ∈ l, ∀ w, c ≠ .str w) ∨
        (a.numberAllowed = true ∧ ¬ ∃ mn mx, a.min = .num mn ∧ a.max = .num mx ∧ (XLt mn mx ∨ mn = mx)))) ∧
    ∀ td, TypeDict.safeCreator a = some td →
      TypeDict.safeCreator td.toArgs = some td ∧
      td.nullable = a.nullable ∧ td.datetime = a.datetime ∧
      (td.numberAllowed = false → td.min = .fin 0 ∧ td.max = .pinf ∧ td.inclusiveMin = true ∧ td.inclusiveMax = true ∧
        td.mustBeInt = false) ∧
      (td.numberAllowed = true → a.datetime = false ∧ a.numberAllowed = true ∧ a.min = .num td.min ∧
        a.max = .num td.max ∧ (XLt td.min td.max ∨ td.min = td.max) ∧ td.inclusiveMin = a.inclusiveMin ∧
        td.inclusiveMax = a.inclusiveMax ∧ td.mustBeInt = a.mustBeInt) ∧
      (a.datetime = false → (td.strings = .any ∧ a.strings = .star) ∨
        ∃ l, td.strings = .oneOf l ∧ a.strings = .coll (l.map Cell.str)) := by
  have hle : ∀ mn mx, XNum.le mn mx = true ↔ (XLt mn mx ∨ mn = mx) := by
    intro mn mx
    simp only [XNum.le, Bool.not_eq_true', xlt_trichotomy mx mn]
    constructor
    · rintro (h | h)
      · exact Or.inl h
      · exact Or.inr h.symm
    · rintro (h | h)
      · exact Or.inl h
      · exact Or.inr h.symm
  have hstr : ∀ l ss, allStrings l = some ss → l = ss.map Cell.str := by
    intro l
    induction l with
    | nil => intro ss h; simp [allStrings] at h; subst h; rfl
    | cons c l ih =>
      intro ss h
      cases c with
      | str w =>
        simp only [allStrings, Option.map_eq_some_iff] at h
        obtain ⟨a, ha, rfl⟩ := h
        simp [ih a ha]
      | _ => simp [allStrings] at h
  have hnone : ∀ l, allStrings l = none ↔ ∃ c ∈ l, ∀ w, c ≠ .str w := by
    intro l
    have := allStrings_isSome l
    constructor
    · intro h
      apply Classical.byContradiction
      intro hc
      have : ∃ ss, allStrings l = some ss := this.2 (by
        intro c hcl
        apply Classical.byContradiction
        intro h2
        exact hc ⟨c, hcl, fun w e => h2 ⟨w, e⟩⟩)
      obtain ⟨ss, h2⟩ := this
      rw [h] at h2; simp at h2
    · rintro ⟨c, hcl, hw⟩
      cases h : allStrings l with
      | none => rfl
      | some ss =>
        obtain ⟨w, hw2⟩ := this.1 ⟨ss, h⟩ c hcl
        exact absurd hw2 (hw w)
  obtain ⟨na, imn, imx, mn, mx, mbi, ss, nul, dt⟩ := a
  cases dt with
  | true =>
    constructor
    · simp [TypeDict.safeCreator]
    · intro td h
      simp only [TypeDict.safeCreator, if_true, Option.some.injEq] at h
      subst h
      simp [TypeDict.toArgs, TypeDict.safeCreator]
  | false =>
    -- the strings argument
    have fin : ∀ (strs : Strings), (TypeDict.safeCreator ⟨na, imn, imx, mn, mx, mbi,
        (match strs with | .any => .star | .oneOf l => .coll (l.map Cell.str)), nul, false⟩ = none ↔
          (na = true ∧ ¬ ∃ mn' mx', mn = .num mn' ∧ mx = .num mx' ∧ (XLt mn' mx' ∨ mn' = mx'))) ∧
        ∀ td, TypeDict.safeCreator ⟨na, imn, imx, mn, mx, mbi,
        (match strs with | .any => .star | .oneOf l => .coll (l.map Cell.str)), nul, false⟩ = some td →
        td.strings = strs ∧ TypeDict.safeCreator td.toArgs = some td ∧ td.nullable = nul ∧ td.datetime = false ∧
        (td.numberAllowed = false → td.min = .fin 0 ∧ td.max = .pinf ∧ td.inclusiveMin = true ∧
          td.inclusiveMax = true ∧ td.mustBeInt = false) ∧
        (td.numberAllowed = true → na = true ∧ mn = .num td.min ∧ mx = .num td.max ∧
          (XLt td.min td.max ∨ td.min = td.max) ∧ td.inclusiveMin = imn ∧ td.inclusiveMax = imx ∧ td.mustBeInt = mbi) := by
      intro strs
      have hs : (match (match strs with | .any => StringsArg.star | .oneOf l => .coll (l.map Cell.str)) with
          | .star => some Strings.any
          | .coll l => (allStrings l).map Strings.oneOf
          | .bad => none) = some strs := by
        cases strs with
        | any => rfl
        | oneOf l => simp [allStrings_map]
      cases na with
      | false =>
        cases strs <;> simp [TypeDict.safeCreator, TypeDict.toArgs, allStrings_map]
      | true =>
        cases mn with
        | num mn' =>
          cases mx with
          | num mx' =>
            cases h : XNum.le mn' mx' with
            | true =>
              have h' := (hle mn' mx').1 h
              cases strs <;> simp [TypeDict.safeCreator, TypeDict.toArgs, allStrings_map, h, h']
            | false =>
              have h' : ¬ (XLt mn' mx' ∨ mn' = mx') := by rw [← hle, h]; simp
              cases strs <;> simp [TypeDict.safeCreator, TypeDict.toArgs, allStrings_map, h] <;>
                simpa using h'
          | _ => cases strs <;> simp [TypeDict.safeCreator, TypeDict.toArgs, allStrings_map]
        | _ =>
          cases mx <;> cases strs <;> simp [TypeDict.safeCreator, TypeDict.toArgs, allStrings_map]
    cases ss with
    | bad => simp [TypeDict.safeCreator]
    | star =>
      obtain ⟨f1, f2⟩ := fin .any
      constructor
      · simpa using f1
      · intro td h
        obtain ⟨g0, g1, g2, g3, g4, g5⟩ := f2 td h
        exact ⟨g1, g2, g3, g4, fun hh => ⟨rfl, g5 hh⟩, fun _ => Or.inl ⟨g0, rfl⟩⟩
    | coll l =>
      cases hl : allStrings l with
      | none =>
        have := (hnone l).1 hl
        constructor
        · simp only [TypeDict.safeCreator, hl, Bool.false_eq_true, if_false, Option.map_none, Option.bind_eq_bind,
            Option.bind_none, true_and, true_iff]
          exact Or.inl (Or.inr ⟨l, rfl, this⟩)
        · intro td h
          simp [TypeDict.safeCreator, hl] at h
      | some ls =>
        have e := hstr l ls hl
        subst e
        obtain ⟨f1, f2⟩ := fin (.oneOf ls)
        constructor
        · refine f1.trans ?_
          simp
        · intro td h
          obtain ⟨g0, g1, g2, g3, g4, g5⟩ := f2 td h
          exact ⟨g1, g2, g3, g4, fun hh => ⟨rfl, g5 hh⟩, fun _ => Or.inr ⟨ls, g0, rfl⟩⟩

/-- Non-vacuity: an accepted and a refused set of arguments. -/
example : TypeDict.safeCreator ⟨true, true, false, .num (.fin 0), .num (.fin 5), true, .coll [.str "a"], false, false⟩ =
      some ⟨true, true, false, .fin 0, .fin 5, true, .oneOf ["a"], false, false⟩ ∧
    TypeDict.safeCreator ⟨true, true, false, .num (.fin 6), .num (.fin 5), true, .star, false, false⟩ = none := by
  decide +kernel

theorem notNull_valid (parses : Cell → Bool) (v : Cell) :
    notNullType.validData parses v = true ↔ (∃ x, v = .num x) ∨ ∃ w, v = .str w := by
  cases v with
  | num x => cases x <;> simp [TypeDict.validData, Cell.isNull, notNullType, XNum.lt]
  | _ => simp [TypeDict.validData, Cell.isNull, notNullType]

theorem effType_bad {parses : Cell → Bool} {s : Schema} {dts : DataTypes} {t f : String} {v : Cell} :
    (∃ td, effType s dts t f = some td ∧ td.validData parses v = false) ↔ BadCell parses s dts t f v := by
  unfold effType BadCell
  rw [at_eq_typeOf]
  cases h : typeOf dts t f with
  | some td =>
    simp only [Option.some.injEq]
    rw [exists_eq_left', exists_eq_left', ← valid_data_iff]
    simp
  | none =>
    simp only [reduceCtorEq, false_and, exists_false, true_and, false_or]
    by_cases hp : f ∈ s.pks t
    · simp only [hp, if_true, Option.some.injEq, exists_eq_left', true_and]
      rw [← notNull_valid parses]
      simp
    · simp [hp]

/-- **C11.**  On every good data object `find_data_type_failures` does not raise and is exact: `(table, field)` is a key iff
some row of the table has a bad value in that field; `pks` are exactly the keys of those rows, each once; and
`bad_values` are exactly the bad values that occur, each once up to Python's `==`. -/
theorem find_types_exact {parses : Cell → Bool} {s : Schema} (hs : SchemaOK s) {dts : DataTypes} (hd : TypesOK s dts)
    {db : DB Cell} (hdb : DBOK s db) :
    ∃ d, findTypes parses s dts db none = some d ∧ (PyDict.keys d).Nodup ∧
      (∀ t f, (t, f) ∈ PyDict.keys d ↔
        ∃ p ∈ rows (tableOf s t) (db t), ∃ v, p.2 f = some v ∧ BadCell parses s dts t f v) ∧
      (∀ t f vs pks, d.get? (t, f) = some (vs, pks) →
        pks.Nodup ∧
        (∀ pk, pk ∈ pks ↔ ∃ r v, (pk, r) ∈ rows (tableOf s t) (db t) ∧ r f = some v ∧ BadCell parses s dts t f v) ∧
        (∀ v ∈ vs, ∃ p ∈ rows (tableOf s t) (db t), p.2 f = some v ∧ BadCell parses s dts t f v) ∧
        (∀ p ∈ rows (tableOf s t) (db t), ∀ v, p.2 f = some v → BadCell parses s dts t f v →
          ∃ w ∈ vs, v.canon = w.canon) ∧
        vs.Pairwise (fun a b => a.canon ≠ b.canon)) := by
  obtain ⟨h1, h2, h3⟩ := typesResult_spec (typeEvents parses s dts db)
  have hev : ∀ t f pk v, ((t, f), pk, v) ∈ typeEvents parses s dts db ↔
      ∃ r, (pk, r) ∈ rows (tableOf s t) (db t) ∧ r f = some v ∧ BadCell parses s dts t f v := by
    intro t f pk v
    rw [mem_typeEvents hs hd hdb, rows_eq_items]
    constructor
    · rintro ⟨td, row, a1, a2, a3, a4⟩
      exact ⟨_, List.mem_map.2 ⟨_, a1, rfl⟩, a3, effType_bad.1 ⟨td, a2, a4⟩⟩
    · rintro ⟨r, a1, a2, a3⟩
      obtain ⟨⟨pk', row⟩, b1, b2⟩ := List.mem_map.1 a1
      simp only [Prod.mk.injEq] at b2
      obtain ⟨rfl, rfl⟩ := b2
      obtain ⟨td, c1, c2⟩ := effType_bad.2 a3
      exact ⟨td, row, b1, c1, a2, c2⟩
  refine ⟨_, findTypes_eq hs hd hdb none (by simp), h1, ?_, ?_⟩
  · intro t f
    simp only [takeLim]
    rw [h2]
    constructor
    · rintro ⟨pk, v, h⟩
      obtain ⟨r, a, b, c⟩ := (hev _ _ _ _).1 h
      exact ⟨(pk, r), a, v, b, c⟩
    · rintro ⟨⟨pk, r⟩, a, v, b, c⟩
      exact ⟨pk, v, (hev _ _ _ _).2 ⟨r, a, b, c⟩⟩
  · intro t f vs pks hg
    obtain ⟨g1, g2, g3, g4, g5⟩ := h3 (t, f) vs pks hg
    refine ⟨g1, ?_, ?_, ?_, g5⟩
    · intro pk
      rw [g2]
      constructor
      · rintro ⟨v, h⟩
        obtain ⟨r, a, b, c⟩ := (hev _ _ _ _).1 h
        exact ⟨r, v, a, b, c⟩
      · rintro ⟨r, v, a, b, c⟩
        exact ⟨v, (hev _ _ _ _).2 ⟨r, a, b, c⟩⟩
    · intro v hv
      obtain ⟨pk, h⟩ := g3 v hv
      obtain ⟨r, a, b, c⟩ := (hev _ _ _ _).1 h
      exact ⟨(pk, r), a, b, c⟩
    · rintro ⟨pk, r⟩ hp v hv hb
      exact g4 pk v ((hev _ _ _ _).2 ⟨r, hp, hv, hb⟩)

/-- Untyped primary key fields: when their values are numbers, strings or null, only null is reported, as documented. -/
theorem find_types_untyped_pk_only_null_partial {parses : Cell → Bool} {s : Schema} {dts : DataTypes} {t f : String}
    (hf : f ∈ s.pks t) (hu : typeOf dts t f = none) (v : Cell)
    (hv : Null v ∨ (∃ x, v = .num x) ∨ ∃ w, v = .str w) : BadCell parses s dts t f v ↔ Null v := by
  unfold BadCell Null at *
  simp only [hu, reduceCtorEq, false_and, exists_false, true_and, hf, false_or]
  rcases hv with (rfl | rfl) | ⟨x, rfl⟩ | ⟨w, rfl⟩ <;> simp

/-- **Finding (C11).**  The documentation says that an untyped primary key field excludes only null, but a `True`, or a
`datetime`, in one is reported as a data type failure. -/
theorem find_types_flags_bool_primary_key :
    let s : Schema := [("t", ⟨["k"], []⟩)]
    let db : DB Cell := fun _ => .dict [(.one (.bool true), []), (.one (.dt 0), []), (.one (.str "x"), [])]
    findTypes (fun _ => false) s [] db none =
      some [(("t", "k"), [.bool true, .dt 0], [.one (.bool true), .one (.dt 0)])] := by decide +kernel

/-- The number of cells reported in a result of `find_data_type_failures`. -/
def reportedCells (d : PyDict (String × String) (List Cell × List (PKey Cell))) : Nat :=
  (d.map (fun p => p.2.2.length)).sum

theorem reportedCells_typesResult (evs : List TypeEvent) (hn : (evs.map (fun e => (e.1, e.2.1))).Nodup) :
    reportedCells (typesResult evs) = evs.length := by
  have iv := groupBy_inv (K := String × String) pyEq_eqvB (evs.map (fun e => (e.1, e.2.2)))
  have ip := groupBy_inv (K := String × String) (eqvB_eq (A := PKey Cell)) (evs.map (fun e => (e.1, e.2.1)))
  have htot := groupBy_total _ hn
  rw [List.length_map] at htot
  rw [← htot]
  unfold reportedCells typesResult
  rw [List.map_map]
  -- both dictionaries have the same keys
  have hperm : (PyDict.keys (groupBy Cell.pyEq (evs.map (fun e => (e.1, e.2.2))))).Perm
      (PyDict.keys (groupBy (fun a b => decide (a = b)) (evs.map (fun e => (e.1, e.2.1))))) := by
    rw [List.perm_ext_iff_of_nodup iv.nodup ip.nodup]
    intro k
    rw [iv.mem_keys, ip.mem_keys]
    simp only [List.mem_map, Prod.mk.injEq]
    constructor
    · rintro ⟨a, e, h, rfl, rfl⟩; exact ⟨_, e, h, rfl, rfl⟩
    · rintro ⟨a, e, h, rfl, rfl⟩; exact ⟨_, e, h, rfl, rfl⟩
  have e1 : (groupBy Cell.pyEq (evs.map (fun e => (e.1, e.2.2)))).map
      ((fun p : (String × String) × List Cell × List (PKey Cell) => p.2.2.length) ∘ (fun p => (p.1, p.2,
        (PyDict.get? (groupBy (fun a b => decide (a = b)) (evs.map (fun e => (e.1, e.2.1)))) p.1).getD []))) =
      (PyDict.keys (groupBy Cell.pyEq (evs.map (fun e => (e.1, e.2.2))))).map (fun k =>
        ((PyDict.get? (groupBy (fun a b => decide (a = b)) (evs.map (fun e => (e.1, e.2.1)))) k).getD []).length) := by
    simp [PyDict.keys]
  have e2 : (groupBy (fun a b : PKey Cell => decide (a = b)) (evs.map (fun e => (e.1, e.2.1)))).map
      (fun p => p.2.length) =
      (PyDict.keys (groupBy (fun a b => decide (a = b)) (evs.map (fun e => (e.1, e.2.1))))).map (fun k =>
        ((PyDict.get? (groupBy (fun a b => decide (a = b)) (evs.map (fun e => (e.1, e.2.1)))) k).getD []).length) := by
    simp only [PyDict.keys, List.map_map]
    apply List.map_congr_left
    rintro ⟨k, l⟩ hm
    simp [Function.comp, PyDict.get?_of_mem ip.nodup hm]
  rw [e1, e2]
  exact (hperm.map _).sum_nat

/-- **C11, limit.**  With `max_failures = n ≥ 1`, everything reported is reported by the unlimited call, and the number of
reported cells is exactly `min n total`. -/
theorem find_types_max_failures {parses : Cell → Bool} {s : Schema} (hs : SchemaOK s) {dts : DataTypes}
    (hd : TypesOK s dts) {db : DB Cell} (hdb : DBOK s db) (n : Nat) (hpos : 0 < n) :
    ∃ d dAll, findTypes parses s dts db (some n) = some d ∧ findTypes parses s dts db none = some dAll ∧
      reportedCells d = min n (reportedCells dAll) ∧
      ∀ tf vs pks, d.get? tf = some (vs, pks) → ∃ vsAll pksAll, dAll.get? tf = some (vsAll, pksAll) ∧
        (∀ pk ∈ pks, pk ∈ pksAll) ∧ (∀ v ∈ vs, ∃ w ∈ vsAll, v.canon = w.canon) := by
  have hnd := typeEvents_nodup (parses := parses) hs hd hdb
  have hsub : (takeLim (some n) (typeEvents parses s dts db)).Sublist (typeEvents parses s dts db) := takeLim_sublist _ _
  refine ⟨_, _, findTypes_eq hs hd hdb (some n) (by simp; omega), findTypes_eq hs hd hdb none (by simp), ?_, ?_⟩
  · rw [reportedCells_typesResult _ ((hsub.map _).nodup hnd)]
    show _ = min n (reportedCells (typesResult (typeEvents parses s dts db)))
    rw [reportedCells_typesResult _ hnd]
    simp [takeLim, List.length_take]
  · intro tf vs pks hg
    obtain ⟨_, h2, h3⟩ := typesResult_spec (takeLim (some n) (typeEvents parses s dts db))
    obtain ⟨k1, k2, k3⟩ := typesResult_spec (typeEvents parses s dts db)
    obtain ⟨_, g2, g3, _, _⟩ := h3 tf vs pks hg
    have hk : tf ∈ PyDict.keys (typesResult (takeLim (some n) (typeEvents parses s dts db))) :=
      List.mem_map.2 ⟨_, PyDict.get?_mem hg, rfl⟩
    obtain ⟨pk, v, he⟩ := (h2 tf).1 hk
    have hk2 := (k2 tf).2 ⟨pk, v, hsub.subset he⟩
    simp only [takeLim]
    cases hg2 : PyDict.get? (typesResult (typeEvents parses s dts db)) tf with
    | none => exact absurd hk2 ((PyDict.get?_eq_none _ _).1 hg2)
    | some w =>
      obtain ⟨vsAll, pksAll⟩ := w
      obtain ⟨_, l2, _, l4, _⟩ := k3 tf vsAll pksAll hg2
      refine ⟨vsAll, pksAll, rfl, ?_, ?_⟩
      · intro pk hpk
        obtain ⟨v, hv⟩ := (g2 pk).1 hpk
        exact (l2 pk).2 ⟨v, hsub.subset hv⟩
      · intro v hv
        obtain ⟨pk, hpk⟩ := g3 v hv
        exact l4 pk v (hsub.subset hpk)

end Ticdat

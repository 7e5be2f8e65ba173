import Verif.Props.PgSchema
import Verif.Props.DataType
import Verif.Props.CellIO
import Verif.Props.SqlText
import Verif.Props.Params
/-!
# C68: the columns hold the valid values; examples; what goes wrong
-/
set_option linter.unusedSimpArgs false
namespace Ticdat
open Spec

theorem clamp_int {q : Rat} (hq : q.den = 1) {y : XNum} (hy : IsInt y) : IsInt (clamp q y) := by
  have hqi : IsInt (.fin q) := ⟨q.num, by congr 1; exact (Rat.ext (by simp) (by simp [hq]))⟩
  have hqn : IsInt (.fin (-q)) := ⟨-q.num, by congr 1; exact (Rat.ext (by simp) (by simp [hq]))⟩
  unfold clamp
  simp only
  split
  · split
    · exact hqn
    · exact hqi
  · split
    · exact hqn
    · exact hy

/-- **C68.**  The column of a field with a declared type holds every valid value of the field as it is written: given
that the field is not forced to another type and not one of the parameters table.  Left out: NaN, nulls in key fields, dates
given as text, and three uses of infinity (see `pg_integer_column_infinity` and `pg_key_infinity_null`). -/
theorem pg_column_holds_valid {env : TextEnv} {cenv : CaseEnv} {cf : IOConf} {fks : List FK} {forced : Forced} {t f : String}
    {c : TabClass} {d : PgDecl} (hd : DeclFor cenv cf fks forced t c d) (hf : f ∈ c.pks ++ c.dfs) {col : PgCol}
    (hcol : col ∈ d.columns) (hname : col.name = pgName cenv f.toList)
    (hfo : forced.lookup (t, f) = none) (hpar : ¬ PgParam cf t) {td : TypeDict} (htd : typeOf cf.types t f = some td)
    {x : Cell} (hv : Valid env.parses td x) (hnan : x ≠ .nan) (hnull : x = .none → f ∉ c.pks)
    (hdate : td.datetime = true → x = .none ∨ ∃ n, x = .dt n)
    (hint : td.mustBeInt = true → (∀ q, cf.flag = .num q → q.den = 1) ∧
      (cf.flag = .na ∨ (cf.flag = .none ∧ td.nullable = true) → x ≠ .num .pinf))
    (hkey : f ∈ c.pks → cf.flag = .none → x ≠ .num .pinf ∧ x ≠ .num .ninf)
    {w : Cell} (hw : writeCell env cf t f x = some w) : PgHolds col (decide (f ∈ c.pks)) w := by
  have hty := hd.types f hf col hcol hname
  have hreq := hd.required f hf col hcol hname
  unfold PgParam at hpar
  unfold writeCell at hw
  rw [if_neg hpar] at hw
  -- a null is held if the data type is nullable, or infinities are stored as nulls
  have hnullok : (td.nullable = true ∨ (td.numberAllowed = true ∧ cf.flag = .none)) → f ∉ c.pks →
      PgHolds col (decide (f ∈ c.pks)) .none := by
    intro h hnp
    refine Or.inl ⟨rfl, ?_, decide_eq_false hnp⟩
    cases hnn : col.notNull with
    | false => rfl
    | true =>
      obtain ⟨_, td', h1, h2, h3⟩ := hreq.1 hnn
      rw [htd] at h1
      cases h1
      rcases h with h | h
      · rw [h] at h2; cases h2
      · exact absurd h h3
  -- values that are not numbers are written as they are
  have hkeep : (∀ y, x ≠ .num y) → w = x := by
    intro hx
    cases hfl : cf.flag with
    | na => rw [hfl] at hw; exact (Option.some.inj hw).symm
    | num q =>
      rw [hfl] at hw
      cases x with
      | num y => exact absurd rfl (hx y)
      | _ => exact (Option.some.inj hw).symm
    | none =>
      rw [hfl] at hw
      simp only at hw
      obtain ⟨b, _, hw⟩ := Option.map_eq_some_iff.1 hw
      cases b with
      | none => exact hw.symm
      | some pos =>
        simp only at hw
        rw [if_neg (hx _)] at hw
        exact hw.symm
  rcases hv with ⟨hnul, hnl⟩ | ⟨_, hdt, _⟩ | ⟨hdt, y, rfl, hna, hr, hi⟩ | ⟨hdt, s, rfl, hs⟩
  · have hx : x = .none := hnul.resolve_right hnan
    have : w = x := hkeep (by intro y h; rw [hx] at h; cases h)
    rw [this, hx]
    exact hnullok (Or.inl hnl) (hnull hx)
  · rcases hdate hdt with rfl | ⟨n, rfl⟩
    · rename_i hnn _; exact absurd (Or.inl rfl) hnn
    · have : w = .dt n := hkeep (by intro y h; cases h)
      rw [this]
      refine Or.inr (Or.inr (Or.inr (Or.inr ⟨?_, n, rfl⟩)))
      have := ColType.datetime (key := decide (f ∈ c.pks)) hfo hpar htd hdt
      exact coltype_unique hty this
  · -- numbers
    have hst : td.strings = .oneOf [] := by
      apply Classical.byContradiction
      intro hst
      generalize col.type = ct at hty
      cases hty with
      | forced h => rw [hfo] at h; cases h
      | param _ h => exact hpar h
      | key _ _ h => rw [htd] at h; cases h
      | data _ _ h => rw [htd] at h; cases h
      | datetime _ _ h h' => rw [htd] at h; cases h; rw [hdt] at h'; cases h'
      | strings _ _ h _ _ h' => rw [htd] at h; cases h; rw [hna] at h'; cases h'
      | int _ _ h _ h' => rw [htd] at h; cases h; exact hst h'
      | float _ _ h _ h' => rw [htd] at h; cases h; exact hst h'
    -- what is written is a null for an infinity, or a number
    have hwritten : (w = .none ∧ cf.flag = .none ∧ f ∉ c.pks) ∨
        ∃ z, w = .num z ∧ (td.mustBeInt = true → IsInt z) := by
      cases hfl : cf.flag with
      | na =>
        rw [hfl] at hw
        have hw := (Option.some.inj hw).symm
        refine Or.inr ⟨y, hw, fun hmi => ?_⟩
        rcases hi hmi with h | ⟨h, _⟩
        · exact h
        · exact absurd (by rw [h]) ((hint hmi).2 (Or.inl hfl))
      | num q =>
        rw [hfl] at hw
        have hw := (Option.some.inj hw).symm
        refine Or.inr ⟨clamp q y, hw, fun hmi => ?_⟩
        have hq := (hint hmi).1 q hfl
        rcases hi hmi with h | ⟨h, _⟩
        · exact clamp_int hq h
        · subst h
          have hqi : IsInt (.fin q) := ⟨q.num, by congr 1; exact (Rat.ext (by simp) (by simp [hq]))⟩
          have hqn : IsInt (.fin (-q)) := ⟨-q.num, by congr 1; exact (Rat.ext (by simp) (by simp [hq]))⟩
          unfold clamp
          simp only [XNum.lt, if_true]
          split
          · exact hqn
          · exact hqi
      | none =>
        rw [hfl] at hw
        simp only at hw
        obtain ⟨b, hb, hw⟩ := Option.map_eq_some_iff.1 hw
        have hnotinf : td.mustBeInt = true → ¬ IsInt y → y = .pinf := by
          intro hmi hni
          rcases hi hmi with h | ⟨h, _⟩
          · exact absurd h hni
          · exact h
        have hkeep2 : (y = .pinf → td.mustBeInt = true → False) → w = .num y →
            ∃ z, w = .num z ∧ (td.mustBeInt = true → IsInt z) := by
          intro h hwy
          refine ⟨y, hwy, fun hmi => ?_⟩
          apply Classical.byContradiction
          intro hni
          exact h (hnotinf hmi hni) hmi
        -- positive infinity in an integer field is the one that stands for the null
        have hbias : y = .pinf → td.mustBeInt = true → td.nullable = false → b = some true := by
          intro hy hmi hnul
          subst hy
          have hvp : td.validData env.parses (.num .pinf) = true :=
            (valid_data_iff env.parses td _).2 (Or.inr (Or.inr (Or.inl ⟨hdt, .pinf, rfl, hna, hr, hi⟩)))
          have hvn : td.validData env.parses (.num .ninf) = false := by
            cases h : td.validData env.parses (.num .ninf) with
            | false => rfl
            | true =>
              rcases (valid_data_iff env.parses td _).1 h with ⟨h, _⟩ | ⟨_, h, _⟩ | ⟨_, z, h, _, _, h'⟩ | ⟨_, s, h, _⟩
              · rcases h with h | h <;> cases h
              · rw [hdt] at h; cases h
              · cases h
                rcases h' hmi with ⟨n, h⟩ | ⟨h, _⟩ <;> cases h
              · cases h
          have hv0 : td.validData env.parses .none = false := by simp [TypeDict.validData, Cell.isNull, hnul]
          unfold infBias at hb
          simp only [hfl, ne_eq, not_true, if_false] at hb
          rw [at_eq_typeOf, htd] at hb
          simp only [hna, hv0, hvp, hvn] at hb
          simpa using hb.symm
        have hnul : y = .pinf → td.mustBeInt = true → td.nullable = false := by
          intro hy hmi
          cases hnul : td.nullable with
          | false => rfl
          | true => exact absurd (by rw [hy]) ((hint hmi).2 (Or.inr ⟨hfl, hnul⟩))
        cases b with
        | none =>
          refine Or.inr (hkeep2 (fun hy hmi => ?_) hw.symm)
          have := hbias hy hmi (hnul hy hmi)
          cases this
        | some pos =>
          simp only at hw
          by_cases hinf : Cell.num y = .num (infOf pos)
          · rw [if_pos hinf] at hw
            refine Or.inl ⟨hw.symm, rfl, fun hp => ?_⟩
            obtain ⟨k1, k2⟩ := hkey hp hfl
            cases pos with
            | true => exact k1 hinf
            | false => exact k2 hinf
          · rw [if_neg hinf] at hw
            refine Or.inr (hkeep2 (fun hy hmi => ?_) hw.symm)
            have := hbias hy hmi (hnul hy hmi)
            cases this
            exact hinf (by rw [hy]; rfl)
    rcases hwritten with ⟨rfl, hfl, hnp⟩ | ⟨z, rfl, hz⟩
    · exact hnullok (Or.inr ⟨hna, hfl⟩) hnp
    · cases hmi : td.mustBeInt with
      | true =>
        refine Or.inr (Or.inr (Or.inl ⟨?_, z, rfl, hz hmi⟩))
        exact coltype_unique hty (ColType.int hfo hpar htd hdt hst hna hmi)
      | false =>
        refine Or.inr (Or.inr (Or.inr (Or.inl ⟨?_, z, rfl⟩)))
        exact coltype_unique hty (ColType.float hfo hpar htd hdt hst hna hmi)
  · have : w = .str s := hkeep (by intro y h; cases h)
    rw [this]
    refine Or.inr (Or.inl ⟨?_, s, rfl⟩)
    have hne : td.strings ≠ .oneOf [] := by
      rcases hs with h | ⟨l, h, hm⟩
      · rw [h]; simp
      · rw [h]; intro h'; cases h'; simp at hm
    have hna : td.numberAllowed = false := by
      generalize col.type = ct at hty
      cases hty with
      | forced h => rw [hfo] at h; cases h
      | param _ h => exact absurd h hpar
      | key _ _ h => rw [htd] at h; cases h
      | data _ _ h => rw [htd] at h; cases h
      | datetime _ _ h h' => rw [htd] at h; cases h; rw [hdt] at h'; cases h'
      | strings _ _ h _ _ h' => rw [htd] at h; cases h; exact h'
      | int _ _ h _ h' => rw [htd] at h; cases h; exact absurd h' hne
      | float _ _ h _ h' => rw [htd] at h; cases h; exact absurd h' hne
    exact coltype_unique hty (ColType.strings hfo hpar htd hdt hne hna)

/-- **C68.**  `check_tables_fields` on any database with distinct table and column names: it returns exactly the missing
tables, in order, and it raises exactly if a table that is there lacks the column of some field, or if a table is missing
and that is to be an error. -/
theorem pg_check_tables_iff (cenv : CaseEnv) (strict : Bool) (schema : List (String × TabClass)) (cat : List PgDecl)
    (hn : (cat.map PgDecl.table).Nodup) (hc : ∀ d ∈ cat, (d.columns.map PgCol.name).Nodup) (l : List String) :
    pgCheckTables cenv strict schema cat = some l ↔
      (∀ t c, (t, c) ∈ schema → ∀ d ∈ cat, d.table = t → ∀ f ∈ c.pks ++ c.dfs,
        pgName cenv f.toList ∈ d.columns.map PgCol.name) ∧
      l = (schema.map Prod.fst).filter (fun t => decide (t ∉ cat.map PgDecl.table)) ∧ (strict = true → l = []) := by
  have hfind : ∀ t, ((cat.find? (fun d => d.table = t)) = none ↔ t ∉ cat.map PgDecl.table) ∧
      ∀ d, cat.find? (fun d => d.table = t) = some d ↔ d ∈ cat ∧ d.table = t := by
    intro t
    constructor
    · rw [List.find?_eq_none]
      simp only [decide_eq_true_eq, List.mem_map, not_exists, not_and]
    · intro d
      constructor
      · intro h
        exact ⟨List.mem_of_find?_eq_some h, by simpa using List.find?_some h⟩
      · rintro ⟨hd, ht⟩
        cases h : cat.find? (fun d => d.table = t) with
        | none =>
          have := List.find?_eq_none.1 h d hd
          simp [ht] at this
        | some e =>
          have he := List.mem_of_find?_eq_some h
          have het : e.table = t := by simpa using List.find?_some h
          rw [inj_of_nodup_map _ hn he hd (by rw [het, ht])]
  have hfields : ∀ d ∈ cat, ∀ c, pgFieldsOk cenv (d.columns.map PgCol.name) c = true ↔
      ∀ f ∈ c.pks ++ c.dfs, pgName cenv f.toList ∈ d.columns.map PgCol.name := by
    intro d hd c
    simp only [pgFieldsOk, List.all_eq_true, decide_eq_true_eq]
    constructor
    · intro h f hf
      have := h f hf
      apply Classical.byContradiction
      intro hno
      have h0 : (d.columns.map PgCol.name).filter (fun n => decide (n = pgName cenv f.toList)) = [] := by
        rw [List.filter_eq_nil_iff]
        intro x hx hxe
        exact hno ((by simpa using hxe : x = pgName cenv f.toList) ▸ hx)
      rw [h0] at this
      cases this
    · intro h f hf
      exact filter_eq_one (hc d hd) (h f hf)
  have hall : (schema.all (fun tc =>
      match cat.find? (fun d => d.table = tc.1) with
      | some d => pgFieldsOk cenv (d.columns.map PgCol.name) tc.2
      | none => true)) = true ↔ ∀ t c, (t, c) ∈ schema → ∀ d ∈ cat, d.table = t → ∀ f ∈ c.pks ++ c.dfs,
        pgName cenv f.toList ∈ d.columns.map PgCol.name := by
    rw [List.all_eq_true]
    constructor
    · intro h t c htc d hd hdt
      have := h (t, c) htc
      simp only [((hfind t).2 d).2 ⟨hd, hdt⟩] at this
      exact (hfields d hd c).1 this
    · rintro h ⟨t, c⟩ htc
      simp only
      cases hf : cat.find? (fun d => d.table = t) with
      | none => rfl
      | some d =>
        obtain ⟨hd, hdt⟩ := ((hfind t).2 d).1 hf
        exact (hfields d hd c).2 (h t c htc d hd hdt)
  have hmiss : (schema.filter (fun tc => (cat.find? (fun d => d.table = tc.1)).isNone)).map Prod.fst =
      (schema.map Prod.fst).filter (fun t => decide (t ∉ cat.map PgDecl.table)) := by
    rw [List.filter_map]
    congr 1
    apply List.filter_congr
    rintro ⟨t, c⟩ _
    simp only [Function.comp]
    rw [Bool.eq_iff_iff, Option.isNone_iff_eq_none, (hfind t).1, decide_eq_true_eq]
  unfold pgCheckTables
  simp only
  rw [hmiss]
  split
  · rename_i h1
    have h1' := hall.1 h1
    cases strict with
    | false =>
      simp only [Bool.and_false, Bool.false_eq_true, if_false, Option.some.injEq, false_implies, and_true]
      exact ⟨fun h => ⟨h1', h.symm⟩, fun h => h.2.symm⟩
    | true =>
      simp only [Bool.and_true, true_implies]
      cases hm : (schema.map Prod.fst).filter (fun t => decide (t ∉ cat.map PgDecl.table)) with
      | nil =>
        simp only [List.isEmpty_nil, Bool.not_true, Bool.false_eq_true, if_false, Option.some.injEq]
        exact ⟨fun h => ⟨h1', h.symm, h.symm⟩, fun h => h.2.1.symm⟩
      | cons a b =>
        simp only [List.isEmpty_cons, Bool.not_false, if_true, reduceCtorEq, false_iff, not_and]
        rintro _ rfl h
        cases h
  · rename_i h1
    constructor
    · intro h; cases h
    · rintro ⟨h, _⟩; exact absurd (hall.2 h) h1

/-! ### A concrete case -/

/-- A number type, a text type and a type that admits both. -/
def pgNum : TypeDict := ⟨true, true, false, .fin 0, .pinf, false, .oneOf [], false, false⟩
def pgInt : TypeDict := ⟨true, true, true, .fin 0, .pinf, true, .oneOf [], false, false⟩
def pgIntNull : TypeDict := ⟨true, true, true, .fin 0, .pinf, true, .oneOf [], true, false⟩
def pgBoth : TypeDict := ⟨true, true, false, .fin 0, .pinf, false, .any, false, false⟩
def pgNeither : TypeDict := ⟨false, true, false, .fin 0, .pinf, false, .oneOf [], true, false⟩

/-- Foods, and amounts of foods. -/
def pgDiet : List (String × TabClass) :=
  [("amounts", ⟨["Food", "Day"], ["Qty"], []⟩), ("foods", ⟨["Name"], ["Cost", "Kind"], [("Kind", .str "raw")]⟩)]
def pgDietFks : List FK := [⟨"amounts", "foods", [("Food", "Name")]⟩]
def pgDietConf : IOConf := ⟨[("foods", [("Cost", pgNum)])], .num 1000, false, []⟩
def pgDietForced : Forced := [(("foods", "Kind"), .text), (("amounts", "Day"), .date)]
/-- Nothing but text literals. -/
def noReads : PgType → List Char → Bool := fun _ _ => false

/-- The tables created for the example: foods first, although declared last. -/
def pgDietTables : List PgDecl :=
  [⟨"foods", [⟨"name".toList, .text, false, none⟩, ⟨"cost".toList, .float, true, some (.bare (.num (.fin 0)))⟩,
      ⟨"kind".toList, .text, false, some (.quoted "raw".toList)⟩], ["name".toList], []⟩,
   ⟨"amounts", [⟨"food".toList, .text, false, none⟩, ⟨"day".toList, .date, false, none⟩,
      ⟨"qty".toList, .float, false, some (.bare (.num (.fin 0)))⟩], ["food".toList, "day".toList],
      [⟨["food".toList], "foods", ["name".toList]⟩]⟩]

theorem pgDiet_fks : FksOK pgDiet pgDietFks := by
  intro k hk
  simp only [pgDietFks, List.mem_singleton] at hk
  subst hk
  refine ⟨⟨⟨["Food", "Day"], ["Qty"], []⟩, ⟨["Name"], ["Cost", "Kind"], [("Kind", .str "raw")]⟩, ?_, ?_, ?_⟩, ?_⟩
  · simp [pgDiet]
  · simp [pgDiet]
  · intro p hp
    simp only [List.mem_singleton] at hp
    subst hp
    exact ⟨by decide, by decide⟩
  · decide

example : (pgDiet.map Prod.fst).Nodup ∧
    pgWriteSchema noReads asciiEnv [] pgDietConf pgDietFks pgDietForced true pgDiet [] = some pgDietTables ∧
    pgCheckTables asciiEnv true pgDiet pgDietTables = some [] ∧
    pgCheckTables asciiEnv false pgDiet [] = some ["amounts", "foods"] ∧
    pgCheckTables asciiEnv true pgDiet [] = none := by
  refine ⟨?_, ?_, ?_, ?_, ?_⟩ <;> decide +kernel

/-- The text of the first statement. -/
example : (pgDietTables.map (PgDecl.txt (fun _ => "0") "diet")).head? =
    some "CREATE TABLE diet.foods (\nname text,\ncost float NOT NULL DEFAULT 0,\nkind text DEFAULT 'raw',\nPRIMARY KEY (name)\n);" := by
  decide +kernel

/-- The texts of all statements. -/
example : pgDietTables.map (fun d => (d.table, d.refs.map (fun r => (PgDecl.txt (fun _ => "0") "diet" ⟨d.table, [], [], [r]⟩)))) =
    [("foods", []), ("amounts", ["CREATE TABLE diet.amounts (\nFOREIGN KEY (food) REFERENCES diet.foods (name)\n);"])] := by
  decide +kernel

/-- **Defaults of boolean columns.**  A column that is forced to be boolean has the default `False` if the default value is `None`,
`False`, zero or the empty string, and the default `True` otherwise, also for NaN and for dates. -/
theorem pg_bool_default (cf : IOConf) (forced : Forced) (t f : String) (d : Cell)
    (hd : typeOf cf.types t f = none)
    (hb : forced.lookup (t, f) = some .bool ∨ forced.lookup (t, f) = some .boolean) :
    ∃ b, pgDefaultSql cf forced t f d = some (.bare (.bool b)) ∧
      (b = false ↔ d = .none ∨ d = .bool false ∨ d = .num (.fin 0) ∨ d = .str "") := by
  have hb : PyDict.get? forced (t, f) = some .bool ∨ PyDict.get? forced (t, f) = some .boolean := by
    have e : ∀ d : Forced, PyDict.get? d (t, f) = d.lookup (t, f) := by
      intro d
      induction d with
      | nil => rfl
      | cons p d ih =>
        by_cases h : p.1 = (t, f)
        · simp [PyDict.get?, List.lookup, h]
        · have h' : ((t, f) == p.1) = false := by simp; exact fun e => h e.symm
          simp only [PyDict.get?, h, if_false, List.lookup, h']
          exact ih
    rw [e]; exact hb
  refine ⟨d.truth, ?_, ?_⟩
  · have hat : cf.types.at t f = none := by rw [at_eq_typeOf]; exact hd
    unfold pgDefaultSql pgDefault
    rw [if_pos hb, if_neg (by rcases hb with h | h <;> rw [h] <;> simp), if_neg]
    rw [hat]
    rcases hb with h | h <;> rw [h] <;> simp
  · cases d <;> simp [Cell.truth]

example : ∃ b, pgDefaultSql ⟨[], .na, false, []⟩ [(("a", "x"), .boolean)] "a" "x" .nan = some (.bare (.bool b)) ∧ b = true := by
  obtain ⟨b, h1, h2⟩ := pg_bool_default ⟨[], .na, false, []⟩ [(("a", "x"), .boolean)] "a" "x" .nan rfl (.inr rfl)
  refine ⟨b, h1, ?_⟩
  cases b with
  | true => rfl
  | false => simp at h2

/-- The hypotheses of `pg_column_holds_valid` on the example: a cost of 3. -/
example : ∃ d ∈ pgDietTables, ∃ col ∈ d.columns, col.name = pgName asciiEnv "Cost".toList ∧ d.table = "foods" ∧
    typeOf pgDietConf.types "foods" "Cost" = some pgNum ∧ pgDietForced.lookup ("foods", "Cost") = none ∧
    pgNum.validData unaryText.parses (.num (.fin 3)) = true ∧
    writeCell unaryText pgDietConf "foods" "Cost" (.num (.fin 3)) = some (.num (.fin 3)) := by
  refine ⟨_, List.mem_cons_self, ⟨"cost".toList, .float, true, some (.bare (.num (.fin 0)))⟩, ?_, ?_⟩
  · simp
  · refine ⟨?_, ?_, ?_, ?_, ?_, ?_⟩ <;> decide +kernel

/-! ### What goes wrong -/

/-- A foreign key that does not refer to the primary key of the foreign table (which `add_foreign_key` accepts and the rest
of ticdat supports) makes `write_schema` raise. -/
theorem pg_schema_key_to_data_field :
    pgWriteSchema noReads asciiEnv [] ⟨[], .na, false, []⟩ [⟨"a", "b", [("x", "y")]⟩] [] true
      [("a", ⟨["x"], [], []⟩), ("b", ⟨["z"], ["y"], []⟩)] [] = none ∧
    (pgWriteSchema noReads asciiEnv [] ⟨[], .na, false, []⟩ [⟨"a", "b", [("x", "y")]⟩] [] false
      [("a", ⟨["x"], [], []⟩), ("b", ⟨["z"], ["y"], []⟩)] []).isSome = true := by
  refine ⟨?_, ?_⟩ <;> decide +kernel

/-- A data field with no data type that refers to a key field with no data type: the columns are `float` and `text`. -/
theorem pg_schema_untyped_reference :
    pgWriteSchema noReads asciiEnv [] ⟨[], .na, false, []⟩ [⟨"a", "b", [("y", "x")]⟩] [] true
      [("a", ⟨["k"], ["y"], []⟩), ("b", ⟨["x"], [], []⟩)] [] = none := by
  decide +kernel

/-- Foreign keys in a circle, which `add_foreign_key` only warns about, cannot be written. -/
theorem pg_schema_circle :
    pgWriteSchema noReads asciiEnv [] ⟨[], .na, false, []⟩ [⟨"a", "b", [("x", "x")]⟩, ⟨"b", "a", [("x", "x")]⟩] [] true
      [("a", ⟨["x"], [], []⟩), ("b", ⟨["x"], [], []⟩)] [] = none := by
  decide +kernel

/-- A data type that admits neither numbers nor strings: the error object of line 146 is built and dropped, so it is a
`TypeError` that is raised; a type that admits both is refused as documented. -/
theorem pg_schema_neither :
    pgFldType ⟨[("a", [("x", pgNeither)])], .na, false, []⟩ [] "a" "x" .float = none ∧
    pgFldType ⟨[("a", [("x", pgBoth)])], .na, false, []⟩ [] "a" "x" .float = none := by
  refine ⟨?_, ?_⟩ <;> decide +kernel

/-- Default texts are not escaped: a quote in the default of a text field makes `write_schema` raise, a doubled quote
becomes a single one in the database. -/
theorem pg_schema_default_quote :
    pgWriteSchema noReads asciiEnv [] ⟨[], .na, false, []⟩ [] [(("a", "x"), .text)] true
      [("a", ⟨["k"], ["x"], [("x", .str "it's")]⟩)] [] = none ∧
    (pgWriteSchema noReads asciiEnv [] ⟨[], .na, false, []⟩ [] [(("a", "x"), .text)] true
      [("a", ⟨["k"], ["x"], [("x", .str "it''s")]⟩)] []).isSome = true ∧
    readLit ("it''s".toList ++ [quote]) = some ("it's".toList, []) := by
  refine ⟨?_, ?_, ?_⟩ <;> decide +kernel

/-- A text default reads back as itself exactly if it has no quote. -/
theorem pg_default_text_exact (s : List Char) : readLit (s ++ [quote]) = some (s, []) ↔ quote ∉ s := by
  induction s with
  | nil => simp [readLit]
  | cons c cs ih =>
    by_cases hc : c = quote
    · subst hc
      constructor
      · intro h
        exfalso
        have := (readLit_some _ _ _ _ (Nat.le_refl _) h).1
        have hlen := congrArg List.length this
        have hd : ∀ l : List Char, l.length ≤ (doubled l).length := by
          intro l
          induction l with
          | nil => simp [doubled]
          | cons x l ih => rw [doubled_cons]; split <;> simp <;> omega
        have h1 := hd cs
        rw [doubled_cons] at hlen
        simp only [if_true, List.cons_append, List.length_cons, List.length_append, List.length_nil] at hlen
        omega
      · intro h; exact absurd List.mem_cons_self h
    · rw [List.cons_append, readLit_cons_ne c _ hc]
      constructor
      · intro h
        obtain ⟨⟨v, r⟩, hv, he⟩ := Option.map_eq_some_iff.1 h
        simp only [Prod.mk.injEq, List.cons.injEq, true_and] at he
        obtain ⟨rfl, rfl⟩ := he
        have := ih.1 hv
        simp only [List.mem_cons, not_or]
        exact ⟨fun h => hc h.symm, this⟩
      · intro h
        simp only [List.mem_cons, not_or] at h
        rw [ih.2 h.2]
        rfl

/-- A field forced to be a date without a datetime data type keeps the default 0, which PostgreSQL refuses for a date. -/
theorem pg_schema_forced_date_default :
    pgWriteSchema noReads asciiEnv [] ⟨[], .na, false, []⟩ [] [(("a", "x"), .date)] true
      [("a", ⟨["k"], ["x"], []⟩)] [] = none := by
  decide +kernel

/-- An infinite default without a numeric infinity flag is written as `inf`, which is no SQL. -/
theorem pg_schema_infinite_default :
    pgWriteSchema noReads asciiEnv [] ⟨[], .na, false, []⟩ [] [] true
      [("a", ⟨["k"], ["x"], [("x", .num .pinf)]⟩)] [] = none ∧
    pgWriteSchema noReads asciiEnv [] ⟨[], .none, false, []⟩ [] [] true
      [("a", ⟨["k"], ["x"], [("x", .num .pinf)]⟩)] [] = none ∧
    (pgWriteSchema noReads asciiEnv [] ⟨[], .num 1000, false, []⟩ [] [] true
      [("a", ⟨["k"], ["x"], [("x", .num .pinf)]⟩)] []).isSome = true := by
  refine ⟨?_, ?_, ?_⟩ <;> decide +kernel

/-- Without keys the declared parameters are forgotten: the value column of the parameters table is a `float`, with keys it
is a `text`, so text parameters cannot be stored in the schema without keys. -/
theorem pg_schema_bare_parameters :
    ((pgWriteSchema noReads asciiEnv [] ⟨[], .na, false, [(.str "p", (none, .num (.fin 1)))]⟩ [] [] true
      [("parameters", ⟨["k"], ["v"], []⟩)] []).map (fun r => r.map (fun d => d.columns.map PgCol.type))) =
        some [[.text, .text]] ∧
    ((pgWriteSchema noReads asciiEnv [] ⟨[], .na, false, [(.str "p", (none, .num (.fin 1)))]⟩ [] [] false
      [("parameters", ⟨["k"], ["v"], []⟩)] []).map (fun r => r.map (fun d => d.columns.map PgCol.type))) =
        some [[.text, .float]] := by
  refine ⟨?_, ?_⟩ <;> decide +kernel

/-- Infinity is a valid value of an integer field with an inclusive infinite maximum, but without a flag it is written as
it is into an `integer` column, which cannot hold it; the same with the null flag if the field is nullable. -/
theorem pg_integer_column_infinity :
    pgInt.validData unaryText.parses (.num .pinf) = true ∧
    pgFldType ⟨[("a", [("x", pgInt)])], .na, false, []⟩ [] "a" "x" .float = some .integer ∧
    writeCell unaryText ⟨[("a", [("x", pgInt)])], .na, false, []⟩ "a" "x" (.num .pinf) = some (.num .pinf) ∧
    pgIntNull.validData unaryText.parses (.num .pinf) = true ∧
    writeCell unaryText ⟨[("a", [("x", pgIntNull)])], .none, false, []⟩ "a" "x" (.num .pinf) = some (.num .pinf) ∧
    ∀ col key, col.type = .integer → ¬ PgHolds col key (.num .pinf) := by
  refine ⟨?_, ?_, ?_, ?_, ?_, ?_⟩
  · decide +kernel
  · decide +kernel
  · decide +kernel
  · decide +kernel
  · decide +kernel
  · intro col key hc h
    rcases h with ⟨h, _⟩ | ⟨_, s, h⟩ | ⟨_, y, h, n, hn⟩ | ⟨h, _⟩ | ⟨_, d, h⟩
    · cases h
    · cases h
    · cases h; cases hn
    · rw [hc] at h; cases h
    · cases h

/-- With the null flag an infinite key is written as a null, which no primary key column holds. -/
theorem pg_key_infinity_null :
    pgInt.validData unaryText.parses (.num .pinf) = true ∧
    writeCell unaryText ⟨[("a", [("x", pgInt)])], .none, false, []⟩ "a" "x" (.num .pinf) = some .none ∧
    ∀ col, ¬ PgHolds col true .none := by
  refine ⟨?_, ?_, ?_⟩
  · decide +kernel
  · decide +kernel
  · intro col h
    rcases h with ⟨_, _, h⟩ | ⟨_, s, h⟩ | ⟨_, y, h, _⟩ | ⟨_, y, h⟩ | ⟨_, d, h⟩ <;> cases h

end Ticdat

import Verif.Model.Logs
import Verif.Spec.Logs
/-!
# C84: progress reports; C85: logged tables
-/
set_option linter.unusedSimpArgs false
namespace Ticdat
open Spec

/-! ### C84: progress -/

/-- **C84, what `mip_progress` accepts.**  Exactly a string and two numbers (no NaN), of which the lower bound is not `inf` and exceeds
the upper bound by at most a 100000th of its size. -/
theorem mip_progress_accepts_iff (fmt : Cell → List Char) (quiet : Bool) (theme lb ub : Cell) :
    (∃ r, mipProgress fmt quiet theme lb ub = some r) ↔
      ∃ s l u, theme = .str s ∧ lb = .num l ∧ ub = .num u ∧
        (l = .ninf ∨ ∃ q, l = .fin q ∧ (u = .pinf ∨ ∃ r, u = .fin r ∧ q - (if 0 ≤ q then q else -q) / 100000 ≤ r)) := by
  constructor
  · rintro ⟨r, h⟩
    unfold mipProgress at h
    split at h
    · rename_i s
      split at h
      · simp at h
      · split at h
        · rename_i l u _
          split at h
          · simp at h
          · rename_i hb
            refine ⟨s, l, u, rfl, rfl, rfl, ?_⟩
            cases l with
            | pinf => simp [boundsOK] at hb
            | ninf => exact .inl rfl
            | fin q =>
              refine .inr ⟨q, rfl, ?_⟩
              cases u with
              | pinf => exact .inl rfl
              | ninf => simp [boundsOK] at hb
              | fin r =>
                refine .inr ⟨r, rfl, ?_⟩
                simp only [boundsOK, Bool.not_eq_true', decide_eq_false_iff_not, Classical.not_not] at hb
                grind
        · simp at h
    · simp at h
  · rintro ⟨s, l, u, rfl, rfl, rfl, h⟩
    have hb : boundsOK l u = true := by
      rcases h with rfl | ⟨q, rfl, rfl | ⟨r, rfl, h⟩⟩
      · rfl
      · rfl
      · simp only [boundsOK, decide_eq_true_eq]
        grind
    unfold mipProgress
    simp [Cell.numericish, hb]

/-- A lower bound that is at most the upper bound is accepted, unless it is `inf`. -/
theorem mip_progress_ordered (fmt : Cell → List Char) (quiet : Bool) (s : String) (l u : XNum) (h : NumLe l u) (hl : l ≠ .pinf) :
    ∃ r, mipProgress fmt quiet (.str s) (.num l) (.num u) = some r := by
  refine (mip_progress_accepts_iff _ _ _ _ _).2 ⟨s, l, u, rfl, rfl, rfl, ?_⟩
  cases l with
  | pinf => exact absurd rfl hl
  | ninf => exact .inl rfl
  | fin q =>
    refine .inr ⟨q, rfl, ?_⟩
    cases u with
    | pinf => exact .inl rfl
    | ninf => exact h.elim
    | fin r =>
      refine .inr ⟨r, rfl, ?_⟩
      have h : q ≤ r := h
      grind

example : NumLe (.fin 3) (.fin 5) ∧ (XNum.fin 3) ≠ .pinf := ⟨by unfold NumLe; grind, by simp⟩

theorem take_ljust {n : Nat} {s t : List Char} (h : s.length ≤ n) : (ljust n s ++ t).take n = s ++ List.replicate (n - s.length) ' ' := by
  have : (ljust n s).length = n := by simp [ljust]; omega
  rw [List.take_append_of_le_length (by omega), List.take_of_length_le (by omega)]
  rfl

theorem rstrip_pad (s : List Char) (k : Nat) : rstrip (s ++ List.replicate k ' ') = rstrip s := by
  unfold rstrip
  rw [List.reverse_append, List.reverse_replicate]
  congr 1
  induction k with
  | zero => rfl
  | succ k ih => rw [List.replicate_succ, List.cons_append, List.dropWhile_cons_of_pos (by decide)]; exact ih

/-- **C84, what is printed.**  A quiet object prints nothing, and otherwise one line, that shows the theme (up to 30 characters) in the
first 30 characters, the lower bound in the 20 after a colon, and the upper bound after another colon.  The result is always `True`. -/
theorem mip_progress_prints (fmt : Cell → List Char) (quiet : Bool) (s : String) (lb ub : Cell) (r : Printed)
    (h : mipProgress fmt quiet (.str s) lb ub = some r) :
    r.keepGoing = true ∧ (quiet = true → r.lines = []) ∧
    (quiet = false → ∃ line, r.lines = [line] ∧
      (s.toList.length ≤ 30 → rstrip (line.take 30) = rstrip s.toList ∧ (line.drop 30).take 1 = [':'] ∧
        ((fmt lb).length ≤ 20 → rstrip ((line.drop 31).take 20) = rstrip (fmt lb) ∧ line.drop 51 = ':' :: fmt ub))) := by
  unfold mipProgress at h
  simp only at h
  split at h
  · simp at h
  · split at h
    · split at h
      · simp at h
      · simp only [Option.some.injEq] at h
        subst h
        refine ⟨rfl, fun hq => by simp [hq], fun hq => ?_⟩
        subst hq
        rename_i l u _ _
        refine ⟨_, rfl, fun hs => ?_⟩
        have e1 : (ljust 30 s.toList).length = 30 := by simp only [ljust, List.length_append, List.length_replicate]; omega
        have d1 : ∀ t, (ljust 30 s.toList ++ t).drop 30 = t := fun t => by
          rw [List.drop_append_of_le_length (by omega), List.drop_of_length_le (by omega)]; rfl
        simp only [List.append_assoc]
        refine ⟨by rw [take_ljust hs, rstrip_pad], by rw [d1]; rfl, fun hf => ?_⟩
        have e2 : (ljust 20 (fmt (.num l))).length = 20 := by simp only [ljust, List.length_append, List.length_replicate]; omega
        have d31 : ∀ t, (ljust 30 s.toList ++ ([':'] ++ t)).drop 31 = t := fun t => by
          rw [show 31 = 30 + 1 from rfl, ← List.drop_drop, d1]; rfl
        refine ⟨by rw [d31, take_ljust hf, rstrip_pad], ?_⟩
        rw [show 51 = 31 + 20 from rfl, ← List.drop_drop, d31, List.drop_append_of_le_length (by omega), List.drop_of_length_le (by omega)]
        rfl
    · simp at h

/-- `numerical_progress` accepts exactly a string and a number (also NaN), prints at most one line and returns `True`. -/
theorem numerical_progress_spec (fmt : Cell → List Char) (quiet : Bool) (theme p : Cell) :
    ((∃ r, numericalProgress fmt quiet theme p = some r) ↔ (∃ s, theme = .str s) ∧ (p = .nan ∨ ∃ x, p = .num x)) ∧
    ∀ r, numericalProgress fmt quiet theme p = some r → r.keepGoing = true ∧ r.lines.length = if quiet then 0 else 1 := by
  constructor
  · constructor
    · rintro ⟨r, h⟩
      unfold numericalProgress at h
      split at h
      · rename_i s
        split at h
        · simp at h
        · rename_i hp
          refine ⟨⟨s, rfl⟩, ?_⟩
          cases p <;> simp_all [Cell.numericish]
      · simp at h
    · rintro ⟨⟨s, rfl⟩, rfl | ⟨x, rfl⟩⟩ <;> exact ⟨_, rfl⟩
  · intro r h
    unfold numericalProgress at h
    split at h
    · split at h
      · simp at h
      · simp only [Option.some.injEq] at h
        subst h
        exact ⟨rfl, by cases quiet <;> rfl⟩
    · simp at h

/-- **C84, callbacks.**  Whatever `mip_progress` does, the callbacks give it the bound and the objective of the solver in the order of
the sense, and stop the solver exactly if it does not return true. -/
theorem callbacks_pass_bounds (progress : Cell → Cell → Option Bool) (bound objective : Cell) :
    gurobiCallback progress true true bound objective = (progress bound objective).map not ∧
    gurobiCallback progress false true bound objective = (progress objective bound).map not ∧
    (∀ sense, gurobiCallback progress sense false bound objective = some false) ∧
    xpressCallback progress true bound objective = (progress bound objective).map not ∧
    xpressCallback progress false bound objective = (progress objective bound).map not ∧
    cplexListener progress true bound (some objective) = (progress bound objective).map not ∧
    cplexListener progress false bound (some objective) = (progress objective bound).map not := by
  refine ⟨rfl, rfl, fun _ => rfl, ?_, ?_, rfl, rfl⟩
  · show (progress bound objective).map _ = _
    congr 1; funext b; cases b <;> rfl
  · show (progress objective bound).map _ = _
    congr 1; funext b; cases b <;> rfl

/-- `mip_progress` of a `Progress` object, as the callbacks see it. -/
def baseProgress (fmt : Cell → List Char) (quiet : Bool) (theme : String) (lb ub : Cell) : Option Bool :=
  (mipProgress fmt quiet (.str theme) lb ub).map (·.keepGoing)

theorem baseProgress_ordered (fmt : Cell → List Char) (quiet : Bool) (theme : String) (l u : XNum) (h : NumLe l u) (hl : l ≠ .pinf) :
    baseProgress fmt quiet theme (.num l) (.num u) = some true := by
  obtain ⟨r, hr⟩ := mip_progress_ordered fmt quiet theme l u h hl
  unfold baseProgress
  rw [hr]
  simp [(mip_progress_prints fmt quiet theme _ _ r hr).1]

/-- **C84, a solver that reports correct bounds is never disturbed.**  If the bound is on the right side of the objective for the sense
(and the lower of both is not `inf`), then no callback raises or stops the solver. -/
theorem callbacks_never_disturb (fmt : Cell → List Char) (quiet : Bool) (theme : String) (minimize : Bool) (bound objective : XNum)
    (h : if minimize then NumLe bound objective ∧ bound ≠ .pinf else NumLe objective bound ∧ objective ≠ .pinf) (mip : Bool) :
    gurobiCallback (baseProgress fmt quiet theme) minimize mip (.num bound) (.num objective) = some false ∧
    xpressCallback (baseProgress fmt quiet theme) minimize (.num bound) (.num objective) = some false ∧
    cplexListener (baseProgress fmt quiet theme) minimize (.num bound) (some (.num objective)) = some false := by
  have hc := callbacks_pass_bounds (baseProgress fmt quiet theme) (.num bound) (.num objective)
  cases minimize with
  | true =>
    have h : NumLe bound objective ∧ bound ≠ .pinf := h
    have e := baseProgress_ordered fmt quiet theme _ _ h.1 h.2
    refine ⟨?_, by rw [hc.2.2.2.1, e]; rfl, by rw [hc.2.2.2.2.2.1, e]; rfl⟩
    cases mip with
    | true => rw [hc.1, e]; rfl
    | false => rfl
  | false =>
    have h : NumLe objective bound ∧ objective ≠ .pinf := h
    have e := baseProgress_ordered fmt quiet theme _ _ h.1 h.2
    refine ⟨?_, by rw [hc.2.2.2.2.1, e]; rfl, by rw [hc.2.2.2.2.2.2, e]; rfl⟩
    cases mip with
    | true => rw [hc.2.1, e]; rfl
    | false => rfl

example : NumLe (.fin 2) .pinf ∧ (XNum.fin 2) ≠ .pinf := ⟨trivial, by simp⟩

/-- **Finding.**  Before cplex has a first solution, the listener always raises: it passes a dictionary instead of an infinity. -/
theorem cplex_listener_raises (fmt : Cell → List Char) (quiet : Bool) (theme : String) (minimize : Bool) (bound : Cell) :
    cplexListener (baseProgress fmt quiet theme) minimize bound none = none := by
  have : ∀ lb ub, lb = dictArg ∨ ub = dictArg → baseProgress fmt quiet theme lb ub = none := by
    intro lb ub h
    cases e : mipProgress fmt quiet (.str theme) lb ub with
    | none => unfold baseProgress; rw [e]; rfl
    | some r =>
      obtain ⟨_, _, _, _, rfl, rfl, _⟩ := (mip_progress_accepts_iff _ _ _ _ _).1 ⟨r, e⟩
      simp [dictArg] at h
  cases minimize with
  | true => show (baseProgress fmt quiet theme bound dictArg).map not = none; rw [this _ _ (.inr rfl)]; rfl
  | false => show (baseProgress fmt quiet theme dictArg bound).map not = none; rw [this _ _ (.inl rfl)]; rfl

/-- **Finding.**  `inf` as lower bound is refused even if the upper bound is `inf`. -/
theorem mip_progress_inf (fmt : Cell → List Char) (quiet : Bool) (theme ub : Cell) :
    mipProgress fmt quiet theme (.num .pinf) ub = none := by
  cases e : mipProgress fmt quiet theme (.num .pinf) ub with
  | none => rfl
  | some r =>
    obtain ⟨_, l, _, _, hl, _, h⟩ := (mip_progress_accepts_iff _ _ _ _ _).1 ⟨r, e⟩
    simp only [Cell.num.injEq] at hl
    subst hl
    simp at h

/-! ### C85: logged tables -/

/-- **C85, what is refused.** -/
theorem log_table_raises_iff (formatter : Cell → List Char) (hasFile : Bool) (name : List Char) (seq : List (List Cell)) (maxWrite : Int) :
    logTable formatter hasFile name seq maxWrite = none ↔ seq = [] ∨ ∃ a ∈ seq, ∃ b ∈ seq, a.length ≠ b.length := by
  cases seq with
  | nil => simp [logTable]
  | cons header rest =>
    unfold logTable
    simp only
    split
    · rename_i hall
      have hall : ∀ r ∈ header :: rest, r.length = header.length := by
        intro r hr
        rcases List.mem_cons.1 hr with rfl | hr
        · rfl
        · simpa using List.all_eq_true.1 hall r hr
      constructor
      · intro h
        split at h <;> simp at h
      · rintro (h | ⟨a, ha, b, hb, h⟩)
        · simp at h
        · exact absurd ((hall a ha).trans (hall b hb).symm) h
    · rename_i hall
      refine ⟨fun _ => .inr ?_, fun _ => rfl⟩
      simp only [List.all_eq_true, beq_iff_eq, Classical.not_forall] at hall
      obtain ⟨r, hr, h⟩ := hall
      exact ⟨r, List.mem_cons_of_mem _ hr, header, List.mem_cons_self, h⟩

theorem rowLine_column (formatter : Cell → List Char) (w : Nat) : ∀ (row : List Cell), (∀ c ∈ row, (formatter c).length ≤ w) →
    ∀ j (hj : j < row.length), rstrip (textColumn w j (rowLine formatter w row)) = rstrip (formatter row[j])
  | [], _, j, hj => absurd hj (Nat.not_lt_zero _)
  | c :: row, h, 0, _ => by
    unfold textColumn rowLine
    simp only [Nat.zero_mul, List.drop_zero, List.map_cons, List.flatten_cons, List.getElem_cons_zero]
    rw [take_ljust (h c List.mem_cons_self), rstrip_pad]
  | c :: row, h, j + 1, hj => by
    have ih := rowLine_column formatter w row (fun d hd => h d (List.mem_cons_of_mem _ hd)) j (by simpa using hj)
    rw [List.getElem_cons_succ, ← ih]
    have hw := h c List.mem_cons_self
    have hlen : (ljust w (formatter c)).length = w := by simp only [ljust, List.length_append, List.length_replicate]; omega
    unfold textColumn
    congr 2
    show List.drop ((j + 1) * w) (ljust w (formatter c) ++ rowLine formatter w row) = _
    have hd : ∀ t, (ljust w (formatter c) ++ t).drop w = t := fun t => by
      rw [List.drop_append_of_le_length (by omega), List.drop_of_length_le (by omega)]; rfl
    rw [Nat.add_mul, Nat.one_mul, Nat.add_comm, ← List.drop_drop, hd]

theorem pySliceTo_nat {A : Type} (m : Nat) (l : List A) : pySliceTo ((m : Int) + 1) l = l.take (m + 1) := by
  unfold pySliceTo
  rw [if_pos (by omega)]
  congr 1

/-- **C85, what a logged table shows.**  For a table with rows of equal length, and at most `m` rows to show: a title, a note exactly if
rows are left out, then the header and the first `m` rows, one line each and in their order, and an empty line.  In a line whose cells
fit into the columns of 30, 25, 20 or 18 characters, each column shows its cell. -/
theorem log_table_shows (formatter : Cell → List Char) (name : List Char) (header : List Cell) (rest : List (List Cell)) (m : Nat)
    (h : ∀ r ∈ rest, r.length = header.length) (w : Nat) (hw : LogWidth header.length w) :
    ∃ note body, logTable formatter true name (header :: rest) m = some (("Table ".toList ++ name ++ [':']) :: (note ++ body ++ [[]])) ∧
      (note = [] ↔ rest.length ≤ m) ∧ note.length ≤ 1 ∧
      body.length = min m rest.length + 1 ∧
      ∀ i (hi : i < body.length) (hi' : i < (header :: rest).length),
        (∀ c ∈ (header :: rest)[i], (formatter c).length ≤ w) →
        ∀ j (hj : j < (header :: rest)[i].length),
          rstrip (textColumn w j body[i]) = rstrip (formatter ((header :: rest)[i])[j]) := by
  have hw : w = columnWidth header.length := by
    unfold columnWidth
    rcases hw with ⟨h1, rfl⟩ | ⟨h1, rfl⟩ | ⟨h1, rfl⟩ | ⟨h1, rfl⟩
    · rw [if_pos h1]
    · rw [h1]; rfl
    · rw [h1]; rfl
    · rw [if_neg (by omega), if_neg (by omega), if_neg (by omega)]
  subst hw
  refine ⟨if (rest.length : Int) > m then
            ["(Showing first ".toList ++ intText m ++ " entries out of ".toList ++ intText rest.length ++ " in total)".toList]
          else [], (pySliceTo ((m : Int) + 1) (header :: rest)).map (rowLine formatter (columnWidth header.length)), ?_, ?_, ?_, ?_, ?_⟩
  · unfold logTable
    simp only
    rw [if_pos (by simpa using h), if_pos trivial]
    simp
  · split
    · simp; omega
    · simp; omega
  · split <;> simp
  · rw [pySliceTo_nat]
    simp
  · intro i hi hi' hc j hj
    rw [List.getElem_map]
    have : (pySliceTo ((m : Int) + 1) (header :: rest))[i]'(by simpa using hi) = (header :: rest)[i] := by
      simp only [pySliceTo_nat, List.getElem_take]
    rw [this]
    exact rowLine_column formatter _ _ hc j hj

example : ∀ r ∈ [[Cell.str "a", .none], [.str "b", .nan]], r.length = [Cell.str "x", .str "y"].length := by simp
example : LogWidth [Cell.str "x", .str "y"].length 30 := .inl ⟨by simp, rfl⟩

/-- A `LogFile` without path checks its arguments and writes nothing. -/
theorem log_table_no_file (formatter : Cell → List Char) (name : List Char) (seq : List (List Cell)) (maxWrite : Int) :
    logTable formatter false name seq maxWrite = none ∨ logTable formatter false name seq maxWrite = some [] := by
  unfold logTable
  cases seq with
  | nil => exact .inl rfl
  | cons a l =>
    simp only
    split
    · exact .inr rfl
    · exact .inl rfl

/-- **Finding.**  Cells that fill their column run into the next one: different tables are logged alike. -/
theorem log_table_ambiguous :
    ∃ (formatter : Cell → List Char) (a b : List Cell), a.map formatter ≠ b.map formatter ∧ a.length = b.length ∧
      ∀ name, logTable formatter true name [a] 10 = logTable formatter true name [b] 10 := by
  refine ⟨fun c => match c with | .other n => List.replicate n 'x' | _ => [], [.other 31, .other 30], [.other 30, .other 31], by decide, rfl, ?_⟩
  intro name
  have : ∀ x y : List Char, x = y → some (["Table ".toList ++ name ++ [':']] ++ ([] : List (List Char)) ++ [x] ++ [[]]) =
    some (["Table ".toList ++ name ++ [':']] ++ [] ++ [y] ++ [[]]) := fun x y e => by rw [e]
  exact this _ _ (by decide)

/-- **Finding.**  With a `max_write` of -2 or less, rows are left out from the end: the longer the table, the more of it is logged. -/
theorem log_table_negative (formatter : Cell → List Char) (name : List Char) (header : List Cell) (rest : List (List Cell)) (k : Nat)
    (hk : 1 ≤ k) (h : ∀ r ∈ rest, r.length = header.length) :
    ∃ title note, logTable formatter true name (header :: rest) (-((k : Int) + 1)) =
      some ([title, note] ++ ((header :: rest).take (rest.length + 1 - k)).map (rowLine formatter (columnWidth header.length)) ++ [[]]) := by
  have e : pySliceTo (-((k : Int) + 1) + 1) (header :: rest) = (header :: rest).take (rest.length + 1 - k) := by
    unfold pySliceTo
    rw [if_neg (by omega)]
    congr 1
    simp only [List.length_cons]
    omega
  refine ⟨"Table ".toList ++ name ++ [':'],
    "(Showing first ".toList ++ intText (-((k : Int) + 1)) ++ " entries out of ".toList ++ intText rest.length ++ " in total)".toList, ?_⟩
  unfold logTable
  simp only
  rw [if_pos (by simpa using h), if_pos trivial, if_pos (by omega), e]
  rfl

end Ticdat

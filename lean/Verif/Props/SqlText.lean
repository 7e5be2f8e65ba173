import Verif.Model.SqlText
import Verif.Spec.SqlText
/-!
# C23: strings in `.sql` files
-/
namespace Ticdat

open Spec

theorem doubled_cons (c : Char) (x : List Char) :
    doubled (c :: x) = (if c = quote then [quote, quote] else [c]) ++ doubled x := by simp [doubled]

theorem fixGo_length_le (prev : Char) (x : List Char) : (fixGo prev x).length ≤ (doubled x).length := by
  induction x generalizing prev with
  | nil => simp [fixGo]
  | cons c cs ih =>
    have := ih c
    rw [doubled_cons]
    simp only [fixGo, List.length_append]
    by_cases hc : c = quote
    · simp only [hc, if_true]
      rw [hc] at this
      split <;> simp <;> omega
    · simp [hc]; exact this

/-- No quote of the text is left single. -/
def NoRaw (prev : Char) : List Char → Prop
  | [] => True
  | c :: cs => (c = quote → prev ≠ quote ∧ cs.head? ≠ some quote) ∧ NoRaw c cs

theorem fixGo_eq_doubled_iff (prev : Char) (x : List Char) : fixGo prev x = doubled x ↔ NoRaw prev x := by
  induction x generalizing prev with
  | nil => simp [fixGo, doubled, NoRaw]
  | cons c cs ih =>
    rw [doubled_cons]
    simp only [fixGo, NoRaw]
    by_cases hc : c = quote
    · subst hc
      by_cases hr : prev = quote ∨ cs.head? = some quote
      · have hlen := fixGo_length_le quote cs
        constructor
        · intro h
          have := congrArg List.length h
          simp [hr] at this
          omega
        · rintro ⟨h, _⟩
          exact absurd hr (by simpa [not_or] using h rfl)
      · have hr' := not_or.mp hr
        simp [hr, hr', ih quote]
    · simp [hc, ih c]

theorem fixGo_eq_of_length (prev : Char) (x : List Char) (h : (fixGo prev x).length = (doubled x).length) :
    NoRaw prev x := by
  induction x generalizing prev with
  | nil => simp [NoRaw]
  | cons c cs ih =>
    rw [doubled_cons] at h
    simp only [fixGo, List.length_append] at h
    have hle := fixGo_length_le c cs
    simp only [NoRaw]
    by_cases hc : c = quote
    · subst hc
      by_cases hr : prev = quote ∨ cs.head? = some quote
      · simp [hr] at h; omega
      · have hr' := not_or.mp hr
        simp [hr] at h
        exact ⟨fun _ => hr', ih quote (by omega)⟩
    · simp [hc] at h ⊢
      exact ih c (by omega)

theorem noRaw_iff (prev : Char) (x : List Char) : NoRaw prev x ↔
    (∀ i : Nat, x[i]? = some quote → x[i + 1]? ≠ some quote) ∧ (x.head? = some quote → prev ≠ quote) := by
  induction x generalizing prev with
  | nil => simp [NoRaw]
  | cons c cs ih =>
    simp only [NoRaw, ih c]
    constructor
    · rintro ⟨h1, h2, h3⟩
      refine ⟨fun i hi => ?_, fun h => (h1 (by simpa using h)).1⟩
      cases i with
      | zero =>
        simp only [List.getElem?_cons_zero, Option.some.injEq] at hi
        have := (h1 hi).2
        simpa [List.head?_eq_getElem?] using this
      | succ i => simpa using h2 i (by simpa using hi)
    · rintro ⟨h1, h2⟩
      refine ⟨fun hc => ⟨h2 (by simp [hc]), ?_⟩, fun i hi => by simpa using h1 (i + 1) (by simpa using hi), ?_⟩
      · have := h1 0 (by simp [hc])
        simpa [List.head?_eq_getElem?] using this
      · intro hh hc
        have := h1 0 (by simp [hc])
        rw [List.head?_eq_getElem?] at hh
        exact this (by simpa using hh)

theorem fixStr_eq_doubled_iff (x : List Char) : fixStr x = doubled x ↔ ¬ AdjacentQuotes x := by
  unfold fixStr
  cases hl : x.getLast? with
  | none =>
    rw [List.getLast?_eq_none_iff] at hl
    subst hl
    simp [doubled, AdjacentQuotes]
  | some l =>
    simp only
    rw [fixGo_eq_doubled_iff, noRaw_iff]
    have hlast : x[x.length - 1]? = some l := by rw [← List.getLast?_eq_getElem?]; exact hl
    have hpos : 0 < x.length := by
      cases x with
      | nil => simp at hl
      | cons => simp
    constructor
    · rintro ⟨h1, h2⟩ ⟨i, hi, hq, hq'⟩
      by_cases he : i + 1 < x.length
      · rw [Nat.mod_eq_of_lt he] at hq'
        exact h1 i hq hq'
      · have : i + 1 = x.length := by omega
        rw [this, Nat.mod_self] at hq'
        apply h2 (by rw [List.head?_eq_getElem?]; exact hq')
        have hi' : i = x.length - 1 := by omega
        rw [hi', hlast] at hq
        exact Option.some.inj hq
    · intro h
      refine ⟨fun i hi hi' => h ⟨i, ?_, hi, ?_⟩, fun hh hlq => h ⟨x.length - 1, by omega, ?_, ?_⟩⟩
      · exact (List.getElem?_eq_some_iff.mp hi).1
      · rw [Nat.mod_eq_of_lt (List.getElem?_eq_some_iff.mp hi').1]; exact hi'
      · rw [hlast, hlq]
      · rw [Nat.sub_add_cancel hpos, Nat.mod_self, ← List.head?_eq_getElem?]; exact hh

theorem fixStr_length_le (x : List Char) : (fixStr x).length ≤ (doubled x).length := by
  unfold fixStr
  split
  · simp
  · exact fixGo_length_le _ _

theorem fixStr_eq_of_length (x : List Char) (h : (fixStr x).length = (doubled x).length) : fixStr x = doubled x := by
  unfold fixStr at h ⊢
  cases hl : x.getLast? with
  | none =>
    rw [List.getLast?_eq_none_iff] at hl
    subst hl
    simp [doubled]
  | some l =>
    rw [hl] at h
    exact (fixGo_eq_doubled_iff l x).mpr (fixGo_eq_of_length l x h)

theorem mem_fixGo (c prev : Char) (x : List Char) : c ∈ fixGo prev x ↔ c ∈ x := by
  induction x generalizing prev with
  | nil => simp [fixGo]
  | cons d ds ih =>
    simp only [fixGo, List.mem_append, ih d, List.mem_cons]
    apply or_congr _ Iff.rfl
    split
    · simp
    · rename_i h
      have : d = quote := by
        refine Decidable.byContradiction (fun hd => h (.inl hd))
      simp [this]

theorem mem_fixStr (c : Char) (x : List Char) : c ∈ fixStr x ↔ c ∈ x := by
  unfold fixStr
  cases hl : x.getLast? with
  | none =>
    rw [List.getLast?_eq_none_iff] at hl
    subst hl
    simp
  | some l => exact mem_fixGo c l x

theorem mem_doubled (c : Char) (x : List Char) : c ∈ doubled x ↔ c ∈ x := by
  unfold doubled
  rw [List.mem_flatMap]
  constructor
  · rintro ⟨d, hd, h⟩
    split at h
    · rename_i e; simp at h; rw [h, ← e]; exact hd
    · simp at h; rw [h]; exact hd
  · intro h
    refine ⟨c, h, ?_⟩
    split
    · rename_i e; simp [e]
    · simp

/-! ### The reader -/

theorem readLit_cons_ne (c : Char) (cs : List Char) (h : c ≠ quote) :
    readLit (c :: cs) = (readLit cs).map (fun p => (c :: p.1, p.2)) := by
  rw [readLit.eq_def]
  simp only [if_neg h]

theorem readLit_doubled (x rest : List Char) (hr : rest.head? ≠ some quote) :
    readLit (doubled x ++ quote :: rest) = some (x, rest) := by
  induction x with
  | nil =>
    cases rest with
    | nil => simp [doubled, readLit]
    | cons d ds =>
      have : d ≠ quote := by simpa using hr
      simp [doubled, readLit, this]
  | cons c cs ih =>
    rw [doubled_cons]
    by_cases hc : c = quote
    · subst hc
      simp only [if_true, List.cons_append, List.nil_append]
      simp [readLit, ih]
    · simp only [hc, if_false, List.cons_append, List.nil_append]
      rw [readLit_cons_ne c _ hc, ih]
      rfl

theorem readLit_some (n : Nat) : ∀ (s x r : List Char), s.length ≤ n → readLit s = some (x, r) →
    s = doubled x ++ quote :: r ∧ r.head? ≠ some quote := by
  induction n with
  | zero =>
    intro s x r hn h
    have : s = [] := List.eq_nil_of_length_eq_zero (by omega)
    subst this
    simp [readLit] at h
  | succ n ih =>
    intro s x r hn h
    cases s with
    | nil => simp [readLit] at h
    | cons c cs =>
      by_cases hc : c = quote
      · subst hc
        cases cs with
        | nil => simp [readLit] at h; simp [h.1, h.2, doubled]
        | cons d ds =>
          by_cases hd : d = quote
          · subst hd
            simp only [readLit, if_true] at h
            cases hl : readLit ds with
            | none => rw [hl] at h; cases h
            | some p =>
              rw [hl] at h
              obtain ⟨h1, h2⟩ := ih ds p.1 p.2 (by simp at hn; omega) hl
              simp only [Option.map_some, Option.some.injEq, Prod.mk.injEq] at h
              obtain ⟨rfl, rfl⟩ := h
              refine ⟨?_, h2⟩
              rw [doubled_cons, if_pos rfl]
              rw [h1]
              simp
          · simp only [readLit, if_true, hd, if_false, Option.some.injEq, Prod.mk.injEq] at h
            obtain ⟨rfl, rfl⟩ := h
            exact ⟨by simp [doubled], by simpa using hd⟩
      · rw [readLit_cons_ne c _ hc] at h
        cases hl : readLit cs with
        | none => rw [hl] at h; cases h
        | some p =>
          rw [hl] at h
          obtain ⟨h1, h2⟩ := ih cs p.1 p.2 (by simp at hn; omega) hl
          simp only [Option.map_some, Option.some.injEq, Prod.mk.injEq] at h
          obtain ⟨rfl, rfl⟩ := h
          refine ⟨?_, h2⟩
          rw [doubled_cons, if_neg hc]
          rw [h1]
          simp

/-- **C23, one literal.**  What SQLite reads for a string written by `_insert_format`, followed by anything but a
quote, is that string exactly if the string has no adjacent quotes (its ends counted as adjacent). -/
theorem literal_round_trip_iff_partial (x rest : List Char) (hr : rest.head? ≠ some quote) :
    readLit (fixStr x ++ quote :: rest) = some (x, rest) ↔ ¬ AdjacentQuotes x := by
  rw [← fixStr_eq_doubled_iff]
  constructor
  · intro h
    have := (readLit_some _ _ x rest (Nat.le_refl _) h).1
    exact List.append_cancel_right this
  · intro h
    rw [h]
    exact readLit_doubled x rest hr

/-- A number or `null` as SQL: not empty and without the characters that separate values. -/
def Spec.BareOK (s : List Char) : Prop := s ≠ [] ∧ ',' ∉ s ∧ ')' ∉ s ∧ quote ∉ s ∧ ';' ∉ s

/-- The correct SQL text of a value. -/
def goodFormat : SqlVal → List Char
  | .text s => quote :: doubled s ++ [quote]
  | .bare s => s

/-- The correct SQL text of a list of values. -/
def goodValues : List SqlVal → List Char
  | [] => [')']
  | [v] => goodFormat v ++ [')']
  | v :: vs => goodFormat v ++ ',' :: goodValues vs

theorem readBare_append (s rest : List Char) (h1 : ',' ∉ s) (h2 : ')' ∉ s) (h3 : quote ∉ s)
    (hr : ∃ c r, rest = c :: r ∧ (c = ',' ∨ c = ')')) : readBare (s ++ rest) = (s, rest) := by
  induction s with
  | nil =>
    obtain ⟨c, r, rfl, hc⟩ := hr
    rcases hc with rfl | rfl <;> simp [readBare]
  | cons c cs ih =>
    simp only [List.mem_cons, not_or] at h1 h2 h3
    have := ih h1.2 h2.2 h3.2
    have hn : ¬ (c = ',' ∨ c = ')' ∨ c = quote) := by
      rintro (e | e | e)
      · exact h1.1 e.symm
      · exact h2.1 e.symm
      · exact h3.1 e.symm
    rw [List.cons_append, readBare, if_neg hn, this]

theorem readBare_eq (s : List Char) : (readBare s).1 ++ (readBare s).2 = s := by
  induction s with
  | nil => rfl
  | cons c cs ih =>
    unfold readBare
    split
    · rfl
    · simp [ih]

/-- The values of a row as far as they are ours to worry about. -/
def Spec.RowValsOK (vs : List SqlVal) : Prop := ∀ v ∈ vs, ∀ s, v = .bare s → BareOK s

theorem readVal_good (v : SqlVal) (hv : ∀ s, v = .bare s → BareOK s) (rest : List Char)
    (hr : ∃ c r, rest = c :: r ∧ (c = ',' ∨ c = ')')) : readVal (goodFormat v ++ rest) = some (v, rest) := by
  cases v with
  | text s =>
    have hq : rest.head? ≠ some quote := by
      obtain ⟨c, r, rfl, hc⟩ := hr
      rcases hc with rfl | rfl <;> simp [quote]
    have : goodFormat (.text s) ++ rest = quote :: (doubled s ++ quote :: rest) := by simp [goodFormat]
    rw [this]
    simp [readVal, readLit_doubled s rest hq]
  | bare s =>
    obtain ⟨hne, h1, h2, h3, _⟩ := hv s rfl
    have hb := readBare_append s rest h1 h2 h3 hr
    cases s with
    | nil => exact absurd rfl hne
    | cons c cs =>
      simp only [List.mem_cons, not_or] at h3
      simp only [goodFormat]
      show readVal (c :: (cs ++ rest)) = _
      rw [List.cons_append] at hb
      simp only [readVal, if_neg (fun e => h3.1 e.symm : ¬ c = quote), hb]

theorem readVal_some (s : List Char) (v : SqlVal) (r : List Char) (h : readVal s = some (v, r)) :
    s = goodFormat v ++ r := by
  unfold readVal at h
  split at h
  · cases h
  · rename_i c cs
    split at h
    · rename_i hc
      cases hl : readLit cs with
      | none => rw [hl] at h; cases h
      | some p =>
        rw [hl] at h
        simp only [Option.map_some, Option.some.injEq, Prod.mk.injEq] at h
        obtain ⟨rfl, rfl⟩ := h
        rw [(readLit_some _ cs p.1 p.2 (Nat.le_refl _) hl).1, hc]
        simp [goodFormat]
    · simp only [Option.some.injEq, Prod.mk.injEq] at h
      obtain ⟨rfl, rfl⟩ := h
      simp only [goodFormat]
      exact (readBare_eq _).symm

theorem readVals_good (vs : List SqlVal) (hv : RowValsOK vs) : readVals vs.length (goodValues vs) = some vs := by
  induction vs with
  | nil => simp [goodValues, readVals]
  | cons v vs ih =>
    have hv0 : ∀ s, v = .bare s → BareOK s := hv v (by simp)
    have hvs : RowValsOK vs := fun w hw => hv w (by simp [hw])
    cases vs with
    | nil =>
      simp only [goodValues, List.length_cons, List.length_nil, readVals]
      rw [readVal_good v hv0 [')'] ⟨')', [], rfl, .inr rfl⟩]
      rfl
    | cons w ws =>
      have h := ih hvs
      simp only [goodValues, List.length_cons] at h ⊢
      rw [readVals, readVal_good v hv0 _ ⟨',', _, rfl, .inl rfl⟩]
      simp only [h, Option.map_some]

theorem readVals_some (vs : List SqlVal) : ∀ (n : Nat) (s : List Char), readVals n s = some vs →
    vs.length = n ∧ s = goodValues vs := by
  induction vs with
  | nil =>
    intro n s h
    match n with
    | 0 =>
      simp only [readVals] at h
      split at h
      · rename_i e; exact ⟨rfl, e⟩
      · cases h
    | 1 =>
      simp only [readVals] at h
      split at h
      · cases h
      · split at h <;> cases h
    | n + 2 =>
      simp only [readVals] at h
      split at h
      · cases h
      · split at h
        · rename_i r' _
          cases hh : readVals (n + 1) r' with
          | none => rw [hh] at h; cases h
          | some l => rw [hh] at h; cases h
        · cases h
  | cons v vs ih =>
    intro n s h
    match n with
    | 0 =>
      simp only [readVals] at h
      split at h <;> cases h
    | 1 =>
      simp only [readVals] at h
      split at h
      · cases h
      · rename_i w r hw
        split at h
        · rename_i e
          cases h
          refine ⟨rfl, ?_⟩
          rw [readVal_some s v r hw, e]
          rfl
        · cases h
    | n + 2 =>
      simp only [readVals] at h
      split at h
      · cases h
      · rename_i w r hw
        split at h
        · rename_i r'
          cases hh : readVals (n + 1) r' with
          | none => rw [hh] at h; cases h
          | some l =>
            rw [hh] at h
            simp only [Option.map_some, Option.some.injEq, List.cons.injEq] at h
            obtain ⟨rfl, rfl⟩ := h
            obtain ⟨hl, hs⟩ := ih (n + 1) r' hh
            refine ⟨by simp [hl], ?_⟩
            rw [readVal_some s w _ hw, hs]
            cases l with
            | nil => simp at hl
            | cons => rfl
        · cases h

theorem insertFormat_length_le (v : SqlVal) : (insertFormat v).length ≤ (goodFormat v).length := by
  cases v with
  | text s => simp [insertFormat, goodFormat]; exact fixStr_length_le s
  | bare s => exact Nat.le_refl _

theorem valuesText_length_le (vs : List SqlVal) : (valuesText vs).length ≤ (goodValues vs).length := by
  induction vs with
  | nil => simp [valuesText, goodValues]
  | cons v vs ih =>
    have := insertFormat_length_le v
    cases vs with
    | nil => simp [valuesText, goodValues]; exact this
    | cons w ws =>
      simp only [valuesText, goodValues, List.length_append, List.length_cons] at ih ⊢
      omega

theorem insertFormat_eq_iff (v : SqlVal) :
    (insertFormat v).length = (goodFormat v).length ↔ ∀ s, v = .text s → ¬ AdjacentQuotes s := by
  cases v with
  | text s =>
    simp only [insertFormat, goodFormat, List.length_append, List.length_cons, SqlVal.text.injEq, forall_eq']
    rw [← fixStr_eq_doubled_iff]
    constructor
    · intro h; exact fixStr_eq_of_length s (by simpa using h)
    · intro h; rw [h]
  | bare s => simp [insertFormat, goodFormat]

theorem valuesText_good_iff (vs : List SqlVal) :
    valuesText vs = goodValues vs ↔ ∀ v ∈ vs, ∀ s, v = .text s → ¬ AdjacentQuotes s := by
  have eqF : ∀ v, (∀ s, v = .text s → ¬ AdjacentQuotes s) → insertFormat v = goodFormat v := by
    intro v h
    cases v with
    | text s => simp [insertFormat, goodFormat, (fixStr_eq_doubled_iff s).mpr (h s rfl)]
    | bare s => rfl
  have lenF : ∀ vs, (valuesText vs).length = (goodValues vs).length →
      ∀ v ∈ vs, ∀ s, v = .text s → ¬ AdjacentQuotes s := by
    intro vs
    induction vs with
    | nil => simp
    | cons v vs ih =>
      intro h
      have hv := insertFormat_length_le v
      have hvs := valuesText_length_le vs
      have : (insertFormat v).length = (goodFormat v).length ∧ (valuesText vs).length = (goodValues vs).length := by
        cases vs with
        | nil => simp [valuesText, goodValues] at h ⊢; exact h
        | cons w ws =>
          simp only [valuesText, goodValues, List.length_append, List.length_cons] at h hvs ⊢
          omega
      intro w hw
      rcases List.mem_cons.mp hw with rfl | hw
      · exact (insertFormat_eq_iff w).mp this.1
      · exact ih this.2 w hw
  constructor
  · intro h; exact lenF vs (by rw [h])
  · intro h
    induction vs with
    | nil => rfl
    | cons v vs ih =>
      have hi := ih (fun w hw => h w (by simp [hw]))
      have hv := eqF v (h v (by simp))
      cases vs with
      | nil => simp [valuesText, goodValues, hv]
      | cons w ws => simp only [valuesText, goodValues] at hi ⊢; rw [hv, hi]

theorem semi_mem_format (c : Char) (hc : c ≠ quote) (v : SqlVal) :
    (c ∈ insertFormat v ↔ c ∈ goodFormat v) ∧ (c ∈ goodFormat v ↔ ∃ s, (v = .text s ∨ v = .bare s) ∧ c ∈ s) := by
  cases v with
  | text s =>
    simp only [insertFormat, goodFormat, List.mem_append, List.mem_cons, mem_fixStr, mem_doubled, hc, false_or]
    simp
  | bare s => simp [insertFormat, goodFormat]

theorem semi_mem_values (vs : List SqlVal) (hv : RowValsOK vs) :
    (';' ∈ valuesText vs ↔ ';' ∈ goodValues vs) ∧ (';' ∈ goodValues vs ↔ ∃ s, SqlVal.text s ∈ vs ∧ ';' ∈ s) := by
  induction vs with
  | nil => simp [valuesText, goodValues]
  | cons v vs ih =>
    have hvs : RowValsOK vs := fun w hw => hv w (by simp [hw])
    obtain ⟨i1, i2⟩ := ih hvs
    obtain ⟨s1, s2⟩ := semi_mem_format ';' (by decide) v
    have s2' : ';' ∈ goodFormat v ↔ ∃ s, v = SqlVal.text s ∧ ';' ∈ s := by
      rw [s2]
      constructor
      · rintro ⟨s, h | h, hs⟩
        · exact ⟨s, h, hs⟩
        · exact absurd hs (hv v (by simp) s h).2.2.2.2
      · rintro ⟨s, h, hs⟩; exact ⟨s, .inl h, hs⟩
    have hsplit : (∃ s, SqlVal.text s ∈ v :: vs ∧ ';' ∈ s) ↔
        (∃ s, v = SqlVal.text s ∧ ';' ∈ s) ∨ ∃ s, SqlVal.text s ∈ vs ∧ ';' ∈ s := by
      constructor
      · rintro ⟨s, h, hs⟩
        rcases List.mem_cons.mp h with h | h
        · exact .inl ⟨s, h.symm, hs⟩
        · exact .inr ⟨s, h, hs⟩
      · rintro (⟨s, h, hs⟩ | ⟨s, h, hs⟩)
        · exact ⟨s, by simp [h], hs⟩
        · exact ⟨s, by simp [h], hs⟩
    rw [hsplit]
    cases vs with
    | nil =>
      simp only [valuesText, goodValues, List.mem_append, s1, s2']
      simp
    | cons w ws =>
      simp only [valuesText, goodValues, List.mem_append, List.mem_cons] at i1 i2 ⊢
      rw [s1, i1, i2, s2']
      simp

theorem splitSemi_ne_nil (s : List Char) : splitSemi s ≠ [] := by
  cases s with
  | nil => simp [splitSemi]
  | cons c cs =>
    simp only [splitSemi]
    split
    · simp
    · split <;> simp

theorem splitSemi_first (s : List Char) : ∃ ps, splitSemi s = s.takeWhile (fun c => decide (c ≠ ';')) :: ps := by
  induction s with
  | nil => exact ⟨[], rfl⟩
  | cons c cs ih =>
    obtain ⟨ps, h⟩ := ih
    by_cases hc : c = ';'
    · subst hc
      exact ⟨splitSemi cs, by simp [splitSemi]⟩
    · refine ⟨ps, ?_⟩
      simp only [splitSemi, if_neg hc, h]
      rw [List.takeWhile_cons_of_pos (by simpa using hc)]

theorem takeWhile_semi (s rest : List Char) (h : ';' ∉ s) :
    (s ++ ';' :: rest).takeWhile (fun c => decide (c ≠ ';')) = s := by
  induction s with
  | nil => simp
  | cons c cs ih =>
    simp only [List.mem_cons, not_or] at h
    rw [List.cons_append, List.takeWhile_cons_of_pos (by simpa using fun e => h.1 e.symm), ih h.2]

theorem not_mem_takeWhile_semi (s : List Char) : ';' ∉ s.takeWhile (fun c => decide (c ≠ ';')) := by
  induction s with
  | nil => simp
  | cons c cs ih =>
    by_cases hc : c = ';'
    · simp [hc]
    · rw [List.takeWhile_cons_of_pos (by simpa using hc), List.mem_cons, not_or]
      exact ⟨fun e => hc e.symm, ih⟩

/-- **C23.**  An insert statement written to a `.sql` file (followed by any other text) inserts, when the file is read, the
very values that were written exactly if no string value has adjacent quotes (its ends counted as adjacent) or a
semicolon.  So those strings survive, and *all* others do not. -/
theorem sql_file_row_iff_partial (pre : List Char) (hpre : ';' ∉ pre) (vs : List SqlVal) (hv : RowValsOK vs) (rest : List Char) :
    readFirstInsert pre vs.length (insertText pre vs ++ rest) = some vs ↔
      ∀ s, SqlVal.text s ∈ vs → ¬ AdjacentQuotes s ∧ ';' ∉ s := by
  obtain ⟨ps, hp⟩ := splitSemi_first (insertText pre vs ++ rest)
  unfold readFirstInsert
  rw [hp]
  simp only
  constructor
  · intro h
    split at h
    · rename_i hpf
      obtain ⟨_, hd⟩ := readVals_some vs _ _ h
      have hnosemi : ';' ∉ goodValues vs := by
        rw [← hd]
        intro hm
        exact not_mem_takeWhile_semi _ (List.mem_of_mem_drop hm)
      have hnt : ';' ∉ valuesText vs := fun hm => hnosemi ((semi_mem_values vs hv).1.mp hm)
      have htw : (insertText pre vs ++ rest).takeWhile (fun c => decide (c ≠ ';')) = pre ++ valuesText vs := by
        unfold insertText
        rw [List.append_assoc, List.singleton_append, takeWhile_semi]
        rw [List.mem_append]
        rintro (hm | hm)
        · exact hpre hm
        · exact hnt hm
      rw [htw, List.drop_left] at hd
      intro s hs
      exact ⟨(valuesText_good_iff vs).mp hd _ hs s rfl,
        fun hm => hnosemi ((semi_mem_values vs hv).2.mpr ⟨s, hs, hm⟩)⟩
    · cases h
  · intro h
    have hgood : valuesText vs = goodValues vs :=
      (valuesText_good_iff vs).mpr (fun v hm s e => (h s (e ▸ hm)).1)
    have hnt : ';' ∉ valuesText vs := by
      intro hm
      obtain ⟨s, hs, hm⟩ := (semi_mem_values vs hv).2.mp ((semi_mem_values vs hv).1.mp hm)
      exact (h s hs).2 hm
    have htw : (insertText pre vs ++ rest).takeWhile (fun c => decide (c ≠ ';')) = pre ++ valuesText vs := by
      unfold insertText
      rw [List.append_assoc, List.singleton_append, takeWhile_semi]
      rw [List.mem_append]
      rintro (hm | hm)
      · exact hpre hm
      · exact hnt hm
    rw [htw, List.drop_left, if_pos (by simp), hgood]
    exact readVals_good vs hv

/-- The damage may be silent: the string with two quotes in a row comes back with one. -/
theorem adjacent_quotes_silently_changed :
    readFirstInsert "X (".toList 1 (insertText "X (".toList [.text "a''b".toList]) = some [.text "a'b".toList] := by
  decide +kernel

/-- A lone quote, and a string with a semicolon, make the file unreadable. -/
theorem quote_and_semicolon_unreadable :
    readFirstInsert "X (".toList 1 (insertText "X (".toList [.text "'".toList]) = none ∧
      readFirstInsert "X (".toList 1 (insertText "X (".toList [.text "a;b".toList]) = none ∧
      readFirstInsert "X (".toList 1 (insertText "X (".toList [.text "'ab'".toList]) = none := by
  decide +kernel

example : RowValsOK [.text "it's".toList, .bare "12.5".toList, .bare "null".toList] ∧
    readFirstInsert "X (".toList 3 (insertText "X (".toList
      [.text "it's, (ok)".toList, .bare "12.5".toList, .text []]) =
      some [.text "it's, (ok)".toList, .bare "12.5".toList, .text []] := by
  constructor
  · intro v hv s hs
    simp only [List.mem_cons, List.not_mem_nil, or_false] at hv
    rcases hv with rfl | rfl | rfl
    · cases hs
    · cases hs; simp [BareOK, quote]
    · cases hs; simp [BareOK, quote]
  · decide +kernel

end Ticdat

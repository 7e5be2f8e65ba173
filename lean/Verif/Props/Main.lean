import Verif.Spec.Main

/-!
# C61: the command line of an engine
-/
set_option linter.unusedSimpArgs false
namespace Ticdat
open Spec

theorem endsWith_iff (f e : String) : endsWith f e = true ↔ Ending f e := by
  unfold endsWith Ending
  rw [List.isSuffixOf_iff_suffix]
  constructor
  · rintro ⟨p, hp⟩
    refine ⟨String.ofList p, ?_⟩
    apply String.toList_injective
    simp [← hp]
  · rintro ⟨p, rfl⟩
    exact ⟨p.toList, by simp⟩

/-- Two endings of a name: one is an ending of the other. -/
theorem endings_nested {f a b : String} (ha : Ending f a) (hb : Ending f b) :
    a.toList <:+ b.toList ∨ b.toList <:+ a.toList := by
  obtain ⟨p, rfl⟩ := ha
  obtain ⟨q, hq⟩ := hb
  have h1 : a.toList <:+ (p ++ a).toList := ⟨p.toList, by simp⟩
  have h2 : b.toList <:+ (p ++ a).toList := ⟨q.toList, by rw [hq]; simp⟩
  exact List.suffix_or_suffix_of_suffix h1 h2

theorem not_both {f a b : String} (h1 : ¬ (a.toList <:+ b.toList)) (h2 : ¬ (b.toList <:+ a.toList))
    (ha : Ending f a) : ¬ Ending f b := by
  intro hb
  rcases endings_nested ha hb with h | h
  · exact h1 h
  · exact h2 h

theorem end_false {f e : String} (h : ¬ Ending f e) : endsWith f e = false := by
  rw [← Bool.not_eq_true, endsWith_iff]; exact h

theorem end_true {f e : String} (h : Ending f e) : endsWith f e = true := (endsWith_iff f e).mpr h

/-- Which of the endings does the name have? -/
theorem which_ending (f : String) :
    (endsWith f ".json", endsWith f ".xls", endsWith f ".xlsx", endsWith f ".db", endsWith f ".sql", endsWith f ".mdb",
      endsWith f ".accdb") ∈
      [(true, false, false, false, false, false, false), (false, true, false, false, false, false, false),
       (false, false, true, false, false, false, false), (false, false, false, true, false, false, false),
       (false, false, false, false, true, false, false), (false, false, false, false, false, true, false),
       (false, false, false, false, false, false, true), (false, false, false, false, false, false, false)] := by
  have key : ∀ a b : String, a ∈ [".json", ".xls", ".xlsx", ".db", ".sql", ".mdb", ".accdb"] →
      b ∈ [".json", ".xls", ".xlsx", ".db", ".sql", ".mdb", ".accdb"] → a ≠ b → endsWith f a = true → endsWith f b = false := by
    intro a b ha hb hab h
    apply end_false
    refine not_both ?_ ?_ ((endsWith_iff f a).mp h)
    · simp only [List.mem_cons, List.not_mem_nil, or_false] at ha hb
      rcases ha with rfl | rfl | rfl | rfl | rfl | rfl | rfl <;> rcases hb with rfl | rfl | rfl | rfl | rfl | rfl | rfl <;>
        first | exact absurd rfl hab | decide +kernel
    · simp only [List.mem_cons, List.not_mem_nil, or_false] at ha hb
      rcases ha with rfl | rfl | rfl | rfl | rfl | rfl | rfl <;> rcases hb with rfl | rfl | rfl | rfl | rfl | rfl | rfl <;>
        first | exact absurd rfl hab | decide +kernel
  have k := fun a b ha hb hab => key a b ha hb hab
  cases h1 : endsWith f ".json" with
  | true =>
    simp [k ".json" ".xls" (by simp) (by simp) (by decide) h1, k ".json" ".xlsx" (by simp) (by simp) (by decide) h1,
      k ".json" ".db" (by simp) (by simp) (by decide) h1, k ".json" ".sql" (by simp) (by simp) (by decide) h1,
      k ".json" ".mdb" (by simp) (by simp) (by decide) h1, k ".json" ".accdb" (by simp) (by simp) (by decide) h1]
  | false =>
  cases h2 : endsWith f ".xls" with
  | true =>
    simp [k ".xls" ".xlsx" (by simp) (by simp) (by decide) h2,
      k ".xls" ".db" (by simp) (by simp) (by decide) h2, k ".xls" ".sql" (by simp) (by simp) (by decide) h2,
      k ".xls" ".mdb" (by simp) (by simp) (by decide) h2, k ".xls" ".accdb" (by simp) (by simp) (by decide) h2]
  | false =>
  cases h3 : endsWith f ".xlsx" with
  | true =>
    simp [k ".xlsx" ".db" (by simp) (by simp) (by decide) h3, k ".xlsx" ".sql" (by simp) (by simp) (by decide) h3,
      k ".xlsx" ".mdb" (by simp) (by simp) (by decide) h3, k ".xlsx" ".accdb" (by simp) (by simp) (by decide) h3]
  | false =>
  cases h4 : endsWith f ".db" with
  | true =>
    simp [k ".db" ".sql" (by simp) (by simp) (by decide) h4,
      k ".db" ".mdb" (by simp) (by simp) (by decide) h4, k ".db" ".accdb" (by simp) (by simp) (by decide) h4]
  | false =>
  cases h5 : endsWith f ".sql" with
  | true => simp [k ".sql" ".mdb" (by simp) (by simp) (by decide) h5, k ".sql" ".accdb" (by simp) (by simp) (by decide) h5]
  | false =>
  cases h6 : endsWith f ".mdb" with
  | true => simp [k ".mdb" ".accdb" (by simp) (by simp) (by decide) h6]
  | false => cases endsWith f ".accdb" <;> simp

/-- The endings as a case distinction. -/
theorem formatOf_iff (k : MainKind) (f : String) (fmt : Fmt) : FormatOf k f fmt ↔
    (match fmt with
     | .json => endsWith f ".json"
     | .xls => endsWith f ".xls" || endsWith f ".xlsx"
     | .db => endsWith f ".db"
     | .sql => decide (k = .tic) && endsWith f ".sql"
     | .mdb => decide (k = .tic) && (endsWith f ".mdb" || endsWith f ".accdb")
     | .csv => !endsWith f ".json" && !endsWith f ".xls" && !endsWith f ".xlsx" && !endsWith f ".db" &&
        (decide (k = .pan) || (!endsWith f ".sql" && !endsWith f ".mdb" && !endsWith f ".accdb"))) = true := by
  cases fmt <;> cases k <;>
    simp [FormatOf, ← endsWith_iff, and_assoc]

/-- **C61.** Every file name implies exactly one format. -/
theorem main_format_unique (k : MainKind) (f : String) : ∃ fmt, FormatOf k f fmt ∧ ∀ fmt', FormatOf k f fmt' → fmt' = fmt := by
  simp only [formatOf_iff]
  have h := which_ending f
  generalize endsWith f ".json" = b1 at *
  generalize endsWith f ".xls" = b2 at *
  generalize endsWith f ".xlsx" = b3 at *
  generalize endsWith f ".db" = b4 at *
  generalize endsWith f ".sql" = b5 at *
  generalize endsWith f ".mdb" = b6 at *
  generalize endsWith f ".accdb" = b7 at *
  simp only [List.mem_cons, Prod.mk.injEq, List.not_mem_nil, or_false] at h
  rcases h with h | h | h | h | h | h | h | h <;> obtain ⟨rfl, rfl, rfl, rfl, rfl, rfl, rfl⟩ := h <;> cases k <;>
    first
    | (refine ⟨.json, rfl, fun fmt' => ?_⟩; cases fmt' <;> simp; done)
    | (refine ⟨.xls, rfl, fun fmt' => ?_⟩; cases fmt' <;> simp; done)
    | (refine ⟨.db, rfl, fun fmt' => ?_⟩; cases fmt' <;> simp; done)
    | (refine ⟨.sql, rfl, fun fmt' => ?_⟩; cases fmt' <;> simp; done)
    | (refine ⟨.mdb, rfl, fun fmt' => ?_⟩; cases fmt' <;> simp; done)
    | (refine ⟨.csv, rfl, fun fmt' => ?_⟩; cases fmt' <;> simp; done)

/-- The writer that is found, for the factory of the errors as well. -/
theorem writeFormat_iff (k w : MainKind) (f : String) (fmt : Fmt) :
    writeFormat k w f = some fmt ↔ FormatOf k f fmt ∧ (w = .pan → fmt ≠ .sql ∧ fmt ≠ .mdb) := by
  rw [formatOf_iff]
  unfold writeFormat isFileName recognizedExtensions
  have h := which_ending f
  simp only []
  cases k <;> simp only [List.any_cons, List.any_nil] <;>
  · simp only [List.mem_cons, Prod.mk.injEq, List.not_mem_nil, or_false] at h
    rcases h with h | h | h | h | h | h | h | h <;> obtain ⟨h1, h2, h3, h4, h5, h6, h7⟩ := h <;> cases w <;> cases fmt <;>
      simp [h1, h2, h3, h4, h5, h6, h7]

/-- **C61.** A solution is written in the format that the name of the output implies. -/
theorem main_write_format (k : MainKind) (f : String) (fmt : Fmt) : writeFormat k k f = some fmt ↔ FormatOf k f fmt := by
  rw [writeFormat_iff]
  constructor
  · exact fun h => h.1
  · intro h
    refine ⟨h, fun hk => ?_⟩
    subst hk
    constructor <;> rintro rfl <;> exact absurd h.1 (by decide)

/-- **C61.** Data is read in the format that the name of the input implies, if there is such a file or, for .csv files, directory. -/
theorem main_read_format (k : MainKind) (fs : Paths) (f : String) (fmt : Fmt) :
    readFormat k fs f = some fmt ↔ FormatOf k f fmt ∧ Present fs f fmt := by
  rw [formatOf_iff]
  unfold readFormat isFileName recognizedExtensions
  have h := which_ending f
  cases k <;> simp only [List.any_cons, List.any_nil] <;>
  · simp only [List.mem_cons, Prod.mk.injEq, List.not_mem_nil, or_false] at h
    rcases h with h | h | h | h | h | h | h | h <;> obtain ⟨h1, h2, h3, h4, h5, h6, h7⟩ := h <;> cases fmt <;>
      simp [h1, h2, h3, h4, h5, h6, h7, Present]

/-- **C61.** What one engine writes is read in the same format by the next. -/
theorem main_same_format (k : MainKind) (fs : Paths) (f : String) (fmt : Fmt) (hw : writeFormat k k f = some fmt)
    (hp : Present fs f fmt) : readFormat k fs f = some fmt :=
  (main_read_format k fs f fmt).mpr ⟨(main_write_format k f fmt).mp hw, hp⟩

/-- **C61, a finding.** The report of the integrity errors of `TicDat` data cannot be written to a `.sql` file nor to an Access file,
although such names are taken for files. -/
theorem main_errors_sql (p : String) : writeFormat .tic .pan (p ++ ".sql") = none ∧ writeFormat .tic .pan (p ++ ".mdb") = none ∧
    writeFormat .tic .pan (p ++ ".accdb") = none := by
  refine ⟨?_, ?_, ?_⟩
  · cases h : writeFormat .tic .pan (p ++ ".sql") with
    | none => rfl
    | some fmt =>
      obtain ⟨h1, h2⟩ := (writeFormat_iff _ _ _ _).mp h
      obtain ⟨g, hg, hu⟩ := main_format_unique .tic (p ++ ".sql")
      have e1 := hu fmt h1
      have e2 := hu .sql ⟨rfl, p, rfl⟩
      exact absurd (e1.trans e2.symm) (h2 rfl).1
  · cases h : writeFormat .tic .pan (p ++ ".mdb") with
    | none => rfl
    | some fmt =>
      obtain ⟨h1, h2⟩ := (writeFormat_iff _ _ _ _).mp h
      obtain ⟨g, hg, hu⟩ := main_format_unique .tic (p ++ ".mdb")
      have e1 := hu fmt h1
      have e2 := hu .mdb ⟨rfl, .inl ⟨p, rfl⟩⟩
      exact absurd (e1.trans e2.symm) (h2 rfl).2
  · cases h : writeFormat .tic .pan (p ++ ".accdb") with
    | none => rfl
    | some fmt =>
      obtain ⟨h1, h2⟩ := (writeFormat_iff _ _ _ _).mp h
      obtain ⟨g, hg, hu⟩ := main_format_unique .tic (p ++ ".accdb")
      have e1 := hu fmt h1
      have e2 := hu .mdb ⟨rfl, .inr ⟨p, rfl⟩⟩
      exact absurd (e1.trans e2.symm) (h2 rfl).2

example : FormatOf .tic "run/data.accdb" .mdb ∧ FormatOf .pan "run/data.accdb" .csv ∧ FormatOf .pan "a.b.xlsx" .xls := by
  refine ⟨⟨rfl, .inr ⟨"run/data", by decide +kernel⟩⟩, ?_, .inr ⟨"a.b", by decide +kernel⟩⟩
  rw [formatOf_iff]
  decide +kernel

variable {D S E : Type}

theorem getDat_iff (k : MainKind) (env : MainEnv D S E) (f : String) (fmt : Fmt) (d : D) :
    getDat k env f = some (fmt, d) ↔ Loaded k env f fmt d := by
  unfold getDat Loaded
  cases h : readFormat k env.fs f with
  | none =>
    simp only [reduceCtorEq, false_iff]
    rintro ⟨h1, h2, -⟩
    rw [(main_read_format k env.fs f fmt).mpr ⟨h1, h2⟩] at h
    cases h
  | some g =>
    have hg := (main_read_format k env.fs f g).mp h
    obtain ⟨g', -, hu⟩ := main_format_unique k f
    have huniq : ∀ fmt', FormatOf k f fmt' → fmt' = g := fun fmt' h' => (hu fmt' h').trans (hu g hg.1).symm
    simp only []
    constructor
    · intro h
      split at h
      · cases h
      · rename_i hd
        cases hr : env.read g f with
        | none => rw [hr] at h; cases h
        | some d' =>
          rw [hr] at h
          obtain ⟨rfl, rfl⟩ := Prod.mk.inj (Option.some.inj h)
          refine ⟨hg.1, hg.2, hr, fun hk hs => ?_⟩
          simpa [hk, hs] using hd
    · rintro ⟨h1, -, h3, h4⟩
      obtain rfl := huniq fmt h1
      rw [h3, if_neg]
      · rfl
      · simp only [Bool.and_eq_true, decide_eq_true_eq, not_and, Bool.not_eq_true]
        exact fun h => h4 h.1 h.2

theorem loaded_unique (k : MainKind) (env : MainEnv D S E) (f : String) {fmt fmt' : Fmt} {d d' : D}
    (h : Loaded k env f fmt d) (h' : Loaded k env f fmt' d') : fmt = fmt' ∧ d = d' := by
  rw [← getDat_iff] at h h'
  rw [h] at h'
  exact Prod.mk.inj (Option.some.inj h')

theorem present_exists {fs : Paths} {f : String} {fmt : Fmt} (h : Present fs f fmt) : fs.exists f = true := by
  unfold Paths.exists
  cases fmt <;> simp_all [Present]

theorem solveAndWrite_solve (env : MainEnv D S E) (o : Option Fmt) (out : String) (dat d : Option D) :
    .solve d ∈ (solveAndWrite env o out dat).1 ↔ d = dat := by
  unfold solveAndWrite writeSolution
  cases env.solve dat with
  | message m s => cases s <;> cases o <;> simp
  | solution s => cases o <;> simp
  | _ => simp

theorem solveAndWrite_write (env : MainEnv D S E) (o : Option Fmt) (out : String) (dat : Option D) (fmt : Fmt) (p : String) (s : S) :
    .write fmt p s ∈ (solveAndWrite env o out dat).1 ↔ p = out ∧ o = some fmt ∧ Solution (env.solve dat) s := by
  unfold solveAndWrite writeSolution Solution
  cases env.solve dat with
  | message m s' => cases s' <;> cases o <;> simp [eq_comm, and_comm, and_left_comm, and_assoc]
  | solution s' => cases o <;> simp [eq_comm, and_comm, and_left_comm, and_assoc]
  | _ => simp

theorem solveAndWrite_errors (env : MainEnv D S E) (o : Option Fmt) (out : String) (dat : Option D) (fmt : Fmt) (p : String) (e : E) :
    .writeErrors fmt p e ∉ (solveAndWrite env o out dat).1 := by
  unfold solveAndWrite writeSolution
  cases env.solve dat with
  | message m s' => cases s' <;> cases o <;> simp
  | solution s' => cases o <;> simp
  | _ => simp

theorem solveAndWrite_order (env : MainEnv D S E) (o : Option Fmt) (out : String) (dat : Option D) :
    (solveAndWrite env o out dat).1.Pairwise (fun a b => phase a < phase b) ∧
      ∀ a ∈ (solveAndWrite env o out dat).1, 2 ≤ phase a := by
  unfold solveAndWrite writeSolution
  cases env.solve dat with
  | message m s' => cases s' <;> cases o <;> simp [phase]
  | solution s' => cases o <;> simp [phase]
  | _ => simp [phase]

theorem checkAndSolve_spec (k : MainKind) (env : MainEnv D S E) (o : Option Fmt) (out : String) (errors : Option String)
    (dat : Option D) :
    (∀ d, .solve d ∈ (checkAndSolve k env o out errors dat).1 ↔ d = dat ∧ Cleared k env dat errors) ∧
    (∀ fmt p s, .write fmt p s ∈ (checkAndSolve k env o out errors dat).1 ↔
      p = out ∧ o = some fmt ∧ Solution (env.solve dat) s ∧ Cleared k env dat errors) ∧
    (∀ fmt p e, .writeErrors fmt p e ∈ (checkAndSolve k env o out errors dat).1 ↔
      Asked errors p ∧ ∃ n, Reported k env dat p fmt e n) ∧
    (checkAndSolve k env o out errors dat).1.Pairwise (fun a b => phase a < phase b) ∧
    (∀ a ∈ (checkAndSolve k env o out errors dat).1, 1 ≤ phase a) := by
  have no : ∀ (h : ∀ f, ¬ Asked errors f),
      checkAndSolve k env o out errors dat = solveAndWrite env o out dat →
      (∀ d, .solve d ∈ (checkAndSolve k env o out errors dat).1 ↔ d = dat ∧ Cleared k env dat errors) ∧
      (∀ fmt p s, .write fmt p s ∈ (checkAndSolve k env o out errors dat).1 ↔
        p = out ∧ o = some fmt ∧ Solution (env.solve dat) s ∧ Cleared k env dat errors) ∧
      (∀ fmt p e, .writeErrors fmt p e ∈ (checkAndSolve k env o out errors dat).1 ↔
        Asked errors p ∧ ∃ n, Reported k env dat p fmt e n) ∧
      (checkAndSolve k env o out errors dat).1.Pairwise (fun a b => phase a < phase b) ∧
      (∀ a ∈ (checkAndSolve k env o out errors dat).1, 1 ≤ phase a) := by
    intro h he
    have hc : Cleared k env dat errors := fun f hf => absurd hf (h f)
    rw [he]
    obtain ⟨ho, hp⟩ := solveAndWrite_order env o out dat
    refine ⟨fun d => ?_, fun fmt p s => ?_, fun fmt p e => ?_, ho, fun a ha => Nat.le_of_succ_le (hp a ha)⟩
    · rw [solveAndWrite_solve]; simp [hc]
    · rw [solveAndWrite_write]; simp [hc]
    · simp [solveAndWrite_errors, h]
  cases errors with
  | none => exact no (fun f hf => by cases hf.1) rfl
  | some ef =>
    by_cases hef : ef = ""
    · refine no (fun f hf => ?_) ?_
      · exact hf.2 ((Option.some.inj hf.1).symm.trans hef)
      · simp [checkAndSolve, hef]
    · have hask : ∀ f, Asked (some ef) f ↔ f = ef := by
        intro f
        constructor
        · exact fun h => (Option.some.inj h.1).symm
        · rintro rfl; exact ⟨rfl, hef⟩
      have hrep : ∀ fmt e n, Reported k env dat ef fmt e n ↔ dat.bind env.report = some (e, n) ∧ writeFormat k .pan ef = some fmt := by
        intro fmt e n
        rw [writeFormat_iff]
        unfold Reported
        cases dat with
        | none => simp
        | some d => simp
      have hcl : Cleared k env dat (some ef) ↔ ∃ fmt e, dat.bind env.report = some (e, 0) ∧ writeFormat k .pan ef = some fmt := by
        unfold Cleared
        simp only [hask, forall_eq, hrep]
      rw [hcl]
      simp only [hask]
      have hrep' : ∀ fmt p e, (p = ef ∧ ∃ n, Reported k env dat p fmt e n) ↔
          (p = ef ∧ ∃ n, dat.bind env.report = some (e, n) ∧ writeFormat k .pan ef = some fmt) := by
        intro fmt p e
        constructor
        · rintro ⟨rfl, n, h⟩; exact ⟨rfl, n, (hrep fmt e n).mp h⟩
        · rintro ⟨rfl, n, h⟩; exact ⟨rfl, n, (hrep fmt e n).mpr h⟩
      simp only [hrep']
      unfold checkAndSolve
      simp only [if_neg hef]
      cases h1 : dat.bind env.report with
      | none => simp
      | some en =>
        obtain ⟨err, n⟩ := en
        cases h2 : writeFormat k .pan ef with
        | none => simp
        | some efmt =>
          obtain ⟨ho, hp⟩ := solveAndWrite_order env o out dat
          by_cases hn : n = 0
          · subst hn
            simp only [if_true, List.mem_cons, solveAndWrite_solve, solveAndWrite_write, solveAndWrite_errors, reduceCtorEq, false_or,
              List.pairwise_cons]
            refine ⟨?_, ?_, ?_, ⟨fun a ha => hp a ha, ho⟩, ?_⟩
            · simp
            · simp
            · intro fmt p e
              simp only [MainEvent.writeErrors.injEq, or_false, Option.some.injEq, Prod.mk.injEq]
              constructor
              · rintro ⟨rfl, rfl, rfl⟩; exact ⟨rfl, 0, ⟨rfl, rfl⟩, rfl⟩
              · rintro ⟨rfl, n, ⟨rfl, -⟩, rfl⟩; exact ⟨rfl, rfl, rfl⟩
            · rintro a (rfl | ha)
              · exact Nat.le_refl 1
              · exact Nat.le_of_succ_le (hp a ha)
          · simp only [if_neg hn, List.mem_cons, List.not_mem_nil, or_false, reduceCtorEq, false_iff]
            refine ⟨?_, ?_, ?_, by simp, ?_⟩
            · rintro d ⟨-, fmt, e, he, -⟩
              exact hn (Prod.mk.inj (Option.some.inj he)).2
            · rintro fmt p s ⟨-, -, -, fmt', e, he, -⟩
              exact hn (Prod.mk.inj (Option.some.inj he)).2
            · intro fmt p e
              simp only [MainEvent.writeErrors.injEq, Option.some.injEq, Prod.mk.injEq]
              constructor
              · rintro ⟨rfl, rfl, rfl⟩; exact ⟨rfl, n, ⟨rfl, rfl⟩, rfl⟩
              · rintro ⟨rfl, n, ⟨rfl, -⟩, rfl⟩; exact ⟨rfl, rfl, rfl⟩
            · rintro a rfl; exact Nat.le_refl 1

/-- What is known of a run: when `solve` is called, when a solution and when a report is written, and the order of the calls. -/
structure RunSpec (k : MainKind) (env : MainEnv D S E) (has : Option D → Prop) (output : String) (errors : Option String)
    (ev : List (MainEvent D S E)) : Prop where
  solve : ∀ d, .solve d ∈ ev ↔ has d ∧ Cleared k env d errors
  write : ∀ fmt p s, .write fmt p s ∈ ev ↔
    p = output ∧ output ≠ "" ∧ FormatOf k output fmt ∧ ∃ d, .solve d ∈ ev ∧ Solution (env.solve d) s
  errors : ∀ fmt p e, .writeErrors fmt p e ∈ ev ↔ Asked errors p ∧ ∃ d n, has d ∧ Reported k env d p fmt e n

theorem afterRead_spec (k : MainKind) (env : MainEnv D S E) (out : String) (errors : Option String) (dat : Option D) :
    RunSpec k env (fun d => d = dat) out errors (afterRead k env out errors dat).1 ∧
    (afterRead k env out errors dat).1.Pairwise (fun a b => phase a < phase b) ∧
    (∀ a ∈ (afterRead k env out errors dat).1, 1 ≤ phase a) := by
  obtain ⟨o, ho, hof⟩ : ∃ o, afterRead k env out errors dat = checkAndSolve k env o out errors dat ∧
      ∀ fmt, o = some fmt ↔ out ≠ "" ∧ FormatOf k out fmt := by
    unfold afterRead
    by_cases h : out = ""
    · exact ⟨none, by simp [h], by simp [h]⟩
    · obtain ⟨fmt, hf, hu⟩ := main_format_unique k out
      refine ⟨some fmt, ?_, fun fmt' => ?_⟩
      · simp only [if_neg h, (main_write_format k out fmt).mpr hf]
      · constructor
        · intro h'; cases h'; exact ⟨h, hf⟩
        · rintro ⟨-, h'⟩; rw [hu fmt' h']
  rw [ho]
  obtain ⟨h1, h2, h3, h4, h5⟩ := checkAndSolve_spec k env o out errors dat
  refine ⟨⟨fun d => ?_, fun fmt p s => ?_, fun fmt p e => ?_⟩, h4, h5⟩
  · rw [h1]
    constructor
    · rintro ⟨rfl, h⟩; exact ⟨rfl, h⟩
    · rintro ⟨rfl, h⟩; exact ⟨rfl, h⟩
  · rw [h2, hof]
    simp only [h1]
    constructor
    · rintro ⟨a, ⟨b, c⟩, d, e⟩; exact ⟨a, b, c, dat, ⟨rfl, e⟩, d⟩
    · rintro ⟨a, b, c, _, ⟨rfl, e⟩, d⟩; exact ⟨a, ⟨b, c⟩, d, e⟩
  · rw [h3]
    simp

theorem runMain_spec (k : MainKind) (env : MainEnv D S E) (input out : String) (errors : Option String) :
    RunSpec k env (DataOf k env input) out errors (runMain k env input out errors).1 ∧
    (∀ fmt p, .read fmt p ∈ (runMain k env input out errors).1 ↔ p = input ∧ input ≠ "" ∧ ∃ d, Loaded k env input fmt d) ∧
    (runMain k env input out errors).1.Pairwise (fun a b => phase a < phase b) := by
  have stop : ∀ b : Bool, (∀ d, ¬ DataOf k env input d) → runMain k env input out errors = ([], b) →
      RunSpec k env (DataOf k env input) out errors (runMain k env input out errors).1 ∧
      (∀ fmt p, .read fmt p ∈ (runMain k env input out errors).1 ↔ p = input ∧ input ≠ "" ∧ ∃ d, Loaded k env input fmt d) ∧
      (runMain k env input out errors).1.Pairwise (fun a b => phase a < phase b) := by
    intro b hno he
    rw [he]
    refine ⟨⟨?_, ?_, ?_⟩, ?_, List.Pairwise.nil⟩
    · simp [hno]
    · simp
    · simp [hno]
    · intro fmt p
      simp only [List.not_mem_nil, false_iff]
      rintro ⟨-, hi, d, hd⟩
      exact hno (some d) ⟨hi, fmt, hd⟩
  by_cases hi : input = ""
  · have he : runMain k env input out errors = afterRead k env out errors none := by simp [runMain, hi]
    have hd : DataOf k env input = fun d => d = none := by
      funext d
      cases d <;> simp [DataOf, hi]
    obtain ⟨h1, h2, h3⟩ := afterRead_spec k env out errors none
    rw [he, hd]
    refine ⟨h1, fun fmt p => ?_, h2⟩
    constructor
    · intro h; exact absurd (h3 _ h) (by simp [phase])
    · rintro ⟨-, h, -⟩; exact absurd hi h
  · cases hg : getDat k env input with
    | none =>
      have hno : ∀ d, ¬ DataOf k env input d := by
        rintro (_ | d) h
        · exact hi h
        · obtain ⟨-, fmt, h⟩ := h
          rw [← getDat_iff, hg] at h
          cases h
      by_cases hx : env.fs.exists input = true
      · exact stop false hno (by simp [runMain, hi, hx, hg])
      · exact stop true hno (by simp [runMain, hi, hx])
    | some fd =>
      obtain ⟨fmt, dat⟩ := fd
      have hl := (getDat_iff k env input fmt dat).mp hg
      have hx : env.fs.exists input = true := present_exists hl.2.1
      have he : runMain k env input out errors =
          (.read fmt input :: (afterRead k env out errors (some dat)).1, (afterRead k env out errors (some dat)).2) := by
        simp [runMain, hi, hx, hg]
      have hd : DataOf k env input = fun d => d = some dat := by
        funext d
        apply propext
        constructor
        · intro h
          cases d with
          | none => exact absurd h hi
          | some d' =>
            obtain ⟨-, fmt', h⟩ := h
            rw [(loaded_unique k env input h hl).2]
        · rintro rfl; exact ⟨hi, fmt, hl⟩
      obtain ⟨h1, h2, h3⟩ := afterRead_spec k env out errors (some dat)
      rw [he, hd]
      refine ⟨⟨fun d => ?_, fun fmt' p s => ?_, fun fmt' p e => ?_⟩, fun fmt' p => ?_, ?_⟩
      · rw [← h1.solve]; simp
      · have := h1.write fmt' p s
        simpa using this
      · rw [← h1.errors]; simp
      · constructor
        · intro h
          rcases List.mem_cons.mp h with h | h
          · cases h; exact ⟨rfl, hi, dat, hl⟩
          · exact absurd (h3 _ h) (by simp [phase])
        · rintro ⟨rfl, -, d, hl'⟩
          rw [(loaded_unique k env p hl' hl).1]
          exact List.mem_cons_self
      · exact List.Pairwise.cons (fun a ha => h3 a ha) h2

theorem parseOpts_spec : ∀ (opts : List Opt) (i o : String) (e : Option String),
    (.help ∈ opts → parseOpts opts (i, o, e) = none) ∧
    (.help ∉ opts → parseOpts opts (i, o, e) =
      some (lastOr i (inputs opts), lastOr o (outputs opts), lastOr e ((errorFiles opts).map some)))
  | [], i, o, e => ⟨by simp, fun _ => rfl⟩
  | .help :: rest, i, o, e => ⟨fun _ => rfl, by simp⟩
  | .input a :: rest, i, o, e => by
    obtain ⟨h1, h2⟩ := parseOpts_spec rest a o e
    refine ⟨fun h => h1 (by simpa using h), fun h => ?_⟩
    rw [parseOpts, h2 (by simpa using h)]
    simp [lastOr, inputs, outputs, errorFiles, List.getLast?_cons]
  | .output a :: rest, i, o, e => by
    obtain ⟨h1, h2⟩ := parseOpts_spec rest i a e
    refine ⟨fun h => h1 (by simpa using h), fun h => ?_⟩
    rw [parseOpts, h2 (by simpa using h)]
    simp [lastOr, inputs, outputs, errorFiles, List.getLast?_cons]
  | .errors a :: rest, i, o, e => by
    obtain ⟨h1, h2⟩ := parseOpts_spec rest i o (some a)
    refine ⟨fun h => h1 (by simpa using h), fun h => ?_⟩
    rw [parseOpts, h2 (by simpa using h)]
    simp [lastOr, inputs, outputs, errorFiles, List.getLast?_cons]

/-- **C61.** With `--help` on the command line nothing is read, solved or written. -/
theorem main_help (k : MainKind) (env : MainEnv D S E) (opts : List Opt) (h : .help ∈ opts) : standardMain k env opts = ([], true) := by
  unfold standardMain
  rw [(parseOpts_spec opts _ _ _).1 h]

/-- **C61.** The effects of a run, for every command line, every state of the file system and every `solve`.  The input, the output and
the errors are the last ones given, or by default `input.xlsx`, `output.xlsx` and none.
* Reading: the input is read in the format that its name implies, if it is there and has no duplicate rows.
* Solving: `solve` is called with exactly the data read; if a report of errors is asked for, only if it lists none.
* Writing: a solution is written exactly if `solve` returned one, in the format that the name of the output implies.
* Reporting: a report of the errors in the data read is written exactly if one is asked for.
* Each of these happens at most once, in the order reading, reporting, solving, writing. -/
theorem main_effects (k : MainKind) (env : MainEnv D S E) (opts : List Opt) (h : .help ∉ opts) (input output : String)
    (errors : Option String) (hi : input = lastOr "input.xlsx" (inputs opts)) (ho : output = lastOr "output.xlsx" (outputs opts))
    (he : errors = lastOr none ((errorFiles opts).map some)) :
    (∀ fmt p, .read fmt p ∈ (standardMain k env opts).1 ↔ p = input ∧ input ≠ "" ∧ ∃ d, Loaded k env input fmt d) ∧
    (∀ d, .solve d ∈ (standardMain k env opts).1 ↔ DataOf k env input d ∧ Cleared k env d errors) ∧
    (∀ fmt p s, .write fmt p s ∈ (standardMain k env opts).1 ↔
      p = output ∧ output ≠ "" ∧ FormatOf k output fmt ∧
        ∃ d, .solve d ∈ (standardMain k env opts).1 ∧ Solution (env.solve d) s) ∧
    (∀ fmt p e, .writeErrors fmt p e ∈ (standardMain k env opts).1 ↔
      Asked errors p ∧ ∃ d n, DataOf k env input d ∧ Reported k env d p fmt e n) ∧
    (standardMain k env opts).1.Pairwise (fun a b => phase a < phase b) := by
  have hm : standardMain k env opts = runMain k env input output errors := by
    unfold standardMain
    rw [(parseOpts_spec opts _ _ _).2 h, hi, ho, he]
  rw [hm]
  obtain ⟨h1, h2, h3⟩ := runMain_spec k env input output errors
  exact ⟨h2, h1.solve, h1.write, h1.errors, h3⟩

/-- **C61.** An input that is not there ends the run without an exception and without effects; one that is there and cannot be read,
or has duplicate rows, raises. -/
theorem main_bad_input (k : MainKind) (env : MainEnv D S E) (input output : String) (errors : Option String) (hi : input ≠ "")
    (hl : ∀ fmt d, ¬ Loaded k env input fmt d) :
    runMain k env input output errors = ([], !(env.fs.isFile input || env.fs.isDir input)) := by
  cases hg : getDat k env input with
  | some fd => exact absurd ((getDat_iff k env input fd.1 fd.2).mp hg) (hl _ _)
  | none =>
    change _ = ([], !env.fs.exists input)
    unfold runMain
    rw [if_neg hi, hg]
    cases env.fs.exists input <;> rfl

/-- **C61, a finding.** With an empty name for the input, `solve` is called with `None`: that there is no input is not noticed. -/
theorem main_empty_input (k : MainKind) (env : MainEnv D S E) : .solve none ∈ (standardMain k env [.input ""]).1 :=
  ((main_effects k env [.input ""] (by simp) "" "output.xlsx" none rfl rfl rfl).2.1 none).mpr
    ⟨rfl, fun _ h => by cases h.1⟩

/-- An engine with one input file and one error in the data. -/
def mainDemo (n : Nat) : MainEnv Nat Nat String where
  fs := { isFile := fun f => decide (f = "in.db"), isDir := fun _ => false }
  hasDups := fun _ _ => false
  read := fun _ _ => some 5
  report := fun _ => some ("report", n)
  solve := fun d => .message "solved" (d.map (· + 1))

example : (standardMain .tic (mainDemo 0) [.input "x", .input "in.db", .errors "err.json"]).1.length = 4 := by decide +kernel

example : (standardMain .tic (mainDemo 1) [.input "in.db", .errors "err.json"]).1.length = 2 := by decide +kernel

example : (standardMain .pan (mainDemo 1) [.input "in.db"]).1.length = 3 := by decide +kernel

end Ticdat

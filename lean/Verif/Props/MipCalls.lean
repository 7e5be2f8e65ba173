import Verif.Spec.MipCalls
/-!
# C63: constraints, objectives, parameters and results over all engines
-/
namespace Ticdat
open Spec

/-- **C63, constraints.**  Over every engine the constraint is added, with its name unless that is empty. -/
theorem add_constraint_means (e : Engine) (c : Nat) (name : String) :
    (name ≠ "" → meaning (addConstraintCall e c name) = .constraint c (some name)) ∧
    meaning (addConstraintCall e c "") = .constraint c none := by
  constructor
  · intro h
    cases e <;> simp [addConstraintCall, nameArg, meaning, h]
  · cases e <;> rfl

/-- **C63, indicator constraints.**  They are refused for cplex; otherwise the constraint is in force when the variable is 1 (on) or 0 (off). -/
theorem add_indicator_means (e : Engine) (v : Nat) (on : Bool) (c : Nat) :
    (addIndicatorCall e v on c = none ↔ e = .cplex) ∧
    ∀ r, addIndicatorCall e v on c = some r → meaning r = .indicator v (if on then 1 else 0) c := by
  cases e <;> cases on <;> simp [addIndicatorCall, meaning]

/-- **C63, objectives.** -/
theorem set_objective_means (e : Engine) (x : Nat) (sense : String) :
    (setObjectiveCall e x sense = none ↔ sense ≠ "maximize" ∧ sense ≠ "minimize") ∧
    (∀ r, setObjectiveCall e x sense = some r →
      (sense = "maximize" → meaning r = .objective x true) ∧ (sense = "minimize" → meaning r = .objective x false)) := by
  unfold setObjectiveCall
  by_cases h1 : sense = "maximize"
  · subst h1
    cases e <;> simp [meaning]
  · by_cases h2 : sense = "minimize"
    · subst h2
      cases e <;> simp [meaning]
    · simp [h1, h2]

theorem controlOf_iff (e : Engine) (k : String) (c : Control) : controlOf e k = some c ↔ Sets e k c := by
  constructor
  · intro h
    unfold controlOf at h
    split at h
    · rename_i hk
      subst hk
      cases e <;> (cases h; constructor)
    · split at h
      · rename_i hk
        subst hk
        cases e <;> cases h <;> constructor
      · cases h
  · intro h
    cases h <;> rfl

theorem sets_inj {e : Engine} {k k' : String} {c : Control} (h : Sets e k c) (h' : Sets e k' c) : k = k' := by
  cases h <;> cases h' <;> rfl

theorem setParameters_other (e : Engine) : ∀ (kw : List (String × Cell)) (s : Control → Cell) (x : Control),
    (∀ k v, (k, v) ∈ kw → ¬ Sets e k x) → (setParameters e kw s).1 x = s x
  | [], s, x, _ => rfl
  | (k, v) :: rest, s, x, h => by
    unfold setParameters
    cases hc : controlOf e k with
    | none => rfl
    | some c =>
      simp only
      rw [setParameters_other e rest _ x (fun k' v' hm => h k' v' (List.mem_cons_of_mem _ hm))]
      have : x ≠ c := fun hx => h k v List.mem_cons_self (hx ▸ (controlOf_iff e k c).1 hc)
      simp [this]

/-- **C63, parameters.**  `set_parameters` fails exactly if one of the keywords is not known for the engine.  Otherwise each setting that
a keyword stands for has the value given (keywords are distinct), and all other settings are as they were. -/
theorem set_parameters_sets (e : Engine) (kw : List (String × Cell)) (hkw : (kw.map Prod.fst).Nodup) (s : Control → Cell) :
    ((setParameters e kw s).2 = true ↔ ∃ k v, (k, v) ∈ kw ∧ ∀ c, ¬ Sets e k c) ∧
    ((setParameters e kw s).2 = false → ∀ k v c, (k, v) ∈ kw → Sets e k c → (setParameters e kw s).1 c = v) ∧
    ∀ c, (∀ k v, (k, v) ∈ kw → ¬ Sets e k c) → (setParameters e kw s).1 c = s c := by
  refine ⟨?_, ?_, fun c h => setParameters_other e kw s c h⟩
  · clear hkw
    induction kw generalizing s with
    | nil => simp [setParameters]
    | cons p rest ih =>
      obtain ⟨k, v⟩ := p
      unfold setParameters
      cases hc : controlOf e k with
      | none =>
        simp only [true_iff]
        exact ⟨k, v, List.mem_cons_self, fun c hs => by rw [(controlOf_iff e k c).2 hs] at hc; cases hc⟩
      | some c =>
        simp only
        rw [ih]
        constructor
        · rintro ⟨k', v', hm, h⟩
          exact ⟨k', v', List.mem_cons_of_mem _ hm, h⟩
        · rintro ⟨k', v', hm, h⟩
          rcases List.mem_cons.1 hm with hp | hm
          · cases hp
            exact absurd ((controlOf_iff e _ c).1 hc) (h c)
          · exact ⟨k', v', hm, h⟩
  · induction kw generalizing s with
    | nil => intro _ k v c hm; cases hm
    | cons p rest ih =>
      obtain ⟨k, v⟩ := p
      rw [List.map_cons, List.nodup_cons] at hkw
      unfold setParameters
      cases hc : controlOf e k with
      | none => intro h; cases h
      | some c0 =>
        simp only
        intro h k' v' c hm hs
        rcases List.mem_cons.1 hm with hp | hm
        · cases hp
          rw [setParameters_other e rest _ c (fun k2 v2 hm2 hs2 => hkw.1 (by
            rw [sets_inj hs hs2]; exact List.mem_map.2 ⟨_, hm2, rfl⟩))]
          have : c = c0 := by
            have := (controlOf_iff e _ c).2 hs
            rw [hc] at this
            exact (Option.some.inj this).symm
          simp [this]
        · exact ih hkw.2 _ h k' v' c hm hs

example : ([("MIP_Gap", Cell.num (.fin 1)), ("time_limit", .num (.fin 60))].map Prod.fst).Nodup := by decide

/-- **Finding.**  A call of `set_parameters` that raises can have set some of the parameters. -/
theorem set_parameters_not_atomic :
    ∃ kw s, (setParameters .cplex kw s).2 = true ∧ (setParameters .cplex kw s).1 .cplexMipgap ≠ s .cplexMipgap :=
  ⟨[("MIP_Gap", .num (.fin 1)), ("time_limit", .num (.fin 60))], fun _ => .none, by decide, by decide⟩

/-- The history of `optimize` calls. -/
def MipState.run (s : MipState) : List (SolveReport × Bool) → MipState
  | [] => s
  | p :: rest => (s.optimize p.1 p.2).run rest

theorem mipRun_append (s : MipState) : ∀ (h : List (SolveReport × Bool)) (p : SolveReport × Bool), s.run (h ++ [p]) = (s.run h).optimize p.1 p.2 := by
  intro h
  induction h generalizing s with
  | nil => intro p; rfl
  | cons q h ih => intro p; exact ih _ p

/-- **C63, results.**  After any history of calls of `optimize` of which the last one found a solution, `get_mip_results` has, over every
engine, the objective value of that solve, and its bound, or the objective value if the engine has no bound. -/
theorem mip_results_last (e : Engine) (h : List (SolveReport × Bool)) (r : SolveReport) :
    ((⟨none, none⟩ : MipState).run (h ++ [(r, true)])).results e = some (r.bound.getD r.objective, r.objective) := by
  rw [mipRun_append]
  cases e <;> rfl

/-- **Finding.**  After a failed solve, cplex models combine the bound of that solve with the objective value of an earlier one. -/
theorem mip_results_mixed :
    ((⟨none, none⟩ : MipState).run [(⟨some 1, 2⟩, true), (⟨some 7, 8⟩, false)]).results .cplex = some (7, 2) := rfl

end Ticdat

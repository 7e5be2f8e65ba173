import Verif.Spec.AmplSet
import Verif.Props.AmplSend
/-!
# C91: bulk setting of AMPL data
-/
set_option linter.unusedSectionVars false
set_option linter.unusedSimpArgs false
namespace Ticdat
open Spec PyDict

theorem setArgs_iff (all hidden : List String) (obj : PyDict String AmplFrame) (names : SetNames) :
    setAmplArgs all hidden obj names = true ↔ SetArgs all hidden obj names := by
  unfold setAmplArgs SetArgs
  rw [Bool.and_eq_true, List.all_eq_true, List.all_eq_true]
  constructor
  · rintro ⟨h1, h2⟩
    refine ⟨?_, ?_⟩
    · intro t ht
      obtain ⟨p, hp, rfl⟩ := List.mem_map.mp ht
      exact of_decide_eq_true (h1 p hp)
    · intro t v hv
      have := h2 (t, v) hv
      simp only [Bool.and_eq_true, Bool.or_eq_true, decide_eq_true_eq] at this
      exact ⟨this.1, Option.isSome_iff_exists.mp this.2⟩
  · rintro ⟨h1, h2⟩
    refine ⟨?_, ?_⟩
    · intro p hp
      exact decide_eq_true (h1 p.1 (List.mem_map.mpr ⟨p, hp, rfl⟩))
    · rintro ⟨t, v⟩ hv
      obtain ⟨h3, n, rfl⟩ := h2 t v hv
      simp only [Bool.and_eq_true, Bool.or_eq_true, decide_eq_true_eq]
      exact ⟨h3, rfl⟩

/-- The call that is made for a table. -/
def theCall (obj : PyDict String AmplFrame) (names : SetNames) (t : String) : Option AmplCall :=
  (PyDict.get? obj t).map (fun df => (df, (PyDict.get? names t).bind id))

theorem theCall_spec (all hidden : List String) (obj : PyDict String AmplFrame) (names : SetNames)
    (hn : SetArgs all hidden obj names) (t : String) (ht : t ∈ keys obj) : ∃ c, theCall obj names t = some c ∧ CallFor obj names t c := by
  cases ho : PyDict.get? obj t with
  | none => exact absurd ht ((PyDict.get?_eq_none _ _).mp ho)
  | some df =>
    refine ⟨(df, (PyDict.get? names t).bind id), by simp [theCall, ho], PyDict.get?_mem ho, ?_⟩
    cases hv : PyDict.get? names t with
    | none => exact .inr ⟨(PyDict.get?_eq_none _ _).mp hv, rfl⟩
    | some v =>
      obtain ⟨_, n, rfl⟩ := hn.2 t v (PyDict.get?_mem hv)
      exact .inl ⟨n, PyDict.get?_mem hv, rfl⟩

theorem setOne_eq {S : Type} (setData : AmplFrame → Option String → S → Option S) (obj : PyDict String AmplFrame) (names : SetNames)
    (t : String) (c : AmplCall) (h : theCall obj names t = some c) (s : S) :
    setAmplOne setData obj names t s = setData c.1 c.2 s := by
  unfold theCall at h
  rw [Option.map_eq_some_iff] at h
  obtain ⟨df, h1, rfl⟩ := h
  unfold setAmplOne
  rw [h1]
  rfl

theorem runs_calls {S : Type} (setData : AmplFrame → Option String → S → Option S) (all hidden : List String)
    (obj : PyDict String AmplFrame) (names : SetNames) (hn : SetArgs all hidden obj names) (order : List String)
    (ho : ∀ t ∈ order, t ∈ keys obj) (s : S) : ∃ calls done s', Pairwise2 (CallFor obj names) order calls ∧
      runSteps (setAmplOne setData obj names) order s = (s', decide (done < calls.length)) ∧ done ≤ calls.length ∧
      Calls setData (calls.take done) s s' ∧ ∀ c, calls[done]? = some c → setData c.1 c.2 s' = none := by
  induction order generalizing s with
  | nil => exact ⟨[], 0, s, .nil, rfl, Nat.le_refl _, .nil s, by simp⟩
  | cons t rest ih =>
    obtain ⟨c, h1, h2⟩ := theCall_spec all hidden obj names hn t (ho t List.mem_cons_self)
    unfold runSteps
    rw [setOne_eq setData obj names t c h1]
    cases hx : setData c.1 c.2 s with
    | none =>
      obtain ⟨calls, _, _, g1, _⟩ := ih (fun u hu => ho u (List.mem_cons_of_mem _ hu)) s
      refine ⟨c :: calls, 0, s, .cons h2 g1, by simp, by simp, .nil s, ?_⟩
      intro c' hc
      simp only [List.getElem?_cons_zero, Option.some.injEq] at hc
      rw [← hc]
      exact hx
    | some s1 =>
      obtain ⟨calls, done, s', g1, g2, g3, g4, g5⟩ := ih (fun u hu => ho u (List.mem_cons_of_mem _ hu)) s1
      refine ⟨c :: calls, done + 1, s', .cons h2 g1, ?_, by simpa using g3, ?_, ?_⟩
      · simp only
        rw [g2]
        simp
      · simpa using Calls.cons hx g4
      · intro c' hc
        exact g5 c' (by simpa using hc)

/-- **C91, what is passed to AMPL.**  If the arguments are not in order, nothing is passed and the call raises.  Otherwise the calls that
would be made are one for each table of the object, with its frame and the name given for it if there is one, in an order that Python
picks; they are made one after the other until AMPL refuses one, and the call raises just if AMPL refuses one. -/
theorem set_ampl_calls {S : Type} (setData : AmplFrame → Option String → S → Option S) (all hidden : List String)
    (obj : PyDict String AmplFrame) (names : SetNames) (order : List String) (hperm : order.Perm (keys obj)) (s : S) :
    (¬ SetArgs all hidden obj names ∧ setAmplData setData all hidden obj names order s = (s, true)) ∨
    (SetArgs all hidden obj names ∧ ∃ calls done s', Pairwise2 (CallFor obj names) order calls ∧
      setAmplData setData all hidden obj names order s = (s', decide (done < calls.length)) ∧ done ≤ calls.length ∧
      Calls setData (calls.take done) s s' ∧ ∀ c, calls[done]? = some c → setData c.1 c.2 s' = none) := by
  unfold setAmplData
  by_cases h : setAmplArgs all hidden obj names = true
  · rw [if_pos h]
    have h' := (setArgs_iff all hidden obj names).mp h
    exact .inr ⟨h', runs_calls setData all hidden obj names h' order (fun t ht => hperm.mem_iff.mp ht) s⟩
  · rw [if_neg h]
    exact .inl ⟨fun h' => h ((setArgs_iff all hidden obj names).mpr h'), rfl⟩

theorem runs_perm {S : Type} (setData : AmplFrame → Option String → S → Option S) (hc : Commutes setData)
    (obj : PyDict String AmplFrame) (names : SetNames) {o1 o2 : List String} (hp : o1.Perm o2) (ho : ∀ t ∈ o1, t ∈ keys obj)
    (s s' : S) (h : runSteps (setAmplOne setData obj names) o1 s = (s', false)) :
    runSteps (setAmplOne setData obj names) o2 s = (s', false) := by
  induction hp generalizing s with
  | nil => exact h
  | cons t _ ih =>
    unfold runSteps at h ⊢
    cases hx : setAmplOne setData obj names t s with
    | none => rw [hx] at h; cases h
    | some s1 =>
      rw [hx] at h
      exact ih (fun u hu => ho u (List.mem_cons_of_mem _ hu)) s1 h
  | swap a b l =>
    have call : ∀ t ∈ keys obj, ∃ c, theCall obj names t = some c := by
      intro t ht
      cases ho : PyDict.get? obj t with
      | none => exact absurd ht ((PyDict.get?_eq_none _ _).mp ho)
      | some df => exact ⟨_, by unfold theCall; rw [ho]; rfl⟩
    obtain ⟨ca, ha⟩ := call a (ho a (by simp))
    obtain ⟨cb, hb⟩ := call b (ho b (by simp))
    unfold runSteps at h
    rw [setOne_eq setData obj names b cb hb] at h
    cases hx : setData cb.1 cb.2 s with
    | none => rw [hx] at h; cases h
    | some s1 =>
      rw [hx] at h
      simp only at h
      unfold runSteps at h
      rw [setOne_eq setData obj names a ca ha] at h
      cases hy : setData ca.1 ca.2 s1 with
      | none => rw [hy] at h; cases h
      | some s2 =>
        rw [hy] at h
        simp only at h
        obtain ⟨u, h1, h2⟩ := hc cb ca s s1 s2 hx hy
        unfold runSteps
        rw [setOne_eq setData obj names a ca ha, h1]
        simp only
        unfold runSteps
        rw [setOne_eq setData obj names b cb hb, h2]
        exact h
  | trans p1 _ ih1 ih2 => exact ih2 (fun t ht => ho t (p1.mem_iff.mpr ht)) s (ih1 ho s h)

/-- **C91, the order that Python picks** does not matter if it does not matter to AMPL: then whether the call raises does not depend on
it, nor what AMPL has after a call that does not. -/
theorem set_ampl_order {S : Type} (setData : AmplFrame → Option String → S → Option S) (hc : Commutes setData) (all hidden : List String)
    (obj : PyDict String AmplFrame) (names : SetNames) (o1 o2 : List String) (h1 : o1.Perm (keys obj)) (h2 : o2.Perm (keys obj)) (s s' : S) :
    setAmplData setData all hidden obj names o1 s = (s', false) ↔ setAmplData setData all hidden obj names o2 s = (s', false) := by
  unfold setAmplData
  split
  · exact ⟨runs_perm setData hc obj names (h1.trans h2.symm) (fun t ht => h1.mem_iff.mp ht) s s',
      runs_perm setData hc obj names (h2.trans h1.symm) (fun t ht => h2.mem_iff.mp ht) s s'⟩
  · exact ⟨fun h => (by cases h), fun h => (by cases h)⟩

/-- **C91, together with `copy_to_ampl`**: what that makes is always accepted as an argument, if names are given as strings to tables
it has made. -/
theorem copied_can_be_set (penv : PandasEnv) (henv : KeepsRows penv) (schema : List (String × Option TabClass))
    (hs : (schema.map Prod.fst).Nodup) (hf : ∀ t c, (t, some c) ∈ schema → c.fields.Nodup) (dat : String → TabVal)
    (hw : ∀ t c, (t, some c) ∈ schema → WellShaped c (dat t)) (ren : Renamings) (excluded hidden : List String)
    (out : PyDict String AmplFrame) (h : copyToAmpl penv schema dat ren excluded = some out) (names : SetNames)
    (hn : ∀ t v, (t, v) ∈ names → (∃ c, Sent schema excluded t c) ∧ ∃ n, v = some n) :
    SetArgs (schema.map Prod.fst) hidden out names := by
  obtain ⟨_, h2, _⟩ := (copy_to_ampl penv henv schema hs hf dat hw ren excluded).2 out h
  refine ⟨?_, fun t v hv => ⟨.inl ((h2 t).mpr (hn t v hv).1), (hn t v hv).2⟩⟩
  intro t ht
  obtain ⟨c, hc⟩ := (h2 t).mp ht
  exact List.mem_map.mpr ⟨(t, some c), hc.1, rfl⟩

/-- Two tables, the second one indexed over the first. -/
def orderObj : PyDict String AmplFrame := [("foods", ⟨["name"], [("name", [.str "egg"])], []⟩),
  ("cost", ⟨["name"], [("name", [.str "egg"])], [("cost", [.num (.fin 2)])]⟩)]

/-- An AMPL that keeps the members of its sets, and takes data only for members of a set. -/
def memberAmpl (df : AmplFrame) (name : Option String) (s : List Cell) : Option (List Cell) :=
  match name with
  | some _ => some (s ++ df.setCols.flatMap Prod.snd)
  | none => if (df.setCols.flatMap Prod.snd).all (fun x => decide (x ∈ s)) then some s else none

/-- An AMPL that writes down how many calls there were. -/
def countAmpl (_ : AmplFrame) (_ : Option String) (n : Nat) : Option Nat := some (n + 1)

/-- **C91, order matters to AMPL.**  AMPL wants a set before what is indexed over it; the tables are passed in the order of a Python set of
strings, which differs from run to run, and not in the order of the schema.  The same call raises in one run and succeeds in another. -/
theorem set_ampl_depends_on_order :
    ∃ (S : Type) (setData : AmplFrame → Option String → S → Option S) (all : List String) (obj : PyDict String AmplFrame) (names : SetNames)
      (o1 o2 : List String) (s s' s'' : S), o1.Perm (keys obj) ∧ o2.Perm (keys obj) ∧
      setAmplData setData all [] obj names o1 s = (s', false) ∧ setAmplData setData all [] obj names o2 s = (s'', true) :=
  ⟨List Cell, memberAmpl, ["foods", "cost"], orderObj, [("foods", some "FOOD")], ["foods", "cost"], ["cost", "foods"], [], [.str "egg"], [],
    .refl _, .swap _ _ _, by decide +kernel, by decide +kernel⟩

example : SetArgs ["foods", "cost", "other"] [] orderObj [("foods", some "FOOD")] := by
  refine ⟨by decide, ?_⟩
  intro t v h
  simp only [List.mem_cons, List.not_mem_nil, or_false, Prod.mk.injEq] at h
  obtain ⟨rfl, rfl⟩ := h
  exact ⟨.inl (by decide), "FOOD", rfl⟩

example : setAmplData countAmpl ["foods", "cost"] [] orderObj [("foods", some "FOOD")] ["cost", "foods"] 0 = (2, false) :=
  (set_ampl_order countAmpl (fun _ _ s s' s'' h1 h2 => ⟨s + 1, rfl, by cases h1; cases h2; rfl⟩) _ [] orderObj _ ["foods", "cost"] ["cost", "foods"]
    (.refl _) (.swap _ _ _) 0 2).mp (by decide +kernel)

/-- A name for a table that is not there is refused, and so is a table that is not in the schema. -/
example : setAmplData countAmpl ["foods", "cost"] [] orderObj [("other", some "FOOD")] ["cost", "foods"] 0 = (0, true) := by decide +kernel
example : setAmplData countAmpl ["foods"] [] orderObj [] ["cost", "foods"] 0 = (0, true) := by decide +kernel

end Ticdat

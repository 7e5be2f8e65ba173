import Verif.Spec.Setters
import Verif.Props.PanFactoryEx
import Verif.Props.PredNames
/-!
# C87: configuration calls accept exactly what they should and change exactly what they name
-/
set_option linter.unusedSectionVars false
set_option linter.unusedSimpArgs false
namespace Ticdat
open Spec PyDict
variable {V K : Type}

theorem xle_iff (mn mx : XNum) : XNum.le mn mx = true ↔ (XLt mn mx ∨ mn = mx) := by
  simp only [XNum.le, Bool.not_eq_true', xlt_trichotomy mx mn]
  constructor
  · rintro (h | h)
    · exact .inl h
    · exact .inr h.symm
  · rintro (h | h)
    · exact .inl h
    · exact .inr h.symm

theorem recorded_unique {a : TypeArgs} {td td' : TypeDict} (hg : GoodTypeArgs a) (h : RecordedType a td) (h' : RecordedType a td') :
    td = td' := by
  have e1 := h.datetime.trans h'.datetime.symm
  have e2 := h.nullable.trans h'.nullable.symm
  have e3 := h.numbers.trans h'.numbers.symm
  have e4 : td.strings = td'.strings := by
    cases hd : a.datetime with
    | true => rw [h.noStrings hd, h'.noStrings hd]
    | false =>
      rcases hg with hg | ⟨hs | ⟨l, hs⟩, _⟩
      · rw [hd] at hg; simp at hg
      · rw [h.anyString hd hs, h'.anyString hd hs]
      · rw [h.someStrings l hd hs, h'.someStrings l hd hs]
  cases hn : td.numberAllowed with
  | true =>
    obtain ⟨a1, a2, a3, a4, a5⟩ := h.bounds hn
    obtain ⟨b1, b2, b3, b4, b5⟩ := h'.bounds (e3 ▸ hn)
    rw [a1] at b1
    rw [a2] at b2
    simp only [Cell.num.injEq] at b1 b2
    cases td; cases td'
    simp_all
  | false =>
    obtain ⟨a1, a2, a3, a4, a5⟩ := h.noBounds hn
    obtain ⟨b1, b2, b3, b4, b5⟩ := h'.noBounds (e3 ▸ hn)
    cases td; cases td'
    simp_all

theorem safeCreator_some {a : TypeArgs} {td : TypeDict} (h : TypeDict.safeCreator a = some td) : GoodTypeArgs a ∧ RecordedType a td := by
  unfold TypeDict.safeCreator at h
  split at h
  · rename_i hd
    simp only [Option.some.injEq] at h
    subst h
    exact ⟨.inl hd, ⟨hd.symm, rfl, by simp [hd], by simp, by simp, by simp, by simp [hd], by simp [hd]⟩⟩
  · rename_i hd
    simp only [Bool.not_eq_true] at hd
    have hstr : ∀ (l : List Cell) ss, allStrings l = some ss → l = ss.map Cell.str := by
      intro l
      induction l with
      | nil => intro ss h; simp [allStrings] at h; subst h; rfl
      | cons c l ih =>
        intro ss h
        cases c with
        | str w =>
          simp only [allStrings, Option.map_eq_some_iff] at h
          obtain ⟨a, ha, rfl⟩ := h
          simp [ih a ha]
        | _ => simp [allStrings] at h
    obtain ⟨s, h1, h2⟩ : ∃ s, ((a.strings = .star ∧ s = .any) ∨ ∃ l : List String, a.strings = .coll (l.map Cell.str) ∧ s = .oneOf l) ∧
        (if a.numberAllowed then
          (match a.max, a.min with
          | .num mx, .num mn =>
            if XNum.le mn mx then
              some (⟨true, a.inclusiveMin, a.inclusiveMax, mn, mx, a.mustBeInt, s, a.nullable, false⟩ : TypeDict)
            else none
          | _, _ => none)
        else some ⟨false, true, true, .fin 0, .pinf, false, s, a.nullable, false⟩) = some td := by
      cases hst : a.strings with
      | star => rw [hst] at h; exact ⟨.any, .inl ⟨rfl, rfl⟩, h⟩
      | bad => rw [hst] at h; simp at h
      | coll l =>
        rw [hst] at h
        dsimp only at h
        cases hl : allStrings l with
        | none => rw [hl] at h; simp at h
        | some ss =>
          rw [hl] at h
          exact ⟨.oneOf ss, .inr ⟨ss, by rw [hstr l ss hl], rfl⟩, h⟩
    have hg : (a.strings = .star ∨ ∃ l : List String, a.strings = .coll (l.map Cell.str)) := by
      rcases h1 with ⟨h, _⟩ | ⟨l, h, _⟩
      · exact .inl h
      · exact .inr ⟨l, h⟩
    have any : a.strings = .star → s = .any := by
      intro e
      rcases h1 with ⟨_, h⟩ | ⟨l, h, _⟩
      · exact h
      · rw [e] at h; simp at h
    have some' : ∀ l : List String, a.strings = .coll (l.map Cell.str) → s = .oneOf l := by
      intro l e
      rcases h1 with ⟨h, _⟩ | ⟨l', h, e'⟩
      · rw [e] at h; simp at h
      · rw [e] at h
        simp only [StringsArg.coll.injEq] at h
        have := List.map_inj_right (f := Cell.str) (fun _ _ h => by simpa using h) |>.1 h
        rw [e', this]
    split at h2
    · rename_i hn
      split at h2
      · rename_i mx mn hmx hmn
        split at h2
        · rename_i hle
          simp only [Option.some.injEq] at h2
          subst h2
          exact ⟨.inr ⟨hg, fun _ => ⟨mn, mx, hmn, hmx, (xle_iff mn mx).1 hle⟩⟩,
            ⟨hd.symm, rfl, by simp [hn, hd], fun _ => ⟨hmn, hmx, rfl, rfl, rfl⟩, by simp, by simp [hd], fun _ => any, fun l _ => some' l⟩⟩
        · simp at h2
      · simp at h2
    · rename_i hn
      simp only [Option.some.injEq] at h2
      subst h2
      exact ⟨.inr ⟨hg, fun h => absurd h hn⟩,
        ⟨hd.symm, rfl, by simp [hn], by simp, by simp, by simp [hd], fun _ => any, fun l _ => some' l⟩⟩

theorem safeCreator_good {a : TypeArgs} (h : GoodTypeArgs a) : ∃ td, TypeDict.safeCreator a = some td := by
  cases e : TypeDict.safeCreator a with
  | some td => exact ⟨td, rfl⟩
  | none =>
    obtain ⟨hd, hb⟩ := (safe_creator_spec a).1.1 e
    rcases h with h | ⟨hs, hn⟩
    · rw [hd] at h; simp at h
    · rcases hb with (hb | ⟨l, hl, c, hc, hne⟩) | ⟨h1, h2⟩
      · rcases hs with hs | ⟨l, hs⟩ <;> rw [hs] at hb <;> simp at hb
      · rcases hs with hs | ⟨l', hs⟩
        · rw [hs] at hl; simp at hl
        · rw [hs] at hl
          simp only [StringsArg.coll.injEq] at hl
          rw [← hl] at hc
          obtain ⟨w, _, rfl⟩ := List.mem_map.1 hc
          exact absurd rfl (hne w)
      · exact absurd (hn h1) h2

/-- The data type recorded for the arguments of `set_data_type` and `add_parameter`. -/
theorem safeCreator_iff (a : TypeArgs) (td : TypeDict) : TypeDict.safeCreator a = some td ↔ GoodTypeArgs a ∧ RecordedType a td := by
  constructor
  · exact safeCreator_some
  · rintro ⟨hg, hr⟩
    obtain ⟨td', e⟩ := safeCreator_good hg
    rw [e, recorded_unique hg (safeCreator_some e).2 hr]

theorem acceptableDefault_iff (c : Cell) : acceptableDefault c = true ↔ CanBeDefault c := by
  cases c <;> simp [acceptableDefault, CanBeDefault]

/-- What is used of the reachable states: dictionaries have no key twice. -/
structure DictsOK (f : Factory V K) : Prop where
  types : IsDict2 f.types
  preds : IsDict2 f.preds
  params : (keys f.params).Nodup
  tips : (keys f.tooltips).Nodup

/-- The conclusion for one call. -/
def SetterOK (f g : Factory V K) (op : FOp V K) (raised : Bool) (A : Prop) : Prop :=
  (raised = false ↔ A) ∧ (raised = false → Effect f g op) ∧ (raised = true → g = f ∨ PartlySet f g op)

theorem setterOK_try {f g : Factory V K} {op : FOp V K} {raised : Bool} {A : Prop} (o : Option (Factory V K))
    (h : f.tryOp o = (g, raised)) (hA : (∃ g, o = some g) ↔ A) (hE : ∀ g, o = some g → Effect f g op) : SetterOK f g op raised A := by
  cases o with
  | none =>
    simp only [Factory.tryOp, Prod.mk.injEq] at h
    obtain ⟨rfl, rfl⟩ := h
    refine ⟨⟨fun h => by simp at h, fun ha => ?_⟩, fun h => by simp at h, fun _ => .inl rfl⟩
    obtain ⟨_, h⟩ := hA.2 ha
    simp at h
  | some g' =>
    simp only [Factory.tryOp, Prod.mk.injEq] at h
    obtain ⟨rfl, rfl⟩ := h
    exact ⟨⟨fun _ => hA.1 ⟨_, rfl⟩, fun _ => rfl⟩, fun _ => hE _ rfl, fun h => by simp at h⟩

theorem sets2_set2 {A B C : Type} [DecidableEq A] [DecidableEq B] (d : PyDict A (PyDict B C)) (a : A) (b : B) (v : C) :
    Sets2 d a b (some v) (set2 d a b v) := by
  intro a' b'
  rw [get2_set2]
  by_cases h : a = a' ∧ b = b'
  · rw [if_pos h, if_pos ⟨h.1.symm, h.2.symm⟩]
  · rw [if_neg h, if_neg (fun e => h ⟨e.1.symm, e.2.symm⟩)]

theorem sets2_erase {A B C : Type} [DecidableEq A] [DecidableEq B] {d : PyDict A (PyDict B C)} (hd : IsDict2 d) {a : A}
    {r : PyDict B C} (hr : get? d a = some r) (b : B) : Sets2 d a b none (PyDict.set d a (erase r b)) := by
  intro a' b'
  unfold get2
  rw [get?_set]
  by_cases h : a = a'
  · subst h
    rw [if_pos rfl, Option.bind_some, get?_erase _ _ _ (hd.2 _ (get?_mem hr)), hr, Option.bind_some]
    by_cases hb : b = b'
    · subst hb; simp
    · have : ¬ b' = b := fun e => hb e.symm
      simp [hb, this]
  · have : ¬ a' = a := fun e => h e.symm
    simp [h, this]

theorem sets1_set {A C : Type} [DecidableEq A] (d : PyDict A C) (a : A) (v : C) : Sets1 d a (some v) (PyDict.set d a v) := by
  intro a'
  rw [get?_set]
  by_cases h : a = a'
  · subst h; simp
  · have : ¬ a' = a := fun e => h e.symm
    simp [h, this]

theorem sets1_erase {A C : Type} [DecidableEq A] {d : PyDict A C} (hd : (keys d).Nodup) (a : A) : Sets1 d a none (erase d a) := by
  intro a'
  rw [get?_erase _ _ _ hd]
  by_cases h : a = a'
  · subst h; simp
  · have : ¬ a' = a := fun e => h e.symm
    simp [h, this]

/-- The calls with the same text in both classes. -/
theorem shared_setters (cls : FKind) (env : FactoryEnv) (f g : Factory V K) (op : FOp V K) (raised : Bool) (hf : DictsOK f)
    (hop : SharedCall op) (h : f.apply env op = (g, raised)) : SetterOK f g op raised (CallAllowed cls env f op) := by
  cases op with
  | setDefaults l => exact absurd hop id
  | addImplied => exact absurd hop id
  | setGenerators l => exact absurd hop id
  | addRowPred l => exact absurd hop id
  | enableLinks => exact absurd hop id
  | setDataType t x a =>
    refine setterOK_try _ h ?_ ?_
    · unfold Factory.setDataType CallAllowed
      constructor
      · rintro ⟨g, e⟩
        split at e
        · rename_i hc
          obtain ⟨td, h3, _⟩ := Option.map_eq_some_iff.1 e
          simp only [Bool.and_eq_true, Bool.not_eq_true'] at hc
          obtain ⟨⟨h0, h1⟩, h2⟩ := hc
          refine ⟨h0, (hasField_iff f _ _).1 h1, ?_, (safeCreator_some h3).1⟩
          intro hp hpf
          rw [(paramField_iff f _ _).2 hpf] at h2
          simp [hp] at h2
        · simp at e
      · rintro ⟨h0, h1, h2, h3⟩
        obtain ⟨td, e⟩ := safeCreator_good h3
        rw [if_pos]
        · exact ⟨_, by rw [e]; rfl⟩
        · simp only [Bool.and_eq_true, Bool.not_eq_true']
          refine ⟨⟨h0, (hasField_iff f _ _).2 h1⟩, ?_⟩
          cases hp : decide (f.params ≠ []) with
          | false => simp
          | true =>
            have hpf := h2 (of_decide_eq_true hp)
            rw [← paramField_iff, Bool.not_eq_true] at hpf
            rw [hpf]; rfl
    · intro g e
      unfold Factory.setDataType at e
      split at e
      · obtain ⟨td, h3, rfl⟩ := Option.map_eq_some_iff.1 e
        exact ⟨rfl, td, (safeCreator_some h3).2, sets2_set2 _ _ _ _⟩
      · simp at e
  | clearDataType t x =>
    have same : get2 f.types t x = none → Sets2 f.types t x none f.types := by
      intro e a b
      by_cases hab : a = t ∧ b = x
      · rw [if_pos hab, hab.1, hab.2, e]
      · rw [if_neg hab]
    cases hr : get? f.types t with
    | none =>
      have e0 : get2 f.types t x = none := by unfold get2; rw [hr]; rfl
      have ef : f.clearDataType t x = some f := by unfold Factory.clearDataType; rw [hr]
      refine setterOK_try _ h ?_ ?_
      · exact ⟨fun _ hne => absurd e0 hne, fun _ => ⟨f, ef⟩⟩
      · intro g e
        rw [ef, Option.some.injEq] at e
        subst e
        exact ⟨rfl, same e0⟩
    | some r =>
      cases hx : has r x with
      | false =>
        have e0 := (get2_none_of_has f.types t x r hr).2 hx
        have ef : f.clearDataType t x = some f := by unfold Factory.clearDataType; rw [hr]; simp [hx]
        refine setterOK_try _ h ?_ ?_
        · exact ⟨fun _ hne => absurd e0 hne, fun _ => ⟨f, ef⟩⟩
        · intro g e
          rw [ef, Option.some.injEq] at e
          subst e
          exact ⟨rfl, same e0⟩
      | true =>
        have e0 : get2 f.types t x ≠ none := by
          intro e0
          rw [(get2_none_of_has f.types t x r hr).1 e0] at hx
          simp at hx
        have ef : f.clearDataType t x = if f.used then none else some { f with types := PyDict.set f.types t (erase r x) } := by
          unfold Factory.clearDataType; rw [hr]; simp [hx]
        refine setterOK_try _ h ?_ ?_
        · rw [ef]
          constructor
          · rintro ⟨g, e⟩ _
            cases hu : f.used with
            | false => rfl
            | true => rw [hu] at e; simp at e
          · intro ha
            have ha := ha e0
            simp [ha]
        · intro g e
          rw [ef] at e
          split at e
          · simp at e
          · simp only [Option.some.injEq] at e
            subst e
            exact ⟨rfl, sets2_erase hf.types hr x⟩
  | setDefault t x c =>
    refine setterOK_try _ h ?_ ?_
    · unfold Factory.setDefault
      simp only [CallAllowed]
      rw [← hasField_iff, ← acceptableDefault_iff]
      constructor
      · rintro ⟨g, e⟩
        split at e
        · rename_i hc
          simpa [Bool.and_eq_true, and_assoc] using hc
        · simp at e
      · rintro ⟨h0, h1, h2⟩
        exact ⟨_, if_pos (by simp [h0, h1, h2])⟩
    · intro g e
      unfold Factory.setDefault at e
      split at e
      · simp only [Option.some.injEq] at e
        subst e
        exact ⟨rfl, sets2_set2 _ _ _ _⟩
      · simp at e
  | addFK n m mp =>
    refine setterOK_try _ h ?_ ?_
    · unfold CallAllowed
      constructor
      · rintro ⟨g, e⟩
        unfold Factory.addFK at e
        split at e
        · simp at e
        · rename_i hu
          split at e
          · rename_i npks ndfs fpks fdfs h1 h2
            split at e
            · rename_i hc
              refine ⟨by simpa using hu, hc.1, ?_⟩
              intro a b hab
              have := hc.2 _ (get?_mem hab)
              exact ⟨⟨_, _, h1, this.1⟩, ⟨_, _, h2, this.2⟩⟩
            · simp at e
          · simp at e
      · rintro ⟨hu, hne, hall⟩
        have hn : (keys (PyDict.ofList mp)).Nodup := ofList_keys_nodup mp
        have hall' : ∀ p ∈ PyDict.ofList mp, HasField f.tables n p.1 ∧ HasField f.tables m p.2 :=
          fun p hp => hall p.1 p.2 (get?_of_mem hn hp)
        obtain ⟨p, hp⟩ := List.exists_mem_of_ne_nil _ (ofList_ne_nil mp hne)
        obtain ⟨⟨npks, ndfs, e1, _⟩, ⟨fpks, fdfs, e2, _⟩⟩ := hall' p hp
        unfold Factory.addFK
        rw [if_neg (by simp [hu]), e1, e2]
        refine ⟨_, if_pos ⟨hne, ?_⟩⟩
        intro q hq
        obtain ⟨⟨a, b, e3, h3⟩, ⟨c, d, e4, h4⟩⟩ := hall' q hq
        rw [e1] at e3
        rw [e2] at e4
        simp only [Option.some.injEq, Decl.fields.injEq] at e3 e4
        obtain ⟨rfl, rfl⟩ := e3
        obtain ⟨rfl, rfl⟩ := e4
        exact ⟨h3, h4⟩
    · intro g e
      unfold Factory.addFK at e
      split at e
      · simp at e
      · split at e
        · split at e
          · simp only [Option.some.injEq] at e
            subst e
            exact ⟨rfl, fun k => mem_setAdd _ _ _⟩
          · simp at e
        · simp at e
  | clearFKs n =>
    refine setterOK_try _ h ?_ ?_
    · unfold CallAllowed Factory.clearFKs
      cases hu : f.used with
      | true => simp
      | false =>
        cases n with
        | none => simp
        | some t =>
          cases ht : has f.tables t with
          | true => simp [ht, (has_iff f.tables t).1 ht]
          | false =>
            have : t ∉ keys f.tables := fun hm => by rw [(has_iff f.tables t).2 hm] at ht; simp at ht
            simp [ht, this]
    · intro g e
      unfold Factory.clearFKs at e
      split at e
      · simp at e
      · split at e
        · simp only [Option.some.injEq] at e
          subst e
          exact ⟨rfl, rfl⟩
        · split at e
          · simp only [Option.some.injEq] at e
            subst e
            refine ⟨rfl, fun k => ?_⟩
            simp
          · simp at e
  | addParam n c e =>
    have key : ∀ g, f.addParam env n c e = some g → ∃ pk df ps, get? f.tables "parameters" = some (.fields [pk] [df]) ∧
        get2 f.types "parameters" df = none ∧ f.used = false ∧ addParameter env.text f.params n c e = some ps ∧
        g = { f with params := ps } := by
      intro g e'
      unfold Factory.addParam at e'
      split at e'
      · rename_i pk df hp
        split at e'
        · simp at e'
        · rename_i hc
          simp only [Bool.or_eq_true, not_or, Bool.not_eq_true, Option.isSome_eq_false_iff, Option.isNone_iff_eq_none] at hc
          obtain ⟨ps, h1, h2⟩ := Option.map_eq_some_iff.1 e'
          exact ⟨pk, df, ps, hp, hc.1, hc.2, h1, h2.symm⟩
      · simp at e'
    refine setterOK_try _ h ?_ ?_
    · constructor
      · rintro ⟨g, e'⟩
        obtain ⟨pk, df, ps, h1, h2, h3, h4, _⟩ := key g e'
        refine ⟨h3, ⟨pk, df, h1⟩, ?_, ?_⟩
        · rintro x ⟨_, pks, dfs, h5, h6⟩
          rw [h1] at h5
          simp only [Option.some.injEq, Decl.fields.injEq] at h5
          rw [← h5.2, List.mem_singleton] at h6
          rw [h6]; exact h2
        · rintro a rfl
          unfold addParameter at h4
          simp only [Option.bind_eq_bind, Option.bind_eq_some_iff] at h4
          obtain ⟨td, h5, h6⟩ := h4
          split at h6
          · rename_i hv
            exact ⟨(safeCreator_some h5).1, td, (safeCreator_some h5).2, (valid_data_iff _ _ _).1 hv⟩
          · simp at h6
      · rintro ⟨hu, ⟨pk, df, h1⟩, h2, h3⟩
        have h2' := h2 df ⟨rfl, _, _, h1, by simp⟩
        have : ∃ ps, addParameter env.text f.params n c e = some ps := by
          cases e with
          | none => exact ⟨_, rfl⟩
          | some a =>
            obtain ⟨hg, td, hr, hv⟩ := h3 a rfl
            refine ⟨PyDict.set f.params n (some td, c), ?_⟩
            simp [addParameter, (safeCreator_iff a td).2 ⟨hg, hr⟩, (valid_data_iff _ _ _).2 hv]
        obtain ⟨ps, hps⟩ := this
        refine ⟨{ f with params := ps }, ?_⟩
        unfold Factory.addParam
        rw [h1]
        simp [h2', hu, hps]
    · intro g e'
      obtain ⟨pk, df, ps, _, _, _, h4, rfl⟩ := key g e'
      refine ⟨rfl, ?_⟩
      cases e with
      | none =>
        simp only [addParameter, Option.some.injEq] at h4
        subst h4
        exact ⟨none, fun _ => rfl, fun a h => by simp at h, sets1_set _ _ _⟩
      | some a =>
        unfold addParameter at h4
        simp only [Option.bind_eq_bind, Option.bind_eq_some_iff] at h4
        obtain ⟨td, h5, h6⟩ := h4
        split at h6
        · simp only [Option.some.injEq] at h6
          subst h6
          refine ⟨some td, fun h => by simp at h, ?_, sets1_set _ _ _⟩
          intro a' ea
          simp only [Option.some.injEq] at ea
          subst ea
          exact ⟨td, rfl, (safeCreator_some h5).2⟩
        · simp at h6
  | removeParam n =>
    refine setterOK_try _ h ?_ ?_
    · unfold Factory.removeParam
      simp only [CallAllowed]
      rw [← has_iff]
      cases has f.params n <;> simp
    · intro g e
      unfold Factory.removeParam at e
      split at e
      · simp only [Option.some.injEq] at e
        subst e
        exact ⟨rfl, sets1_erase hf.params n⟩
      · simp at e
  | setTooltip t x tip =>
    refine setterOK_try _ h ?_ ?_
    · unfold Factory.setTooltip
      simp only [CallAllowed]
      rw [← has_iff, ← hasField_iff]
      constructor
      · rintro ⟨g, e⟩
        split at e
        · rename_i hc
          simpa using hc
        · simp at e
      · intro hc
        exact ⟨_, if_pos (by simpa using hc)⟩
    · intro g e
      unfold Factory.setTooltip at e
      split at e
      · simp only [Option.some.injEq] at e
        subst e
        refine ⟨rfl, ?_⟩
        by_cases ht : tip = ""
        · simp only [ht, if_true]
          exact sets1_erase hf.tips _
        · simp only [ht, if_false]
          exact sets1_set _ _ _
      · simp at e
  | setFlag c =>
    have key : ∀ x, setInfFlag c = some x → x.toCell = c ∧ (c = .str "N/A" ∨ c = .none ∨ ∃ q, 0 < q ∧ c = .num (.fin q)) := by
      intro x e
      cases c with
      | str s =>
        simp only [setInfFlag] at e
        split at e
        · rename_i hs
          simp only [Option.some.injEq] at e
          subst e; subst hs
          exact ⟨rfl, .inl rfl⟩
        · simp at e
      | none => simp only [setInfFlag, Option.some.injEq] at e; subst e; exact ⟨rfl, .inr (.inl rfl)⟩
      | num y =>
        cases y with
        | fin q =>
          simp only [setInfFlag] at e
          split at e
          · rename_i hq
            simp only [Option.some.injEq] at e
            subst e
            exact ⟨rfl, .inr (.inr ⟨q, hq, rfl⟩)⟩
          · simp at e
        | _ => simp [setInfFlag] at e
      | _ => simp [setInfFlag] at e
    refine setterOK_try _ h ?_ ?_
    · unfold CallAllowed
      constructor
      · rintro ⟨g, e⟩
        obtain ⟨x, h1, _⟩ := Option.map_eq_some_iff.1 e
        exact (key x h1).2
      · rintro (rfl | rfl | ⟨q, hq, rfl⟩)
        · exact ⟨_, rfl⟩
        · exact ⟨_, rfl⟩
        · exact ⟨_, by simp [setInfFlag, hq]; rfl⟩
    · intro g e
      obtain ⟨x, h1, rfl⟩ := Option.map_eq_some_iff.1 e
      exact ⟨x, (key x h1).1, rfl⟩
  | setTrailing s =>
    refine setterOK_try _ h ?_ ?_
    · unfold CallAllowed parseTrailing
      by_cases h1 : s = "prune"
      · simp [h1]
      · by_cases h2 : s = "ignore" <;> simp [h1, h2]
    · intro g e
      obtain ⟨x, h1, rfl⟩ := Option.map_eq_some_iff.1 e
      unfold parseTrailing at h1
      by_cases h2 : s = "prune"
      · simp only [h2, if_true, Option.some.injEq] at h1
        subst h1; subst h2; rfl
      · simp only [h2, if_false] at h1
        split at h1
        · rename_i h3
          simp only [Option.some.injEq] at h1
          subst h1; subst h3; rfl
        · simp at h1
  | setDups s =>
    refine setterOK_try _ h ?_ ?_
    · unfold CallAllowed parseDups
      by_cases h1 : s = "assert"
      · simp [h1]
      · by_cases h2 : s = "warn"
        · simp [h2]
        · by_cases h3 : s = "ignore" <;> simp [h1, h2, h3]
    · intro g e
      obtain ⟨x, h1, rfl⟩ := Option.map_eq_some_iff.1 e
      refine ⟨x, ?_, rfl⟩
      unfold parseDups at h1
      split at h1
      · rename_i hs; simp only [Option.some.injEq] at h1; subst h1; exact hs.symm
      · split at h1
        · rename_i hs; simp only [Option.some.injEq] at h1; subst h1; exact hs.symm
        · split at h1
          · rename_i hs; simp only [Option.some.injEq] at h1; subst h1; exact hs.symm
          · simp at h1
  | setAutomunge b =>
    simp only [Factory.apply, Prod.mk.injEq] at h
    obtain ⟨rfl, rfl⟩ := h
    exact ⟨⟨fun _ => trivial, fun _ => rfl⟩, fun _ => rfl, fun h => by simp at h⟩
  | use =>
    simp only [Factory.apply, Prod.mk.injEq] at h
    obtain ⟨rfl, rfl⟩ := h
    exact ⟨⟨fun _ => trivial, fun _ => rfl⟩, fun _ => rfl, fun h => by simp at h⟩

/-! ### `set_default_values` -/

theorem goodDefaults_iff (f : Factory V K) (t : String) (v : PyDict String Cell) : f.goodDefaults t v = true ↔
    (∃ pks dfs, get? f.tables t = some (.fields pks dfs)) ∧ ∀ x c, (x, c) ∈ v → HasField f.tables t x ∧ CanBeDefault c := by
  unfold Factory.goodDefaults
  split
  · rename_i pks dfs hg
    simp only [Bool.and_eq_true, List.all_eq_true, decide_eq_true_eq, acceptableDefault_iff]
    constructor
    · rintro ⟨h1, h2⟩
      refine ⟨⟨pks, dfs, hg⟩, fun x c hx => ⟨⟨pks, dfs, hg, h1 x (List.mem_map.2 ⟨_, hx, rfl⟩)⟩, h2 (x, c) hx⟩⟩
    · rintro ⟨_, h⟩
      constructor
      · intro x hx
        obtain ⟨⟨x', c⟩, hm, rfl⟩ := List.mem_map.1 hx
        obtain ⟨⟨pks', dfs', e, hm'⟩, _⟩ := h x' c hm
        rw [hg] at e
        simp only [Option.some.injEq, Decl.fields.injEq] at e
        rw [e.1, e.2]
        exact hm'
      · intro p hp
        exact (h p.1 p.2 hp).2
  · rename_i hg
    simp only [Bool.false_eq_true, false_iff]
    rintro ⟨⟨pks, dfs, e⟩, _⟩
    exact hg pks dfs e

theorem get2_cons {A B C : Type} [DecidableEq A] [DecidableEq B] (t : A) (v : PyDict B C) (l : PyDict A (PyDict B C))
    (h : IsDict2 ((t, v) :: l)) (a : A) (b : B) :
    get2 ((t, v) :: l) a b = if t = a then get? v b else get2 l a b := by
  unfold get2
  by_cases e : t = a
  · subst e; simp [get?]
  · simp [get?, e]

theorem get2_tail_none {A B C : Type} [DecidableEq A] [DecidableEq B] (t : A) (v : PyDict B C) (l : PyDict A (PyDict B C))
    (h : IsDict2 ((t, v) :: l)) (b : B) : get2 l t b = none := by
  have : t ∉ keys l := (List.nodup_cons.1 h.1).1
  unfold get2
  rw [(get?_eq_none l t).2 this]
  rfl

theorem isDict2_tail {A B C : Type} {p : A × PyDict B C} {l : PyDict A (PyDict B C)} (h : IsDict2 (p :: l)) :
    IsDict2 l := ⟨(List.nodup_cons.1 h.1).2, fun q hq => h.2 q (List.mem_cons_of_mem _ hq)⟩

theorem get?_foldl_or {A C : Type} [DecidableEq A] (v : List (A × C)) (d : PyDict A C) (b : A) :
    get? (v.foldl (fun d p => PyDict.set d p.1 p.2) d) b = get? d b ∨
      ∃ c, (b, c) ∈ v ∧ get? (v.foldl (fun d p => PyDict.set d p.1 p.2) d) b = some c := by
  rw [get?_foldl_set]
  split
  · rename_i p hp
    have h1 := List.mem_of_find?_eq_some hp
    have h2 := List.find?_some hp
    simp only [decide_eq_true_eq] at h2
    rw [← h2]
    exact .inr ⟨p.2, List.mem_reverse.1 h1, rfl⟩
  · exact .inl rfl

theorem setDefaultsLoop_exact (l : List (String × PyDict String Cell)) (f : Factory V K) :
    ((Factory.setDefaultsLoop l f).2 = false ↔ GoodDefaults f.tables l) ∧
    (Factory.setDefaultsLoop l f).1 = { f with defaults := (Factory.setDefaultsLoop l f).1.defaults } ∧
    (IsDict2 l → (Factory.setDefaultsLoop l f).2 = false →
      ∀ t x, get2 (Factory.setDefaultsLoop l f).1.defaults t x = (get2 l t x).or (get2 f.defaults t x)) ∧
    (∀ t x, get2 (Factory.setDefaultsLoop l f).1.defaults t x = get2 f.defaults t x ∨
      ∃ row c, (t, row) ∈ l ∧ (x, c) ∈ row ∧ get2 (Factory.setDefaultsLoop l f).1.defaults t x = some c) := by
  induction l generalizing f with
  | nil => exact ⟨⟨fun _ t row h => by simp at h, fun _ => rfl⟩, rfl, fun _ _ t x => by simp [Factory.setDefaultsLoop, get2, get?], fun t x => .inl rfl⟩
  | cons p l ih =>
    obtain ⟨t, v⟩ := p
    rw [Factory.setDefaultsLoop]
    have hgd : GoodDefaults f.tables ((t, v) :: l) ↔ f.goodDefaults t v = true ∧ GoodDefaults f.tables l := by
      rw [goodDefaults_iff]
      unfold GoodDefaults
      constructor
      · intro h
        exact ⟨h t v (List.mem_cons_self ..), fun t' row hm => h t' row (List.mem_cons_of_mem _ hm)⟩
      · rintro ⟨h1, h2⟩ t' row hm
        rcases List.mem_cons.1 hm with e | hm
        · simp only [Prod.mk.injEq] at e
          obtain ⟨rfl, rfl⟩ := e
          exact h1
        · exact h2 t' row hm
    split
    · rename_i hg
      have i := ih
        { f with defaults := PyDict.set f.defaults t (v.foldl (fun d p => PyDict.set d p.1 p.2) ((get? f.defaults t).getD [])) }
      obtain ⟨i1, i2, i3, i4⟩ := i
      have hd : ∀ a b, get2 (PyDict.set f.defaults t (v.foldl (fun d p => PyDict.set d p.1 p.2) ((get? f.defaults t).getD []))) a b =
          if t = a then get? (v.foldl (fun d p => PyDict.set d p.1 p.2) ((get? f.defaults t).getD [])) b else get2 f.defaults a b := by
        intro a b
        unfold get2
        rw [get?_set]
        split <;> rfl
      refine ⟨?_, ?_, ?_, ?_⟩
      · rw [i1, hgd]
        simp [hg]
      · rw [i2]
      · intro hn hr a b
        rw [i3 (isDict2_tail hn) hr a b, hd, get2_cons t v l hn]
        by_cases e : t = a
        · subst e
          rw [if_pos rfl, if_pos rfl, get2_tail_none t v l hn, Option.none_or,
            get?_foldl_self v (hn.2 (t, v) (List.mem_cons_self ..))]
          unfold get2
          cases get? f.defaults t <;> cases get? v b <;> rfl
        · rw [if_neg e, if_neg e]
      · intro a b
        rcases i4 a b with h | ⟨row, c, h1, h2, h3⟩
        · rw [h, hd]
          by_cases e : t = a
          · subst e
            rw [if_pos rfl]
            rcases get?_foldl_or v ((get? f.defaults t).getD []) b with h' | ⟨c, h1, h2⟩
            · left
              rw [h']
              unfold get2
              cases get? f.defaults t <;> rfl
            · exact .inr ⟨v, c, List.mem_cons_self .., h1, h2⟩
          · rw [if_neg e]; exact .inl rfl
        · exact .inr ⟨row, c, List.mem_cons_of_mem _ h1, h2, h3⟩
    · rename_i hg
      refine ⟨?_, rfl, fun _ h => by simp at h, fun t x => .inl rfl⟩
      rw [hgd]
      simp [hg]

theorem panDefaultsRow_partly (t : String) (v : List (String × Cell)) (f : Factory V K) :
    (Factory.panDefaultsRow t v f).1 = { f with defaults := (Factory.panDefaultsRow t v f).1.defaults } ∧
    ∀ a b, get2 (Factory.panDefaultsRow t v f).1.defaults a b = get2 f.defaults a b ∨
      ∃ c, a = t ∧ (b, c) ∈ v ∧ get2 (Factory.panDefaultsRow t v f).1.defaults a b = some c := by
  induction v generalizing f with
  | nil => exact ⟨rfl, fun _ _ => .inl rfl⟩
  | cons p v ih =>
    obtain ⟨x, c⟩ := p
    rw [Factory.panDefaultsRow]
    cases hs : f.setDefault t x c with
    | none => exact ⟨rfl, fun _ _ => .inl rfl⟩
    | some g =>
      have hg : g = { f with defaults := set2 f.defaults t x c } := by
        unfold Factory.setDefault at hs
        split at hs
        · simpa using hs.symm
        · simp at hs
      obtain ⟨i1, i2⟩ := ih g
      constructor
      · simp only
        rw [i1, hg]
      · intro a b
        rcases i2 a b with h | ⟨c', h1, h2, h3⟩
        · simp only
          rw [h, hg]
          simp only
          rw [get2_set2]
          by_cases e : t = a ∧ x = b
          · rw [if_pos e]
            exact .inr ⟨c, e.1.symm, by rw [e.2]; exact List.mem_cons_self .., rfl⟩
          · rw [if_neg e]; exact .inl rfl
        · exact .inr ⟨c', h1, List.mem_cons_of_mem _ h2, h3⟩

theorem panDefaultsLoop_partly (l : List (String × PyDict String Cell)) (f : Factory V K) :
    (Factory.panDefaultsLoop l f).1 = { f with defaults := (Factory.panDefaultsLoop l f).1.defaults } ∧
    ∀ a b, get2 (Factory.panDefaultsLoop l f).1.defaults a b = get2 f.defaults a b ∨
      ∃ row c, (a, row) ∈ l ∧ (b, c) ∈ row ∧ get2 (Factory.panDefaultsLoop l f).1.defaults a b = some c := by
  induction l generalizing f with
  | nil => exact ⟨rfl, fun _ _ => .inl rfl⟩
  | cons p l ih =>
    obtain ⟨t, v⟩ := p
    rw [Factory.panDefaultsLoop]
    split
    · have hrow := panDefaultsRow_partly t v f
      split
      · rename_i g hg
        rw [hg] at hrow
        obtain ⟨r1, r2⟩ := hrow
        obtain ⟨i1, i2⟩ := ih g
        constructor
        · rw [i1]; simp only at r1; rw [r1]
        · intro a b
          rcases i2 a b with h | ⟨row, c, h1, h2, h3⟩
          · rcases r2 a b with h' | ⟨c, rfl, h2, h3⟩
            · exact .inl (h.trans h')
            · exact .inr ⟨v, c, List.mem_cons_self .., h2, h.trans h3⟩
          · exact .inr ⟨row, c, List.mem_cons_of_mem _ h1, h2, h3⟩
      · rename_i g hg
        rw [hg] at hrow
        obtain ⟨r1, r2⟩ := hrow
        refine ⟨r1, fun a b => ?_⟩
        rcases r2 a b with h' | ⟨c, rfl, h2, h3⟩
        · exact .inl h'
        · exact .inr ⟨v, c, List.mem_cons_self .., h2, h3⟩
    · exact ⟨rfl, fun _ _ => .inl rfl⟩

theorem setDefaults_exact (cls : FKind) (env : FactoryEnv) (f g : Factory V K) (l : PyDict String (PyDict String Cell)) (raised : Bool)
    (hl : IsDict2 l) (h : (match cls with | .tic => f.setDefaults l | .pan => f.panSetDefaults l) = (g, raised)) :
    SetterOK f g (.setDefaults l) raised (CallAllowed cls env f (.setDefaults l)) := by
  have ht : SetterOK f (f.setDefaults l).1 (.setDefaults l) (f.setDefaults l).2 (f.used = false ∧ GoodDefaults f.tables l) := by
    unfold Factory.setDefaults
    cases hu : f.used with
    | true => exact ⟨by simp, by simp, fun _ => .inl rfl⟩
    | false =>
      obtain ⟨i1, i2, i3, i4⟩ := setDefaultsLoop_exact l f
      simp only [Bool.false_eq_true, if_false]
      exact ⟨i1.trans (by simp), fun hr => ⟨i2, i3 hl hr⟩, fun _ => .inr ⟨l, rfl, hu, i2, i4⟩⟩
  cases cls with
  | tic =>
    simp only at h
    rw [h] at ht
    exact ht
  | pan =>
    simp only at h
    obtain ⟨a1, a2⟩ := set_defaults_agree f l
    rw [h] at a1 a2
    simp only at a1 a2
    rw [← a1] at ht a2
    refine ⟨ht.1, ?_, ?_⟩
    · intro hr
      have e := ht.2.1 hr
      obtain ⟨b1, b2⟩ := a2 hr
      have hp := (panDefaultsLoop_partly l f).1
      have hu := (ht.1.1 hr).1
      unfold Factory.panSetDefaults at h
      rw [if_neg (by simp [hu])] at h
      rw [h] at hp
      refine ⟨hp, fun t x => ?_⟩
      rw [b2 t x]
      exact e.2 t x
    · intro hr
      cases hu : f.used with
      | true =>
        unfold Factory.panSetDefaults at h
        rw [if_pos hu] at h
        simp only [Prod.mk.injEq] at h
        exact .inl h.1.symm
      | false =>
        have hp := panDefaultsLoop_partly l f
        unfold Factory.panSetDefaults at h
        rw [if_neg (by simp [hu])] at h
        rw [h] at hp
        exact .inr ⟨l, rfl, hu, hp.1, hp.2⟩

/-! ### Row predicates -/

theorem addPred_exact (f : Factory V K) (hf : IsDict2 f.preds) (c : PredCall V K) :
    Effect f { f with preds := addPred f.preds c } (.addRowPred c) := by
  refine ⟨rfl, ?_⟩
  cases hp : c.pred with
  | none =>
    have same : ∀ n, get2 f.preds c.table n = none → Sets2 f.preds c.table n none f.preds := by
      intro n e a b
      by_cases hab : a = c.table ∧ b = n
      · rw [if_pos hab, hab.1, hab.2, e]
      · rw [if_neg hab]
    cases hn : c.name with
    | none =>
      right
      refine ⟨rfl, rfl, ?_⟩
      unfold addPred
      rw [hp, hn]
      cases get? f.preds c.table <;> rfl
    | some n =>
      left
      refine ⟨n, .inl rfl, ?_⟩
      unfold addPred
      rw [hp, hn]
      cases hr : get? f.preds c.table with
      | none => exact same n (by unfold get2; rw [hr]; rfl)
      | some cur => exact sets2_erase hf hr n
  | some p =>
    left
    refine ⟨c.name.getD (.num (leastFree (keys ((get? f.preds c.table).getD [])))), ?_, ?_⟩
    · cases hn : c.name with
      | some n => exact .inl rfl
      | none =>
        refine .inr ⟨rfl, _, rfl, ?_, ?_⟩
        · have := (leastFree_spec (keys ((get? f.preds c.table).getD []))).1
          unfold get2
          cases hr : get? f.preds c.table with
          | none => rfl
          | some cur =>
            rw [hr] at this
            exact (get?_eq_none _ _).2 this
        · intro j hj e
          have := (leastFree_spec (keys ((get? f.preds c.table).getD []))).2 j hj
          unfold get2 at e
          cases hr : get? f.preds c.table with
          | none => rw [hr] at this; simp [keys] at this
          | some cur =>
            rw [hr] at this e
            exact (get?_eq_none _ _).1 e this
    · have : addPred f.preds c = set2 f.preds c.table (c.name.getD (.num (leastFree (keys ((get? f.preds c.table).getD []))))) p := by
        unfold addPred set2
        rw [hp]
      rw [this]
      exact sets2_set2 _ _ _ _

/-! ### All calls -/

theorem dictsOK_tic {env : FactoryEnv} {f : Factory V K} (h : Reachable env f) : DictsOK f :=
  have i := reachable_inv env f h
  ⟨i.types_dict, i.preds_dict, i.params_nodup, i.tips_nodup⟩

theorem dictsOK_pan {env : FactoryEnv} {f : Factory V K} (h : PanReachable env f) : DictsOK f :=
  have i := pan_inv h
  have j := reachable_inv env f.bare i.bare
  ⟨j.types_dict, i.preds_dict, j.params_nodup, j.tips_nodup⟩

theorem implied_keeps {s : Schema} {n : Nat} {a b : List FK} (h : ImpliedRun s n a b) : ∀ k ∈ a, k ∈ b := by
  induction h with
  | stop _ => exact fun _ h => h
  | step hst _ ih =>
    obtain ⟨d, _, rfl⟩ := hst
    exact fun k hk => ih k (List.mem_cons_of_mem _ hk)

/-- **C87.**  Every configuration call on a `TicDatFactory`, in any state that calls lead to: it raises exactly when it is not allowed; if
it does not raise it changes what it names, and nothing else; if it raises it changes nothing (but `set_default_values` may have set a
part of the given values). -/
theorem tic_setters_exact (env : FactoryEnv) (f g : Factory V K) (op : FOp V K) (raised : Bool) (hr : Reachable env f)
    (hp : ProperArgs op) (h : FStep env f op g raised) :
    (raised = false ↔ CallAllowed .tic env f op) ∧ (raised = false → Effect f g op) ∧ (raised = true → g = f ∨ PartlySet f g op) := by
  have hd := dictsOK_tic hr
  cases h with
  | impliedUsed hu => exact ⟨by simp [CallAllowed, hu], by simp, fun _ => .inl rfl⟩
  | implied hu hrun => exact ⟨by simp [CallAllowed, hu], fun _ => ⟨rfl, implied_keeps hrun⟩, by simp⟩
  | plain hne h =>
    by_cases hs : SharedCall op
    · exact shared_setters .tic env f g op raised hd hs h
    · cases op with
      | addImplied => exact absurd rfl hne
      | setDefaults l => exact setDefaults_exact .tic env f g l raised hp h
      | setGenerators gs =>
        refine setterOK_try _ h ?_ ?_
        · have hpk : ∀ t, f.pkless t = true ↔ ∃ dfs, get? f.tables t = some (.fields [] dfs) := by
            intro t
            unfold Factory.pkless
            split
            · rename_i dfs e; simp [e]
            · rename_i hn
              simp only [Bool.false_eq_true, false_iff]
              rintro ⟨dfs, e⟩
              exact hn dfs e
          unfold Factory.setGenerators
          simp only [CallAllowed, ← hpk, true_and]
          cases hu : f.used with
          | true => simp
          | false =>
            by_cases ha : gs.all f.pkless = true
            · simp only [Bool.false_eq_true, if_false, ha, if_true, true_and]
              exact ⟨fun _ => List.all_eq_true.1 ha, fun _ => ⟨_, rfl⟩⟩
            · simp only [Bool.false_eq_true, if_false, ha, true_and]
              exact ⟨fun ⟨_, e⟩ => by simp at e, fun h => absurd (List.all_eq_true.2 h) ha⟩
        · intro g e
          unfold Factory.setGenerators at e
          split at e
          · simp at e
          · split at e
            · simp only [Option.some.injEq] at e; exact e.symm
            · simp at e
      | addRowPred c =>
        refine setterOK_try _ h ?_ ?_
        · unfold Factory.addRowPred
          simp only [CallAllowed, forall_const]
          cases hu : f.used with
          | true => simp
          | false =>
            simp only [Bool.false_eq_true, if_false, true_and]
            cases hg : get? f.tables c.table with
            | none =>
              have := (get?_eq_none f.tables c.table).1 hg
              simp [this]
            | some d =>
              have hm : c.table ∈ keys f.tables := List.mem_map.2 ⟨_, get?_mem hg, rfl⟩
              cases d with
              | generic => simp
              | fields pks dfs =>
                by_cases hgen : c.table ∈ f.generators <;> simp [hgen, hm]
        · intro g e
          unfold Factory.addRowPred at e
          split at e
          · simp at e
          · split at e
            · split at e
              · simp at e
              · simp only [Option.some.injEq] at e
                subst e
                exact addPred_exact f hd.preds c
            · simp at e
      | enableLinks =>
        simp only [Factory.apply, Prod.mk.injEq] at h
        obtain ⟨rfl, rfl⟩ := h
        exact ⟨⟨fun _ => rfl, fun _ => rfl⟩, fun _ => rfl, fun h => by simp at h⟩
      | _ => exact absurd trivial hs

/-- **C87.**  The same of a `PanDatFactory`, which has no generator tables, implied foreign keys and foreign key links, and accepts
predicates on generic tables. -/
theorem pan_setters_exact (env : FactoryEnv) (f g : Factory V K) (op : FOp V K) (raised : Bool) (hr : PanReachable env f)
    (hp : ProperArgs op) (h : f.applyPan env op = (g, raised)) :
    (raised = false ↔ CallAllowed .pan env f op) ∧ (raised = false → Effect f g op) ∧ (raised = true → g = f ∨ PartlySet f g op) := by
  have hd := dictsOK_pan hr
  by_cases hs : SharedCall op
  · rw [shared_apply env f op hs] at h
    exact shared_setters .pan env f g op raised hd hs h
  · have no : ∀ op' : FOp V K, (f, true) = (g, raised) → ¬ CallAllowed .pan env f op' → SetterOK f g op' raised (CallAllowed .pan env f op') := by
      intro op' e hn
      simp only [Prod.mk.injEq] at e
      obtain ⟨rfl, rfl⟩ := e
      exact ⟨⟨fun h => by simp at h, fun h => absurd h hn⟩, fun h => by simp at h, fun _ => .inl rfl⟩
    cases op with
    | addImplied => exact no _ h (by simp [CallAllowed])
    | setDefaults l => exact setDefaults_exact .pan env f g l raised hp h
    | setGenerators gs => exact no _ h (by simp [CallAllowed])
    | addRowPred c =>
      refine setterOK_try _ h ?_ ?_
      · unfold Factory.panAddRowPred
        simp only [CallAllowed]
        rw [← has_iff]
        cases f.used <;> cases has f.tables c.table <;> simp
      · intro g e
        unfold Factory.panAddRowPred at e
        split at e
        · simp at e
        · split at e
          · simp only [Option.some.injEq] at e
            subst e
            exact addPred_exact f hd.preds c
          · simp at e
    | enableLinks => exact no _ h (by simp [CallAllowed])
    | _ => exact absurd trivial hs

/-! ### Examples and findings -/

/-- The hypotheses are met by calls that are accepted and calls that are refused, in a state with foreign keys, data types and
parameters. -/
example : Reachable exEnv (exFactory0.applyAll exEnv (exOps.take 10)) ∧
    ((exFactory0.applyAll exEnv (exOps.take 10)).apply exEnv (.setDefault "foods" "cost" (.bool true))).2 = false ∧
    ((exFactory0.applyAll exEnv (exOps.take 10)).apply exEnv (.setDefault "foods" "cost" .nan)).2 = false ∧
    ((exFactory0.applyAll exEnv (exOps.take 10)).apply exEnv (.setDefault "foods" "cost" (.dt 3))).2 = true ∧
    ((exFactory0.applyAll exEnv (exOps.take 10)).apply exEnv (.setDataType "parameters" "value" exArgs)).2 = true ∧
    ((exFactory0.applyAll exEnv (exOps.take 10)).apply exEnv (.setDataType "parameters" "name" exArgs)).2 = false ∧
    ((exFactory0.applyAll exEnv (exOps.take 10)).apply exEnv (.clearFKs (some "links"))).1.fks = [] := by
  refine ⟨⟨exTables, exFactory0, exOps.take 10, by decide +kernel, exFactory0_new, applyAll_run _ _ _ ?_⟩, ?_⟩
  · simp [exOps]
  · decide +kernel

def halfDefaults : PyDict String (PyDict String Cell) :=
  [("foods", [("cost", .num (.fin 7))]), ("links", [("cap", .num (.fin 8)), ("kind", .dt 1)])]

/-- **Finding (C87).**  `set_default_values` is not atomic.  With a bad value for the second table it raises, but the default value of the
first table is changed; a `PanDatFactory` has also changed the first field of the second table. -/
theorem set_default_values_not_atomic :
    (exFactory0.apply exEnv (.setDefaults halfDefaults)).2 = true ∧
    get2 (exFactory0.apply exEnv (.setDefaults halfDefaults)).1.defaults "foods" "cost" = some (.num (.fin 7)) ∧
    get2 (exFactory0.apply exEnv (.setDefaults halfDefaults)).1.defaults "links" "cap" = some (.num (.fin 0)) ∧
    (exFactory0.applyPan exEnv (.setDefaults halfDefaults)).2 = true ∧
    get2 (exFactory0.applyPan exEnv (.setDefaults halfDefaults)).1.defaults "foods" "cost" = some (.num (.fin 7)) ∧
    get2 (exFactory0.applyPan exEnv (.setDefaults halfDefaults)).1.defaults "links" "cap" = some (.num (.fin 8)) := by
  decide +kernel

end Ticdat

import Verif.Model.Group
import Verif.Lemmas.FindFK2
/-! # Lemmas on the scan and on grouping -/
namespace Ticdat

theorem scanChecks_eq {E : Type} (lim : Option Nat) (hl : lim ≠ some 0) (cs : List (Option (Option E)))
    (h : ∀ c ∈ cs, c ≠ none) :
    scanChecks lim cs [] = some (takeLim lim (cs.filterMap Option.join)).reverse := by
  have key : ∀ (cs : List (Option (Option E))) (acc : List E), (∀ c ∈ cs, c ≠ none) →
      (∀ n, lim = some n → acc.length < n) →
      scanChecks lim cs acc = some ((match lim with
        | none => cs.filterMap Option.join
        | some n => (cs.filterMap Option.join).take (n - acc.length)).reverse ++ acc) := by
    intro cs
    induction cs with
    | nil => intro acc _ _; cases lim <;> simp [scanChecks]
    | cons c cs ih =>
      intro acc h hacc
      have hcs : ∀ c ∈ cs, c ≠ none := fun x hx => h x (List.mem_cons_of_mem _ hx)
      match c, h c List.mem_cons_self with
      | some none, _ =>
        rw [scanChecks, ih acc hcs hacc]
        simp
      | some (some e), _ =>
        rw [scanChecks]
        cases hlim : lim with
        | none =>
          subst hlim
          simp only [tripsEnd, Bool.false_eq_true, if_false]
          rw [ih (e :: acc) hcs (by simp)]
          simp
        | some n =>
          subst hlim
          have hn := hacc n rfl
          simp only [tripsEnd, decide_eq_true_eq]
          by_cases hc : n ≤ acc.length + 1
          · have : n - acc.length = 1 := by omega
            simp [hc, this]
          · simp only [hc, if_false]
            rw [ih (e :: acc) hcs (by intro m hm; simp at hm ⊢; omega)]
            have e1 : n - acc.length = (n - (acc.length + 1)) + 1 := by omega
            simp [e1]
  rw [key cs [] h (by intro n hn; subst hn; simp at hl ⊢; omega)]
  cases lim <;> simp [takeLim]

/-- Equivalence relations as Boolean functions. -/
structure EqvB {A : Type} (eqv : A → A → Bool) : Prop where
  refl : ∀ a, eqv a a = true
  symm : ∀ a b, eqv a b = true → eqv b a = true
  trans : ∀ a b c, eqv a b = true → eqv b c = true → eqv a c = true

theorem eqvB_eq {A : Type} [DecidableEq A] : EqvB (fun a b : A => decide (a = b)) :=
  ⟨by simp, by simp [eq_comm], by intro a b c h1 h2; simp_all⟩

theorem eqvB_pyEq {A B : Type} [DecidableEq B] (f : A → B) : EqvB (fun a b : A => decide (f a = f b)) :=
  ⟨by simp, by simp [eq_comm], by intro a b c h1 h2; simp_all⟩

/-- What a `defaultdict(set)` holds after the adds `es`. -/
structure GroupInv {K A : Type} [DecidableEq K] (eqv : A → A → Bool) (es : List (K × A)) (d : PyDict K (List A)) :
    Prop where
  nodup : (PyDict.keys d).Nodup
  mem_keys : ∀ k, k ∈ PyDict.keys d ↔ ∃ a, (k, a) ∈ es
  sound : ∀ k l, d.get? k = some l → ∀ a ∈ l, (k, a) ∈ es
  complete : ∀ k l, d.get? k = some l → ∀ a, (k, a) ∈ es → ∃ b ∈ l, eqv a b = true
  distinct : ∀ k l, d.get? k = some l → l.Pairwise (fun a b => eqv a b = false)

theorem groupInv_step {K A : Type} [DecidableEq K] {eqv : A → A → Bool} (he : EqvB eqv) {es : List (K × A)}
    {d : PyDict K (List A)} (h : GroupInv eqv es d) (k : K) (x : A) :
    GroupInv eqv (es ++ [(k, x)]) (groupAddBy eqv d k x) := by
  have hkeys : ∀ v, ∀ k', k' ∈ PyDict.keys (PyDict.set d k v) ↔ ∃ a, (k', a) ∈ es ++ [(k, x)] := by
    intro v k'
    rw [PyDict.keys_set_mem, h.mem_keys]
    simp only [List.mem_append, List.mem_singleton, Prod.mk.injEq]
    constructor
    · rintro (rfl | ⟨a, ha⟩)
      · exact ⟨x, Or.inr ⟨rfl, rfl⟩⟩
      · exact ⟨a, Or.inl ha⟩
    · rintro ⟨a, ha | ⟨rfl, rfl⟩⟩
      · exact Or.inr ⟨a, ha⟩
      · exact Or.inl rfl
  unfold groupAddBy
  cases hg : d.get? k with
  | none =>
    have hno : ∀ a, (k, a) ∉ es := by
      intro a ha
      exact (PyDict.get?_eq_none _ _).1 hg ((h.mem_keys k).2 ⟨a, ha⟩)
    refine ⟨PyDict.keys_set_nodup _ _ _ h.nodup, hkeys _, ?_, ?_, ?_⟩
    · intro k' l; dsimp only; rw [PyDict.get?_set]
      by_cases hk : k = k'
      · subst hk; simp only [if_true, Option.some.injEq]; rintro rfl a ha; simp at ha; simp [ha]
      · simp only [hk, if_false]; intro hl a ha; exact List.mem_append_left _ (h.sound k' l hl a ha)
    · intro k' l; dsimp only; rw [PyDict.get?_set]
      by_cases hk : k = k'
      · subst hk; simp only [if_true, Option.some.injEq]; rintro rfl a ha
        simp only [List.mem_append, hno a, false_or, List.mem_singleton, Prod.mk.injEq, true_and] at ha
        exact ⟨x, by simp, by rw [ha]; exact he.refl x⟩
      · simp only [hk, if_false]; intro hl a ha
        simp only [List.mem_append, List.mem_singleton, Prod.mk.injEq] at ha
        rcases ha with ha | ⟨e, _⟩
        · exact h.complete k' l hl a ha
        · exact absurd e.symm hk
    · intro k' l; dsimp only; rw [PyDict.get?_set]
      by_cases hk : k = k'
      · subst hk; simp only [if_true, Option.some.injEq]; rintro rfl; simp
      · simp only [hk, if_false]; exact h.distinct k' l
  | some l0 =>
    refine ⟨PyDict.keys_set_nodup _ _ _ h.nodup, hkeys _, ?_, ?_, ?_⟩
    · intro k' l; dsimp only; rw [PyDict.get?_set]
      by_cases hk : k = k'
      · subst hk; simp only [if_true, Option.some.injEq]; rintro rfl a ha
        unfold setAddBy at ha
        split at ha
        · exact List.mem_append_left _ (h.sound k l0 hg a ha)
        · rcases List.mem_append.1 ha with ha | ha
          · exact List.mem_append_left _ (h.sound k l0 hg a ha)
          · simp at ha; simp [ha]
      · simp only [hk, if_false]; intro hl a ha; exact List.mem_append_left _ (h.sound k' l hl a ha)
    · intro k' l; dsimp only; rw [PyDict.get?_set]
      by_cases hk : k = k'
      · subst hk; simp only [if_true, Option.some.injEq]; rintro rfl a ha
        simp only [List.mem_append, List.mem_singleton, Prod.mk.injEq, true_and] at ha
        unfold setAddBy
        rcases ha with ha | rfl
        · obtain ⟨b, hb, hab⟩ := h.complete k l0 hg a ha
          split
          · exact ⟨b, hb, hab⟩
          · exact ⟨b, List.mem_append_left _ hb, hab⟩
        · split
          · rename_i hany
            obtain ⟨b, hb, hab⟩ := List.any_eq_true.1 hany
            exact ⟨b, hb, hab⟩
          · exact ⟨a, by simp, he.refl a⟩
      · simp only [hk, if_false]; intro hl a ha
        simp only [List.mem_append, List.mem_singleton, Prod.mk.injEq] at ha
        rcases ha with ha | ⟨e, _⟩
        · exact h.complete k' l hl a ha
        · exact absurd e.symm hk
    · intro k' l; dsimp only; rw [PyDict.get?_set]
      by_cases hk : k = k'
      · subst hk; simp only [if_true, Option.some.injEq]; rintro rfl
        unfold setAddBy
        split
        · exact h.distinct k l0 hg
        · rename_i hany
          rw [List.pairwise_append]
          refine ⟨h.distinct k l0 hg, by simp, ?_⟩
          intro a ha b hb
          simp at hb; subst hb
          cases hab : eqv a b with
          | false => rfl
          | true => exact absurd (List.any_eq_true.2 ⟨a, ha, he.symm _ _ hab⟩) hany
      · simp only [hk, if_false]; exact h.distinct k' l

theorem groupBy_inv {K A : Type} [DecidableEq K] {eqv : A → A → Bool} (he : EqvB eqv) (es : List (K × A)) :
    GroupInv eqv es (groupBy eqv es) := by
  have : ∀ (es pre : List (K × A)) (d : PyDict K (List A)), GroupInv eqv pre d →
      GroupInv eqv (pre ++ es) (es.foldl (fun d e => groupAddBy eqv d e.1 e.2) d) := by
    intro es
    induction es with
    | nil => intro pre d h; simpa using h
    | cons e es ih =>
      intro pre d h
      have := ih (pre ++ [e]) _ (groupInv_step he h e.1 e.2)
      simpa using this
  simpa [groupBy] using this es [] [] ⟨by simp [PyDict.keys], by simp [PyDict.keys], by simp, by simp, by simp⟩

/-- Without repeated adds the number of entries is the number of adds. -/
theorem groupBy_total {K A : Type} [DecidableEq K] [DecidableEq A] (es : List (K × A)) (hn : es.Nodup) :
    ((groupBy (fun a b : A => decide (a = b)) es).map (fun p => p.2.length)).sum = es.length := by
  have : ∀ (es pre : List (K × A)) (d : PyDict K (List A)), GroupInv (fun a b : A => decide (a = b)) pre d →
      (pre ++ es).Nodup → (d.map (fun p => p.2.length)).sum = pre.length →
      ((es.foldl (fun d e => groupAddBy (fun a b : A => decide (a = b)) d e.1 e.2) d).map
        (fun p => p.2.length)).sum = (pre ++ es).length := by
    intro es
    induction es with
    | nil => intro pre d _ _ hd; simpa using hd
    | cons e es ih =>
      intro pre d h hn hd
      have hnew : e ∉ pre := by
        intro hm
        rw [List.nodup_append] at hn
        exact hn.2.2 e hm e (by simp) rfl
      have hstep := groupInv_step eqvB_eq h e.1 e.2
      have hsum : ((groupAddBy (fun a b : A => decide (a = b)) d e.1 e.2).map (fun p => p.2.length)).sum =
          (pre ++ [e]).length := by
        unfold groupAddBy
        cases hg : d.get? e.1 with
        | none =>
          have := sum_set_new (fun l : List A => l.length) d e.1 [e.2] hg
          simp only at this ⊢
          rw [this, hd]; simp
        | some l =>
          have hadd : setAddBy (fun a b : A => decide (a = b)) l e.2 = l ++ [e.2] := by
            unfold setAddBy
            rw [if_neg]
            intro hany
            obtain ⟨b, hb, hab⟩ := List.any_eq_true.1 hany
            simp at hab
            subst hab
            exact hnew (h.sound e.1 l hg e.2 hb)
          have := sum_set_old (fun l : List A => l.length) d e.1 (setAddBy (fun a b : A => decide (a = b)) l e.2) l hg
          simp only [hadd, List.length_append, List.length_singleton, hd] at this ⊢
          omega
      have := ih (pre ++ [e]) _ hstep (by simpa using hn) hsum
      simpa using this
  simpa [groupBy] using this es [] [] ⟨by simp [PyDict.keys], by simp [PyDict.keys], by simp, by simp, by simp⟩
    (by simpa using hn) (by simp)

end Ticdat

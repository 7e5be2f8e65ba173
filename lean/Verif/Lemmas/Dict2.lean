import Verif.Model.Factory
import Verif.Lemmas.Dict
/-!
# Nested dictionaries
-/
namespace Ticdat.PyDict
variable {A B C : Type} [DecidableEq A] [DecidableEq B]

theorem get2_set2 (d : PyDict A (PyDict B C)) (a a' : A) (b b' : B) (v : C) :
    get2 (set2 d a b v) a' b' = if a = a' ∧ b = b' then some v else get2 d a' b' := by
  unfold get2 set2
  rw [get?_set]
  by_cases ha : a = a'
  · subst ha
    simp only [if_true, Option.bind_some, true_and]
    rw [get?_set]
    by_cases hb : b = b'
    · simp [hb]
    · simp only [hb, if_false]
      cases get? d a with
      | none => rfl
      | some r => rfl
  · simp [ha]

/-- A nested dictionary whose keys are distinct at both levels. -/
def IsDict2 (d : PyDict A (PyDict B C)) : Prop := (keys d).Nodup ∧ ∀ p ∈ d, (keys p.2).Nodup

theorem isDict2_nil : IsDict2 ([] : PyDict A (PyDict B C)) := ⟨by simp [keys], by simp⟩

theorem mem_set {d : PyDict A C} {a : A} {v : C} {p : A × C} (h : p ∈ set d a v) : p ∈ d ∨ p = (a, v) := by
  induction d with
  | nil => simp [set] at h; exact .inr h
  | cons q rest ih =>
    obtain ⟨a', v'⟩ := q
    unfold set at h
    split at h
    · rename_i e
      subst e
      rcases List.mem_cons.1 h with h | h
      · exact .inr h
      · exact .inl (List.mem_cons_of_mem _ h)
    · rcases List.mem_cons.1 h with h | h
      · exact .inl (h ▸ List.mem_cons_self)
      · rcases ih h with h | h
        · exact .inl (List.mem_cons_of_mem _ h)
        · exact .inr h

theorem isDict2_set {d : PyDict A (PyDict B C)} (h : IsDict2 d) (a : A) {r : PyDict B C} (hr : (keys r).Nodup) :
    IsDict2 (set d a r) := by
  refine ⟨keys_set_nodup _ _ _ h.1, ?_⟩
  intro p hp
  rcases mem_set hp with hp | rfl
  · exact h.2 p hp
  · exact hr

theorem isDict2_getD {d : PyDict A (PyDict B C)} (h : IsDict2 d) (a : A) : (keys ((get? d a).getD [])).Nodup := by
  cases e : get? d a with
  | none => simp [keys]
  | some r => exact h.2 _ (get?_mem e)

theorem isDict2_set2 {d : PyDict A (PyDict B C)} (h : IsDict2 d) (a : A) (b : B) (v : C) : IsDict2 (set2 d a b v) :=
  isDict2_set h a (keys_set_nodup _ _ _ (isDict2_getD h a))

theorem mem_flat {d : PyDict A (PyDict B C)} (h : IsDict2 d) (a : A) (b : B) (v : C) :
    (a, b, v) ∈ flat d ↔ get2 d a b = some v := by
  unfold flat get2
  simp only [List.mem_flatMap, List.mem_map, Prod.mk.injEq, Option.bind_eq_some_iff]
  constructor
  · rintro ⟨⟨a', r⟩, h1, ⟨b', v'⟩, h2, rfl, rfl, rfl⟩
    exact ⟨r, get?_of_mem h.1 h1, get?_of_mem (h.2 _ h1) h2⟩
  · rintro ⟨r, h1, h2⟩
    exact ⟨(a, r), get?_mem h1, (b, v), get?_mem h2, rfl, rfl, rfl⟩

/-- The later entries of a list override the dictionary. -/
theorem get2_foldl_set2 (l : List (A × B × C)) (d : PyDict A (PyDict B C)) (a : A) (b : B) :
    get2 (l.foldl (fun d p => set2 d p.1 p.2.1 p.2.2) d) a b =
      match (l.reverse.find? (fun p => decide (p.1 = a ∧ p.2.1 = b))) with
      | some p => some p.2.2
      | none => get2 d a b := by
  induction l generalizing d with
  | nil => simp
  | cons p l ih =>
    rw [List.foldl_cons, ih, List.reverse_cons, List.find?_append]
    cases hf : l.reverse.find? (fun p => decide (p.1 = a ∧ p.2.1 = b)) with
    | some q => simp
    | none =>
      simp only [Option.none_or, List.find?_singleton]
      rw [get2_set2]
      by_cases hp : p.1 = a ∧ p.2.1 = b
      · simp [hp]
      · simp [hp]

theorem get2_foldl_flat (e : PyDict A (PyDict B C)) (he : IsDict2 e) (d : PyDict A (PyDict B C)) (a : A) (b : B) :
    get2 ((flat e).foldl (fun d p => set2 d p.1 p.2.1 p.2.2) d) a b =
      match get2 e a b with
      | some v => some v
      | none => get2 d a b := by
  rw [get2_foldl_set2]
  cases hf : (flat e).reverse.find? (fun p => decide (p.1 = a ∧ p.2.1 = b)) with
  | some p =>
    have hm := List.mem_of_find?_eq_some hf
    have hp := List.find?_some hf
    simp only [decide_eq_true_eq] at hp
    obtain ⟨a', b', v⟩ := p
    obtain ⟨rfl, rfl⟩ := hp
    rw [(mem_flat he _ _ _).1 (List.mem_reverse.1 hm)]
  | none =>
    rw [List.find?_eq_none] at hf
    cases hg : get2 e a b with
    | none => rfl
    | some v => exact absurd (by simp) (hf (a, b, v) (List.mem_reverse.2 ((mem_flat he _ _ _).2 hg)))

theorem isDict2_foldl (l : List (A × B × C)) (d : PyDict A (PyDict B C)) (h : IsDict2 d) :
    IsDict2 (l.foldl (fun d p => set2 d p.1 p.2.1 p.2.2) d) := by
  induction l generalizing d with
  | nil => exact h
  | cons p l ih => exact ih _ (isDict2_set2 h _ _ _)

theorem get?_foldl_self (e : PyDict A C) (he : (keys e).Nodup) (d : PyDict A C) (a : A) :
    get? (e.foldl (fun d p => set d p.1 p.2) d) a =
      match get? e a with
      | some v => some v
      | none => get? d a := by
  induction e generalizing d with
  | nil => rfl
  | cons p e ih =>
    obtain ⟨k, v⟩ := p
    simp only [keys, List.map_cons, List.nodup_cons] at he
    rw [List.foldl_cons, ih he.2]
    simp only [get?]
    by_cases hk : k = a
    · subst hk
      have : get? e k = none := (get?_eq_none e k).2 he.1
      simp [this, get?_set]
    · simp only [hk, if_false, get?_set]

end Ticdat.PyDict

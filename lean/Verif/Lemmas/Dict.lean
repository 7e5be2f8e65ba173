import Verif.Model.Dict
/-! Lemmas about the model of Python dictionaries. -/
namespace Ticdat
namespace PyDict
variable {K V : Type} [DecidableEq K]

@[simp] theorem get?_nil (k : K) : get? ([] : PyDict K V) k = none := rfl

theorem get?_set (d : PyDict K V) (k k' : K) (v : V) :
    get? (set d k v) k' = if k = k' then some v else get? d k' := by
  induction d with
  | nil => simp [set, get?]
  | cons p rest ih =>
    obtain ⟨a, b⟩ := p
    simp only [set]
    by_cases h : a = k
    · subst h
      by_cases h2 : a = k' <;> simp [get?, h2]
    · by_cases h2 : a = k'
      · subst h2; simp [get?, h, Ne.symm h]
      · simp [get?, h, h2, ih]

theorem keys_set_mem (d : PyDict K V) (k k' : K) (v : V) :
    k' ∈ keys (set d k v) ↔ k' = k ∨ k' ∈ keys d := by
  induction d with
  | nil => simp [set, keys]
  | cons p rest ih =>
    obtain ⟨a, b⟩ := p
    simp only [keys] at ih
    by_cases h : a = k
    · subst h; simp [set, keys]
    · simp only [set, h, if_false, keys, List.map_cons, List.mem_cons, ih]
      grind

theorem keys_set_nodup (d : PyDict K V) (k : K) (v : V) (h : (keys d).Nodup) :
    (keys (set d k v)).Nodup := by
  induction d with
  | nil => simp [set, keys]
  | cons p rest ih =>
    obtain ⟨a, b⟩ := p
    simp only [keys, List.map_cons, List.nodup_cons] at h ih ⊢
    by_cases h' : a = k
    · subst h'; simpa [set] using h
    · simp only [set, h', if_false, List.map_cons, List.nodup_cons]
      refine ⟨?_, ih h.2⟩
      have := keys_set_mem rest k a v
      simp only [keys] at this
      rw [this]; grind

theorem get?_eq_none (d : PyDict K V) (k : K) : get? d k = none ↔ k ∉ keys d := by
  induction d with
  | nil => simp [keys]
  | cons p rest ih =>
    obtain ⟨a, b⟩ := p
    by_cases h : a = k
    · simp [get?, keys, h]
    · simp only [get?, h, if_false, ih, keys, List.map_cons, List.mem_cons]; grind

theorem has_iff (d : PyDict K V) (k : K) : has d k = true ↔ k ∈ keys d := by
  have := get?_eq_none d k
  unfold has
  cases h : get? d k <;> simp_all

theorem get?_mem {d : PyDict K V} {k : K} {v : V} (h : get? d k = some v) : (k, v) ∈ d := by
  induction d with
  | nil => simp at h
  | cons p rest ih =>
    obtain ⟨a, b⟩ := p
    by_cases h' : a = k
    · simp [get?, h'] at h; simp [h', h]
    · simp [get?, h'] at h; simp [ih h]

theorem get?_of_mem {d : PyDict K V} {k : K} {v : V} (hn : (keys d).Nodup) (h : (k, v) ∈ d) :
    get? d k = some v := by
  induction d with
  | nil => simp at h
  | cons p rest ih =>
    obtain ⟨a, b⟩ := p
    simp only [keys, List.map_cons, List.nodup_cons] at hn
    rcases List.mem_cons.1 h with h | h
    · cases h; simp [get?]
    · have : a ≠ k := by
        intro e; subst e; exact hn.1 (List.mem_map.2 ⟨_, h, rfl⟩)
      simp [get?, this, ih hn.2 h]

theorem get?_iff_mem {d : PyDict K V} {k : K} {v : V} (hn : (keys d).Nodup) :
    get? d k = some v ↔ (k, v) ∈ d := ⟨get?_mem, get?_of_mem hn⟩

theorem erase_eq_filter (d : PyDict K V) (k : K) (hn : (keys d).Nodup) :
    erase d k = d.filter (fun p => p.1 ≠ k) := by
  induction d with
  | nil => rfl
  | cons p rest ih =>
    obtain ⟨a, b⟩ := p
    simp only [keys, List.map_cons, List.nodup_cons] at hn
    by_cases h : a = k
    · subst h
      simp only [erase, if_true, List.filter_cons, ne_eq, not_true_eq_false, decide_false]
      symm
      simp only [Bool.false_eq_true, if_false]
      rw [List.filter_eq_self]
      intro q hq
      have : q.1 ≠ a := fun e => hn.1 (List.mem_map.2 ⟨q, hq, e⟩)
      simpa using this
    · simp only [erase, h, if_false, List.filter_cons]
      simp [ih hn.2, h]

theorem get?_erase (d : PyDict K V) (k k' : K) (hn : (keys d).Nodup) :
    get? (erase d k) k' = if k = k' then none else get? d k' := by
  induction d with
  | nil => simp [erase]
  | cons p rest ih =>
    obtain ⟨a, b⟩ := p
    simp only [keys, List.map_cons, List.nodup_cons] at hn
    by_cases h : a = k
    · subst h
      by_cases h2 : a = k'
      · subst h2
        simpa [erase] using (get?_eq_none rest a).2 hn.1
      · simp [erase, get?, h2]
    · by_cases h2 : a = k'
      · subst h2; simp [erase, get?, h, Ne.symm h]
      · simp [erase, get?, h, h2, ih hn.2]

theorem keys_erase_sublist (d : PyDict K V) (k : K) : (keys (erase d k)).Sublist (keys d) := by
  induction d with
  | nil => simp [erase]
  | cons p rest ih =>
    obtain ⟨a, b⟩ := p
    by_cases h : a = k
    · simp [erase, keys, h]
    · simpa [erase, keys, h] using ih

theorem keys_erase_nodup (d : PyDict K V) (k : K) (hn : (keys d).Nodup) :
    (keys (erase d k)).Nodup := (keys_erase_sublist d k).nodup hn

theorem set_of_not_mem (d : PyDict K V) (k : K) (v : V) (h : k ∉ keys d) :
    set d k v = d ++ [(k, v)] := by
  induction d with
  | nil => rfl
  | cons p rest ih =>
    obtain ⟨a, b⟩ := p
    simp only [keys, List.map_cons, List.mem_cons, not_or] at h ih
    simp [set, Ne.symm h.1, ih h.2]

theorem ofList_foldl_nodup (l : List (K × V)) (d : PyDict K V) (h : (keys d).Nodup) :
    (keys (l.foldl (fun d p => set d p.1 p.2) d)).Nodup := by
  induction l generalizing d with
  | nil => exact h
  | cons p rest ih => exact ih _ (keys_set_nodup _ _ _ h)

theorem ofList_keys_nodup (l : List (K × V)) : (keys (ofList l)).Nodup :=
  ofList_foldl_nodup l [] (by simp [keys])

theorem ofList_of_nodup (l : List (K × V)) (h : (keys l).Nodup) : ofList l = l := by
  have : ∀ (l d : List (K × V)), (keys (d ++ l)).Nodup →
      l.foldl (fun d p => set d p.1 p.2) d = d ++ l := by
    intro l
    induction l with
    | nil => simp
    | cons p rest ih =>
      intro d hd
      have hk : p.1 ∉ keys d := by
        simp only [keys, List.map_append, List.map_cons] at hd ⊢
        have := (List.nodup_append.1 hd).2.2
        intro hmem
        exact this _ hmem _ (List.mem_cons_self) rfl
      simp only [List.foldl_cons, set_of_not_mem d p.1 p.2 hk]
      rw [ih]
      · simp
      · simpa using hd
  have := this l [] (by simpa using h)
  simpa [ofList] using this

theorem get?_foldl_set (l : List (K × V)) (d : PyDict K V) (k : K) :
    get? (l.foldl (fun d p => set d p.1 p.2) d) k =
      match (l.reverse.find? (fun p => p.1 = k)) with
      | some p => some p.2
      | none => get? d k := by
  induction l generalizing d with
  | nil => simp
  | cons p rest ih =>
    simp only [List.foldl_cons, ih, List.reverse_cons, List.find?_append, List.find?_cons,
      List.find?_nil]
    cases h : rest.reverse.find? (fun p => decide (p.1 = k)) with
    | some q => simp
    | none =>
      by_cases h2 : p.1 = k
      · simp [get?_set, h2]
      · simp [get?_set, h2]

theorem keys_ofList_mem (l : List (K × V)) (k : K) : k ∈ keys (ofList l) ↔ k ∈ l.map Prod.fst := by
  have h := get?_foldl_set l [] k
  have h2 := get?_eq_none (ofList l) k
  unfold ofList at *
  rw [h] at h2
  cases h3 : l.reverse.find? (fun p => decide (p.1 = k)) with
  | some q =>
    simp only [h3] at h2
    have := List.find?_some h3
    have hm := List.mem_of_find?_eq_some h3
    simp at this hm
    constructor
    · intro _; exact List.mem_map.2 ⟨q, hm, this⟩
    · intro _; apply Decidable.byContradiction; intro hc; exact absurd (h2.2 hc) (by simp)
  | none =>
    simp only [h3] at h2
    rw [List.find?_eq_none] at h3
    constructor
    · intro hk; exact absurd hk (h2.1 rfl)
    · intro hk
      obtain ⟨q, hq, e⟩ := List.mem_map.1 hk
      exact absurd (by simpa using e) (h3 q (by simpa using hq))

end PyDict

theorem mem_setAdd {A : Type} [DecidableEq A] (s : List A) (x y : A) :
    y ∈ setAdd s x ↔ y ∈ s ∨ y = x := by
  unfold setAdd; split <;> grind

theorem setAdd_nodup {A : Type} [DecidableEq A] (s : List A) (x : A) (h : s.Nodup) :
    (setAdd s x).Nodup := by
  unfold setAdd; split
  · exact h
  · rw [List.nodup_append]; grind

end Ticdat

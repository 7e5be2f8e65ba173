import Verif.Lemmas.Dict
/-!
# Counting repeated keys
-/
namespace Ticdat

theorem ofList_map_val {K V W : Type} [DecidableEq K] (g : V → W) (l : List (K × V)) :
    PyDict.ofList (l.map (fun p => (p.1, g p.2))) = (PyDict.ofList l).map (fun p => (p.1, g p.2)) := by
  have hset : ∀ (d : PyDict K V) k v, PyDict.set (d.map (fun p => (p.1, g p.2))) k (g v) =
      (PyDict.set d k v).map (fun p => (p.1, g p.2)) := by
    intro d k v
    induction d with
    | nil => rfl
    | cons p rest ih =>
      by_cases h : p.1 = k
      · simp [PyDict.set, h]
      · simp only [List.map_cons, PyDict.set, if_neg h, ih]
  have : ∀ (l : List (K × V)) (d : PyDict K V),
      (l.map (fun p => (p.1, g p.2))).foldl (fun d p => PyDict.set d p.1 p.2) (d.map (fun p => (p.1, g p.2))) =
      (l.foldl (fun d p => PyDict.set d p.1 p.2) d).map (fun p => (p.1, g p.2)) := by
    intro l
    induction l with
    | nil => intro d; rfl
    | cons p rest ih =>
      intro d
      simp only [List.map_cons, List.foldl_cons]
      rw [hset, ih]
  exact this l []

theorem get?_mapVal {K V W : Type} [DecidableEq K] (g : V → W) (d : PyDict K V) (k : K) :
    PyDict.get? (d.map (fun p => (p.1, g p.2))) k = (PyDict.get? d k).map g := by
  induction d with
  | nil => rfl
  | cons p rest ih =>
    obtain ⟨a, b⟩ := p
    by_cases h : a = k
    · simp [PyDict.get?, h]
    · simp only [List.map_cons, PyDict.get?, if_neg h]
      exact ih

theorem keys_mapVal {K V W : Type} (g : V → W) (d : PyDict K V) :
    PyDict.keys (d.map (fun p => (p.1, g p.2))) = PyDict.keys d := by
  simp [PyDict.keys, Function.comp_def]

/-- In a dictionary built from a list the last entry of a key wins. -/
theorem get?_ofList_reverse {K V : Type} [DecidableEq K] (l : List (K × V)) (k : K) :
    PyDict.get? (PyDict.ofList l) k = (l.reverse.find? (fun p => decide (p.1 = k))).map Prod.snd := by
  have : ∀ (l : List (K × V)) (d : PyDict K V),
      PyDict.get? (l.foldl (fun d p => PyDict.set d p.1 p.2) d) k =
        ((l.reverse.find? (fun p => decide (p.1 = k))).map Prod.snd).or (PyDict.get? d k) := by
    intro l
    induction l with
    | nil => intro d; simp
    | cons p rest ih =>
      intro d
      rw [List.foldl_cons, ih, List.reverse_cons, List.find?_append, PyDict.get?_set]
      cases hf : rest.reverse.find? (fun p => decide (p.1 = k)) with
      | some q => simp
      | none =>
        by_cases h : p.1 = k
        · simp [h]
        · simp [h]
  have h := this l []
  simpa [PyDict.ofList] using h

theorem sum_add_map {A : Type} (f g : A → Nat) (l : List A) :
    (l.map (fun a => f a + g a)).sum = (l.map f).sum + (l.map g).sum := by
  induction l with
  | nil => rfl
  | cons a l ih => simp only [List.map_cons, List.sum_cons, ih]; omega

theorem sum_indicator {A : Type} [DecidableEq A] (D : List A) (hD : D.Nodup) (x : A) (hx : x ∈ D) :
    (D.map (fun k => if x = k then 1 else 0)).sum = 1 := by
  induction D with
  | nil => simp at hx
  | cons a D ih =>
    rw [List.nodup_cons] at hD
    rw [List.map_cons, List.sum_cons]
    by_cases h : x = a
    · subst h
      have : (D.map (fun k => if x = k then 1 else 0)).sum = 0 := by
        have hz : D.map (fun k => if x = k then 1 else 0) = D.map (fun _ => 0) := by
          apply List.map_congr_left
          intro k hk
          rw [if_neg (fun e : x = k => hD.1 (by rw [e]; exact hk))]
        rw [hz]
        clear hz ih hD hx
        induction D with
        | nil => rfl
        | cons b D ih => simp only [List.map_cons, List.sum_cons, ih]
      rw [if_pos rfl, this]
    · rw [if_neg h, ih hD.2 (by simpa [h] using hx)]

theorem sum_counts {A : Type} [DecidableEq A] (D : List A) (hD : D.Nodup) (ks : List A) (h : ∀ k ∈ ks, k ∈ D) :
    (D.map (fun k => ks.countP (fun x => decide (x = k)))).sum = ks.length := by
  induction ks with
  | nil =>
    clear h hD
    induction D with
    | nil => rfl
    | cons b D ih => simpa using ih
  | cons x ks ih =>
    have : D.map (fun k => (x :: ks).countP (fun x => decide (x = k))) =
        D.map (fun k => ks.countP (fun x => decide (x = k)) + (if x = k then 1 else 0)) := by
      apply List.map_congr_left
      intro k _
      rw [List.countP_cons]
      simp
    rw [this, sum_add_map, ih (fun k hk => h k (List.mem_cons_of_mem _ hk)),
      sum_indicator D hD x (h x List.mem_cons_self)]
    rfl

theorem sum_filter_zero {A : Type} (f : A → Nat) (q : A → Bool) (D : List A) (h : ∀ a ∈ D, q a = false → f a = 0) :
    ((D.filter q).map f).sum = (D.map f).sum := by
  induction D with
  | nil => rfl
  | cons a D ih =>
    have ih := ih (fun b hb => h b (List.mem_cons_of_mem _ hb))
    cases hq : q a with
    | true => rw [List.filter_cons_of_pos hq]; simp only [List.map_cons, List.sum_cons, ih]
    | false =>
      rw [List.filter_cons_of_neg (by simp [hq]), ih]
      simp only [List.map_cons, List.sum_cons, h a List.mem_cons_self hq, Nat.zero_add]

/-- The number of different keys and the surplus of the repeated ones add up to the number of keys. -/
theorem distinct_add_surplus {A : Type} [DecidableEq A] (ks D : List A) (hD : D.Nodup) (hmem : ∀ k, k ∈ D ↔ k ∈ ks)
    (rep : PyDict A Nat) (hn : (PyDict.keys rep).Nodup)
    (hrep : ∀ k m, PyDict.get? rep k = some m ↔ 2 ≤ m ∧ ks.countP (fun x => decide (x = k)) = m) :
    D.length + (rep.map (fun p => p.2 - 1)).sum = ks.length := by
  have h1 : (rep.map (fun p => p.2 - 1)).sum =
      ((PyDict.keys rep).map (fun k => ks.countP (fun x => decide (x = k)) - 1)).sum := by
    have : rep.map (fun p => p.2 - 1) =
        (PyDict.keys rep).map (fun k => ks.countP (fun x => decide (x = k)) - 1) := by
      unfold PyDict.keys
      rw [List.map_map]
      apply List.map_congr_left
      intro p hp
      have := ((hrep p.1 p.2).1 (PyDict.get?_of_mem hn hp)).2
      simp only [Function.comp_apply, this]
    rw [this]
  have hperm : List.Perm (PyDict.keys rep) (D.filter (fun k => decide (2 ≤ ks.countP (fun x => decide (x = k))))) := by
    rw [List.perm_ext_iff_of_nodup hn (hD.sublist List.filter_sublist)]
    intro k
    rw [List.mem_filter, decide_eq_true_eq]
    constructor
    · intro hk
      obtain ⟨m, hm⟩ := Option.isSome_iff_exists.mp (Option.isSome_iff_ne_none.mpr
        (fun e => (PyDict.get?_eq_none rep k).mp e hk))
      obtain ⟨h2, h3⟩ := (hrep k m).1 hm
      refine ⟨(hmem k).2 ?_, by omega⟩
      have : 0 < ks.countP (fun x => decide (x = k)) := by omega
      obtain ⟨x, hx, e⟩ := List.countP_pos_iff.mp this
      rw [← of_decide_eq_true e]; exact hx
    · rintro ⟨_, h2⟩
      have := (hrep k _).2 ⟨h2, rfl⟩
      exact List.mem_map_of_mem (f := Prod.fst) (PyDict.get?_mem this)
  rw [h1, (hperm.map _).sum_nat, sum_filter_zero]
  · have h2 := sum_counts D hD ks (fun k hk => (hmem k).2 hk)
    have h3 : D.map (fun k => ks.countP (fun x => decide (x = k))) =
        D.map (fun k => (ks.countP (fun x => decide (x = k)) - 1) + 1) := by
      apply List.map_congr_left
      intro k hk
      have : 0 < ks.countP (fun x => decide (x = k)) :=
        List.countP_pos_iff.mpr ⟨k, (hmem k).1 hk, by simp⟩
      omega
    have h4 : (D.map (fun _ => 1)).sum = D.length := by
      clear h1 hperm h2 h3 hmem hD
      induction D with
      | nil => rfl
      | cons a D ih => simp only [List.map_cons, List.sum_cons, ih, List.length_cons]; omega
    rw [h3, sum_add_map, h4] at h2
    omega
  · intro k _ hk
    have := of_decide_eq_false hk
    omega

end Ticdat

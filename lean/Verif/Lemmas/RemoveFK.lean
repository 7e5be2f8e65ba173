import Verif.Lemmas.FindFK2
/-! Helper lemmas for `remove_foreign_key_failures`: one round is a filter of every table. -/
set_option linter.unusedSectionVars false
set_option linter.unusedSimpArgs false
namespace Ticdat
open Spec
variable {V : Type} [DecidableEq V]

/-! ### Deleting keyed rows -/

/-- Drop the keyed rows selected by `S`. -/
def delBy (db : DB V) (S : String → PKey V → Bool) : DB V := fun t =>
  match db t with
  | .dict rs => .dict (rs.filter (fun p => !S t p.1))
  | .list rs => .list rs

def KeysNodup (db : DB V) (t : String) : Prop := ∀ rs, db t = .dict rs → (rs.map Prod.fst).Nodup

theorem delBy_none (db : DB V) : delBy db (fun _ _ => false) = db := by
  funext t; unfold delBy; cases db t <;> simp

theorem delBy_delBy (db : DB V) (S T : String → PKey V → Bool) :
    delBy (delBy db S) T = delBy db (fun t k => S t k || T t k) := by
  funext t; unfold delBy
  cases db t with
  | list rs => rfl
  | dict rs =>
    simp only [List.filter_filter]
    congr 1
    apply List.filter_congr
    intro p _
    cases S t p.1 <;> cases T t p.1 <;> rfl

theorem keysNodup_delBy {db : DB V} {t : String} (h : KeysNodup db t) (S : String → PKey V → Bool) :
    KeysNodup (delBy db S) t := by
  intro rs hrs
  unfold delBy at hrs
  cases hd : db t with
  | list r => rw [hd] at hrs; exact absurd hrs (by simp)
  | dict r =>
    rw [hd] at hrs
    simp only [TableData.dict.injEq] at hrs
    subst hrs
    exact (List.Sublist.map _ List.filter_sublist).nodup (h r hd)

theorem deleteKey_eq {db : DB V} {t : String} (h : KeysNodup db t) (pk : PKey V) :
    deleteKey db t pk = delBy db (fun t' k => decide (t' = t) && decide (k = pk)) := by
  funext t'
  unfold deleteKey delBy
  cases hd : db t with
  | list rs =>
    cases hd' : db t' with
    | list rs' => simp [hd']
    | dict rs' =>
      have : t' ≠ t := by rintro rfl; rw [hd] at hd'; exact absurd hd' (by simp)
      simp only [hd', this, decide_false, Bool.false_and, Bool.not_false]
      rw [List.filter_eq_self.2 (fun _ _ => rfl)]
  | dict rs =>
    by_cases ht : t' = t
    · subst ht
      simp only [if_true, hd]
      rw [PyDict.erase_eq_filter _ _ (h _ hd)]
      congr 1
      apply List.filter_congr
      intro p _
      by_cases hp : p.1 = pk <;> simp [hp]
    · simp only [ht, if_false]
      cases hd' : db t' with
      | list r => rfl
      | dict r =>
        simp only [decide_false, Bool.false_and, Bool.not_false]
        rw [List.filter_eq_self.2 (fun _ _ => rfl)]

/-- The primary keys listed for table `t` by `fs`, when `t` is keyed. -/
def keyedBad (s : Schema) (fs : List (FK × FKFailures V)) (t : String) (pk : PKey V) : Bool :=
  fs.any (fun p => decide (p.1.native = t) && decide (s.pks t ≠ []) && decide (pk ∈ p.2.nativePks))

theorem removeKeyed_go_keyed (s : Schema) (k : FK) (hk : s.pks k.native ≠ []) (pks : List (PKey V))
    (db : DB V) (h : KeysNodup db k.native) (need : List (String × Nat)) :
    removeKeyed.go s k pks db need =
      some (delBy db (fun t pk => decide (k.native = t) && decide (pk ∈ pks)), need) := by
  induction pks generalizing db with
  | nil =>
    simp only [removeKeyed.go]
    congr 2
    conv => lhs; rw [← delBy_none db]
    congr 1; funext t pk; simp
  | cons a pks ih =>
    simp only [removeKeyed.go, ne_eq, hk, not_false_eq_true, if_true]
    rw [deleteKey_eq h, ih _ (keysNodup_delBy h _), delBy_delBy]
    congr 2
    congr 1
    funext t pk
    by_cases h1 : k.native = t
    · subst h1; by_cases h2 : pk = a <;> simp [h2]
    · simp [h1, Ne.symm h1]

theorem removeKeyed_go_list (s : Schema) (k : FK) (hk : s.pks k.native = []) (pks : List (PKey V))
    (hp : ∀ pk ∈ pks, ∃ i, pk = .idx i) (db : DB V) (need : List (String × Nat)) (hn : need.Nodup) :
    ∃ need', removeKeyed.go s k pks db need = some (db, need') ∧ need'.Nodup ∧
      ∀ t i, (t, i) ∈ need' ↔ (t, i) ∈ need ∨ (t = k.native ∧ PKey.idx i ∈ pks) := by
  induction pks generalizing need with
  | nil => exact ⟨need, rfl, hn, by simp⟩
  | cons a pks ih =>
    obtain ⟨i, rfl⟩ := hp a List.mem_cons_self
    obtain ⟨need', h1, h2, h3⟩ := ih (fun pk h => hp pk (List.mem_cons_of_mem _ h))
      (setAdd need (k.native, i)) (setAdd_nodup _ _ hn)
    refine ⟨need', by simp [removeKeyed.go, hk, h1], h2, ?_⟩
    intro t j
    rw [h3, mem_setAdd]
    simp only [Prod.mk.injEq, List.mem_cons, PKey.idx.injEq]
    grind

theorem removeKeyed_spec (s : Schema) (fs : List (FK × FKFailures V)) (db : DB V)
    (h : ∀ p ∈ fs, KeysNodup db p.1.native)
    (hl : ∀ p ∈ fs, s.pks p.1.native = [] → ∀ pk ∈ p.2.nativePks, ∃ i, pk = .idx i)
    (need : List (String × Nat)) (hn : need.Nodup) :
    ∃ need', removeKeyed s fs db need = some (delBy db (keyedBad s fs), need') ∧ need'.Nodup ∧
      ∀ t i, (t, i) ∈ need' ↔ (t, i) ∈ need ∨
        (s.pks t = [] ∧ ∃ p ∈ fs, p.1.native = t ∧ PKey.idx i ∈ p.2.nativePks) := by
  induction fs generalizing db need with
  | nil =>
    refine ⟨need, ?_, hn, by simp⟩
    simp only [removeKeyed]
    congr 2
    exact (delBy_none db).symm
  | cons p fs ih =>
    obtain ⟨k, f⟩ := p
    have hl' : ∀ p ∈ fs, s.pks p.1.native = [] → ∀ pk ∈ p.2.nativePks, ∃ i, pk = .idx i :=
      fun q hq => hl q (List.mem_cons_of_mem _ hq)
    by_cases hk : s.pks k.native = []
    · obtain ⟨need1, h1, h2, h3⟩ := removeKeyed_go_list s k hk f.nativePks
        (hl (k, f) List.mem_cons_self hk) db need hn
      obtain ⟨need2, g1, g2, g3⟩ := ih db (fun q hq => h q (List.mem_cons_of_mem _ hq)) hl' need1 h2
      refine ⟨need2, ?_, g2, ?_⟩
      · simp only [removeKeyed, h1, g1]
        congr 2
        congr 1
        funext t pk
        simp only [keyedBad, List.any_cons]
        by_cases ht : k.native = t
        · subst ht; simp [hk]
        · simp [ht]
      · intro t i
        rw [g3, h3]
        simp only [List.mem_cons, exists_eq_or_imp]
        constructor
        · rintro ((h | ⟨rfl, h⟩) | ⟨h, h'⟩)
          · exact Or.inl h
          · exact Or.inr ⟨hk, Or.inl ⟨rfl, h⟩⟩
          · exact Or.inr ⟨h, Or.inr h'⟩
        · rintro (h | ⟨h, ⟨rfl, h'⟩ | h'⟩)
          · exact Or.inl (Or.inl h)
          · exact Or.inl (Or.inr ⟨rfl, h'⟩)
          · exact Or.inr ⟨h, h'⟩
    · have h1 := removeKeyed_go_keyed s k hk f.nativePks db (h _ List.mem_cons_self) need
      obtain ⟨need2, g1, g2, g3⟩ := ih _ (fun q hq =>
        keysNodup_delBy (h q (List.mem_cons_of_mem _ hq))
        (fun t pk => decide (k.native = t) && decide (pk ∈ f.nativePks))) hl' need hn
      refine ⟨need2, ?_, g2, ?_⟩
      · simp only [removeKeyed, h1, g1, delBy_delBy]
        congr 2
        congr 1
        funext t pk
        simp only [keyedBad, List.any_cons]
        by_cases ht : k.native = t
        · subst ht; simp [hk]
        · simp [ht]
      · intro t i
        rw [g3]
        simp only [List.mem_cons, exists_eq_or_imp]
        constructor
        · rintro (h | ⟨h, h'⟩)
          · exact Or.inl h
          · exact Or.inr ⟨h, Or.inr h'⟩
        · rintro (h | ⟨h, ⟨rfl, h'⟩ | h'⟩)
          · exact Or.inl h
          · exact absurd h hk
          · exact Or.inr ⟨h, h'⟩

/-! ### Popping un-keyed rows -/

/-- Keep the rows whose index (counted from `n`) is not selected by `S`. -/
def keepIdx {A : Type} (S : Nat → Bool) : Nat → List A → List A
  | _, [] => []
  | n, a :: l => if S n then keepIdx S (n + 1) l else a :: keepIdx S (n + 1) l

theorem keepIdx_congr {A : Type} (S T : Nat → Bool) (l : List A) (n : Nat)
    (h : ∀ i, n ≤ i → i < n + l.length → S i = T i) : keepIdx S n l = keepIdx T n l := by
  induction l generalizing n with
  | nil => rfl
  | cons a l ih =>
    simp only [keepIdx]
    rw [h n (Nat.le_refl _) (by simp), ih (n + 1) (fun i h1 h2 => h i (by omega) (by simp; omega))]

theorem keepIdx_false {A : Type} (l : List A) (n : Nat) : keepIdx (fun _ => false) n l = l := by
  induction l generalizing n with
  | nil => rfl
  | cons a l ih => simp [keepIdx, ih]

/-- Popping the largest selected index first, then the rest, drops exactly the selected rows. -/
theorem keepIdx_eraseIdx {A : Type} (S : Nat → Bool) (l : List A) (n i : Nat)
    (hS : ∀ j, n + i ≤ j → S j = false) (hi : i < l.length) :
    keepIdx S n (l.eraseIdx i) = keepIdx (fun j => S j || decide (j = n + i)) n l := by
  induction l generalizing n i with
  | nil => simp at hi
  | cons a l ih =>
    cases i with
    | zero =>
      simp only [List.eraseIdx_zero, List.tail_cons, keepIdx, Nat.add_zero, decide_true, Bool.or_true, if_true]
      rw [keepIdx_congr S (fun _ => false) l n (fun j hj _ => hS j (by omega)), keepIdx_false]
      rw [keepIdx_congr _ (fun _ => false) l (n + 1)]
      · rw [keepIdx_false]
      · intro j h1 h2
        rw [hS j (by omega)]
        simp; omega
    | succ i =>
      simp only [List.eraseIdx_cons_succ, keepIdx]
      have hne : (S n || decide (n = n + (i + 1))) = S n := by simp
      simp only [hne]
      rw [ih (n + 1) i (fun j hj => hS j (by omega)) (by simpa using hi)]
      have : (fun j => S j || decide (j = n + 1 + i)) = (fun j => S j || decide (j = n + (i + 1))) := by
        funext j; congr 2; congr 1; omega
      rw [this]

theorem keepIdx_eq_filter {A : Type} (P : A → Bool) (S : Nat → Bool) (l : List A) (n : Nat)
    (h : ∀ i (hi : i < l.length), S (n + i) = P l[i]) : keepIdx S n l = l.filter (fun a => !P a) := by
  induction l generalizing n with
  | nil => rfl
  | cons a l ih =>
    have h0 := h 0 (by simp)
    simp only [Nat.add_zero, List.getElem_cons_zero] at h0
    have ih' := ih (n + 1) (fun i hi => by
      have := h (i + 1) (by simpa using hi)
      simpa [Nat.add_assoc, Nat.add_comm 1 i] using this)
    simp only [keepIdx, List.filter_cons, ← h0, ih']
    cases S n <;> simp

theorem popAll_spec (l : List (String × Nat)) (db : DB V)
    (hsort : l.Pairwise (fun a b => a.1 = b.1 → b.2 < a.2))
    (hb : ∀ t i, (t, i) ∈ l → ∃ rs, db t = .list rs ∧ i < rs.length) :
    ∃ db', popAll l db = some db' ∧ ∀ t, db' t = match db t with
      | .dict rs => .dict rs
      | .list rs => .list (keepIdx (fun i => decide ((t, i) ∈ l)) 0 rs) := by
  induction l generalizing db with
  | nil =>
    refine ⟨db, rfl, ?_⟩
    intro t
    cases db t <;> simp [keepIdx_false]
  | cons a l ih =>
    obtain ⟨t0, i0⟩ := a
    rw [List.pairwise_cons] at hsort
    obtain ⟨rs, hrs, hlt⟩ := hb t0 i0 List.mem_cons_self
    have hpop : popRow db t0 i0 = some (fun t' => if t' = t0 then .list (rs.eraseIdx i0) else db t') := by
      simp [popRow, hrs, hlt]
    obtain ⟨db', h1, h2⟩ := ih (fun t' => if t' = t0 then .list (rs.eraseIdx i0) else db t') hsort.2 (by
      intro t i hm
      by_cases ht : t = t0
      · subst ht
        have := hsort.1 _ hm rfl
        refine ⟨rs.eraseIdx i0, by simp, ?_⟩
        rw [List.length_eraseIdx]
        simp only at this
        split <;> omega
      · obtain ⟨r, hr, hl⟩ := hb t i (List.mem_cons_of_mem _ hm)
        exact ⟨r, by simp [ht, hr], hl⟩)
    refine ⟨db', by simp [popAll, hpop, h1], ?_⟩
    intro t
    rw [h2 t]
    by_cases ht : t = t0
    · subst ht
      simp only [if_true, hrs]
      congr 1
      rw [keepIdx_eraseIdx _ rs 0 i0 _ hlt]
      · congr 1
        funext j
        simp only [Nat.zero_add, List.mem_cons, Prod.mk.injEq, true_and]
        by_cases hj : j = i0 <;> simp [hj]
      · intro j hj
        apply decide_eq_false
        intro hm
        have := hsort.1 _ hm rfl
        simp only at this
        omega
    · simp only [ht, if_false]
      cases db t with
      | dict r => rfl
      | list r =>
        simp only [List.mem_cons, Prod.mk.injEq, ht, false_and, false_or]

theorem pairGE_trans (a b c : String × Nat) : pairGE a b = true → pairGE b c = true → pairGE a c = true := by
  simp only [pairGE, Bool.or_eq_true, Bool.and_eq_true, decide_eq_true_eq]
  rintro (h1 | ⟨h1, h2⟩) (h3 | ⟨h3, h4⟩)
  · exact Or.inl (String.lt_trans h3 h1)
  · exact Or.inl (h3 ▸ h1)
  · exact Or.inl (h1 ▸ h3)
  · exact Or.inr ⟨h1.trans h3, by omega⟩

theorem pairGE_total (a b : String × Nat) : (pairGE a b || pairGE b a) = true := by
  simp only [pairGE, Bool.or_eq_true, Bool.and_eq_true, decide_eq_true_eq]
  by_cases h : a.1 = b.1
  · rcases Nat.le_total a.2 b.2 with h' | h'
    · exact Or.inr (Or.inr ⟨h.symm, h'⟩)
    · exact Or.inl (Or.inr ⟨h, h'⟩)
  · by_cases h2 : a.1 < b.1
    · exact Or.inr (Or.inl h2)
    · have h3 : b.1 ≤ a.1 := String.not_lt.1 h2
      have : ¬ a.1 ≤ b.1 := fun h4 => h (String.le_antisymm h4 h3)
      exact Or.inl (Or.inl (String.not_le.1 this))

theorem sorted_need (need : List (String × Nat)) (hn : need.Nodup) :
    (need.mergeSort pairGE).Pairwise (fun a b => a.1 = b.1 → b.2 < a.2) := by
  have h1 := List.pairwise_mergeSort (le := pairGE) (fun a b c => pairGE_trans a b c) pairGE_total need
  have h2 : (need.mergeSort pairGE).Nodup := (List.mergeSort_perm need pairGE).nodup_iff.2 hn
  refine (h1.and h2).imp ?_
  rintro a b ⟨h3, h4⟩ he
  simp only [pairGE, Bool.or_eq_true, Bool.and_eq_true, decide_eq_true_eq] at h3
  rcases h3 with h3 | ⟨_, h3⟩
  · rw [he] at h3; exact absurd h3 (String.lt_irrefl _)
  · rcases Nat.lt_or_ge b.2 a.2 with h5 | h5
    · exact h5
    · exact absurd (Prod.ext he (Nat.le_antisymm h5 h3)) h4

end Ticdat

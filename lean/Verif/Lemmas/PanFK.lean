import Verif.Spec.PanFK
import Verif.Lemmas.RemoveFK2
import Verif.Props.RemoveFK
set_option linter.unusedSectionVars false
set_option linter.unusedSimpArgs false
namespace Ticdat
open Spec
variable {V : Type} [DecidableEq V]

theorem parentRow_not_mem (m : List (String × String)) (row : PRow V) (f : String)
    (h : f ∉ m.map Prod.fst) : parentRow m row f = row f := by
  induction m generalizing row with
  | nil => rfl
  | cons p m ih =>
    simp only [List.map_cons, List.mem_cons, not_or] at h
    show parentRow m _ f = _
    rw [ih _ h.2]
    simp [h.1]

theorem parentRow_mem (m : List (String × String)) (row : PRow V)
    (hn : (m.map Prod.fst).Nodup) (hc : m.Pairwise (fun p q => p.1 = q.2 → p.1 = p.2)) :
    ∀ p ∈ m, parentRow m row p.1 = row p.2 := by
  induction m generalizing row with
  | nil => simp
  | cons p m ih =>
    rw [List.map_cons, List.nodup_cons] at hn
    rw [List.pairwise_cons] at hc
    intro q hq
    show parentRow m (fun f => if f = p.1 then row p.2 else row f) q.1 = _
    rcases List.mem_cons.1 hq with rfl | hq
    · rw [parentRow_not_mem _ _ _ hn.1]; simp
    · rw [ih _ hn.2 hc.2 q hq]
      by_cases h : q.2 = p.1
      · simp only [h, if_true]
        rw [← hc.1 q hq h.symm]
      · simp [h]

theorem mem_dropDups (fs : List String) (rs : List (PRow V)) (seen : List (List (Option V))) (r : PRow V)
    (h : r ∈ dropDups fs rs seen) : r ∈ rs := by
  induction rs generalizing seen with
  | nil => simp [dropDups] at h
  | cons a rs ih =>
    rw [dropDups] at h
    split at h
    · exact List.mem_cons_of_mem _ (ih _ h)
    · rcases List.mem_cons.1 h with rfl | h
      · exact List.mem_cons_self
      · exact List.mem_cons_of_mem _ (ih _ h)

theorem dropDups_complete (fs : List String) (rs : List (PRow V)) (seen : List (List (Option V))) (r : PRow V)
    (h : r ∈ rs) : fs.map r ∈ seen ∨ ∃ q ∈ dropDups fs rs seen, fs.map q = fs.map r := by
  induction rs generalizing seen with
  | nil => simp at h
  | cons a rs ih =>
    rw [dropDups]
    split
    · rename_i hs
      rcases List.mem_cons.1 h with rfl | h
      · exact Or.inl hs
      · exact ih _ h
    · rcases List.mem_cons.1 h with rfl | h
      · exact Or.inr ⟨_, List.mem_cons_self, rfl⟩
      · rcases ih (fs.map a :: seen) h with h' | ⟨q, hq, he⟩
        · rcases List.mem_cons.1 h' with h' | h'
          · exact Or.inr ⟨a, List.mem_cons_self, h'.symm⟩
          · exact Or.inl h'
        · exact Or.inr ⟨q, List.mem_cons_of_mem _ hq, he⟩

theorem panRowFails_iff (db : PanDB V) (k : FK) (hn : (k.mapping.map Prod.fst).Nodup) (hc : NoClobber k)
    (r : PRow V) : panRowFails db k r = true ↔ PanFails db k r := by
  have hpar : ∀ par : PRow V, k.mapping.map (fun p => parentRow k.mapping par p.1) =
      k.mapping.map (fun p => par p.2) := fun par =>
    List.map_congr_left (fun p hp => parentRow_mem _ _ hn hc p hp)
  simp only [panRowFails, Bool.not_eq_true', List.any_eq_false, decide_eq_true_eq, hpar]
  have hag : ∀ q : PRow V, (k.mapping.map (fun p => r p.1) = k.mapping.map (fun p => q p.2)) ↔
      Agrees k.mapping r q := by
    intro q
    rw [List.map_inj_left]
    rfl
  simp only [hag]
  constructor
  · intro h q hq ha
    rcases dropDups_complete (k.mapping.map Prod.snd) (db k.foreign) [] q hq with h' | ⟨q', hq', he⟩
    · simp at h'
    · apply h q' hq'
      intro p hp
      rw [ha p hp]
      exact ((List.map_inj_left.1 he) p.2 (List.mem_map.2 ⟨p, hp, rfl⟩)).symm
  · intro h q hq
    exact h q (mem_dropDups _ _ _ _ hq)

/-! ### Flags -/

theorem panFlags_none (bad : PRow V → Bool) (rs : List (PRow V)) (n : Nat) :
    panFlags bad none rs n = (rs.map bad, n) := by
  induction rs with
  | nil => rfl
  | cons r rs ih => rw [panFlags]; cases h : bad r <;> simp [ih, h]

theorem dropFlagged_map {A : Type} (P : A → Bool) (l : List A) :
    dropFlagged (l.map P) l = l.filter (fun a => !P a) := by
  induction l with
  | nil => rfl
  | cons a l ih => cases h : P a <;> simp [dropFlagged, h, ih]

theorem panFindRows_none (db : PanDB V) (fks : List FK) (n : Nat) :
    panFindRows db none fks n = (fks.filter (fun k => (db k.native).any (panRowFails db k))).map
      (fun k => (k, (db k.native).map (panRowFails db k))) := by
  induction fks with
  | nil => rfl
  | cons k ks ih =>
    rw [panFindRows]
    cases h : (db k.native).any (panRowFails db k) <;> simp [h, panFlags_none, ih]

/-- Flags with a limit: at most `m - n` more rows are flagged, only bad ones, and all of them if the limit is not
reached. -/
theorem panFlags_some (bad : PRow V → Bool) (m : Nat) (rs : List (PRow V)) (n : Nat) (hn : n < m) :
    (panFlags bad (some m) rs n).2 = min m (n + (rs.filter bad).length) ∧
    (panFlags bad (some m) rs n).1.length = rs.length ∧
    (panFlags bad (some m) rs n).1.count true + n = (panFlags bad (some m) rs n).2 ∧
    ∀ i : Nat, (panFlags bad (some m) rs n).1[i]? = some true → (rs[i]?).map bad = some true := by
  induction rs generalizing n with
  | nil => simp [panFlags]; omega
  | cons r rs ih =>
    rw [panFlags]
    cases h : bad r with
    | true =>
      simp only [if_true]
      by_cases hm : m ≤ n + 1
      · simp only [hm, decide_true, if_true]
        refine ⟨?_, by simp, ?_, ?_⟩
        · simp only [h, List.filter_cons_of_pos, List.length_cons]; omega
        · have hz : List.count true (List.map (fun _ : PRow V => false) rs) = 0 := by
            rw [List.count_eq_zero]; simp
          rw [List.count_cons_self, hz]; omega
        · intro i hi
          cases i with
          | zero => simp [h]
          | succ i =>
            simp only [List.getElem?_cons_succ, List.getElem?_map, Option.map_eq_some_iff] at hi
            obtain ⟨_, _, h0⟩ := hi
            simp at h0
      · simp only [hm, decide_false]
        obtain ⟨a1, a2, a3, a4⟩ := ih (n + 1) (by omega)
        simp only [Bool.false_eq_true, if_false]
        refine ⟨?_, by simp [a2], ?_, ?_⟩
        · rw [a1]; simp only [h, List.filter_cons_of_pos, List.length_cons]; omega
        · rw [List.count_cons_self]; omega
        · intro i hi
          cases i with
          | zero => simp [h]
          | succ i => exact a4 i (by simpa using hi)
    | false =>
      simp only [Bool.false_eq_true, if_false]
      obtain ⟨a1, a2, a3, a4⟩ := ih n hn
      refine ⟨?_, by simp [a2], ?_, ?_⟩
      · rw [a1]; simp [h]
      · rw [List.count_cons_of_ne (by simp)]; omega
      · intro i hi
        cases i with
        | zero => simp at hi
        | succ i => exact a4 i (by simpa using hi)

/-- The total number of flagged rows of a result. -/
def flagged (l : List (FK × List Bool)) : Nat := (l.map (fun p => p.2.count true)).sum

theorem count_map_true {A : Type} (P : A → Bool) (l : List A) : (l.map P).count true = (l.filter P).length := by
  induction l with
  | nil => rfl
  | cons a l ih => cases h : P a <;> simp [h, ih]

theorem panFindRows_some (db : PanDB V) (m : Nat) (fks : List FK) (n : Nat) (hn : n < m) :
    flagged (panFindRows db (some m) fks n) + n =
      min m (flagged (panFindRows db none fks 0) + n) ∧
    ∀ k fl, (k, fl) ∈ panFindRows db (some m) fks n → k ∈ fks ∧ fl.length = (db k.native).length ∧
      ∀ i : Nat, fl[i]? = some true → ((db k.native)[i]?).map (panRowFails db k) = some true := by
  induction fks generalizing n with
  | nil => simp [panFindRows, flagged]; omega
  | cons k ks ih =>
    rw [panFindRows, panFindRows]
    by_cases h : (db k.native).any (panRowFails db k) = true
    · simp only [h, if_true, panFlags_none]
      obtain ⟨a1, a2, a3, a4⟩ := panFlags_some (panRowFails db k) m (db k.native) n hn
      simp only [Bool.false_eq_true, if_false, decide_eq_true_eq]
      have hfl : flagged ((k, (db k.native).map (panRowFails db k)) :: panFindRows db none ks 0) =
          ((db k.native).filter (panRowFails db k)).length + flagged (panFindRows db none ks 0) := by
        simp [flagged, count_map_true]
      by_cases hm : m ≤ (panFlags (panRowFails db k) (some m) (db k.native) n).2
      · simp only [hm, if_true]
        constructor
        · rw [hfl]
          simp only [flagged, List.map_cons, List.map_nil, List.sum_cons, List.sum_nil]
          omega
        · intro k' fl hmem
          simp only [List.mem_singleton, Prod.mk.injEq] at hmem
          obtain ⟨rfl, rfl⟩ := hmem
          exact ⟨List.mem_cons_self, a2, a4⟩
      · simp only [hm, if_false]
        obtain ⟨b1, b2⟩ := ih (panFlags (panRowFails db k) (some m) (db k.native) n).2 (by omega)
        constructor
        · rw [hfl]
          simp only [flagged, List.map_cons, List.sum_cons] at b1 ⊢
          omega
        · intro k' fl hmem
          rcases List.mem_cons.1 hmem with e | hmem
          · simp only [Prod.mk.injEq] at e
            obtain ⟨rfl, rfl⟩ := e
            exact ⟨List.mem_cons_self, a2, a4⟩
          · obtain ⟨c1, c2⟩ := b2 k' fl hmem
            exact ⟨List.mem_cons_of_mem _ c1, c2⟩
    · simp only [h, if_false]
      obtain ⟨b1, b2⟩ := ih n hn
      exact ⟨b1, fun k' fl hmem => ⟨List.mem_cons_of_mem _ (b2 k' fl hmem).1, (b2 k' fl hmem).2⟩⟩

/-! ### Removal -/

/-- The number of rows of the tables `ts`. -/
def panTotal (ts : List String) (db : PanDB V) : Nat := (ts.map (fun t => (db t).length)).sum

theorem panFails_mono {a b : PanDB V} (h : PanSub a b) {k : FK} {r : PRow V} (hf : PanFails b k r) :
    PanFails a k r := fun q hq => hf q ((h k.foreign).subset hq)

theorem panRemove_run {fks : List FK} (hk : ∀ k ∈ fks, (k.mapping.map Prod.fst).Nodup ∧ NoClobber k)
    (ts : List String) (hts : ∀ k ∈ fks, k.native ∈ ts) :
    ∀ (fuel : Nat) (db : PanDB V), panTotal ts db < fuel →
      ∃ db', panRemove fks fuel db = some db' ∧ PanSub db' db ∧ PanConsistent fks db' ∧
        ∀ c : PanDB V, PanSub c db → PanConsistent fks c → PanSub c db' := by
  intro fuel
  induction fuel with
  | zero => intro db h; omega
  | succ fuel ih =>
    intro db hlt
    rw [panRemove, panFindRows_none]
    cases hcase : fks.filter (fun k => (db k.native).any (panRowFails db k)) with
    | nil =>
      refine ⟨db, by simp, fun _ => List.Sublist.refl _, ?_, fun c h _ => h⟩
      intro k hkk r hr hf
      rw [List.filter_eq_nil_iff] at hcase
      have := hcase k hkk
      simp only [List.any_eq_true, not_exists, not_and] at this
      exact this r hr ((panRowFails_iff db k (hk k hkk).1 (hk k hkk).2 r).2 hf)
    | cons k ks =>
      have hmem : k ∈ fks.filter (fun k => (db k.native).any (panRowFails db k)) := by
        rw [hcase]; exact List.mem_cons_self
      obtain ⟨hkk, hany⟩ := List.mem_filter.1 hmem
      simp only [List.map_cons]
      simp only [List.any_eq_true] at hany
      obtain ⟨r0, hr0, hb0⟩ := hany
      have hsub : PanSub (fun t => if t = k.native then
          dropFlagged ((db k.native).map (panRowFails db k)) (db t) else db t) db := by
        intro t
        by_cases ht : t = k.native
        · subst ht
          simp only [if_true, dropFlagged_map]
          exact List.filter_sublist
        · simp [ht]
      have hlt' : panTotal ts (fun t => if t = k.native then
          dropFlagged ((db k.native).map (panRowFails db k)) (db t) else db t) < panTotal ts db := by
        apply sum_map_lt _ _ _ (fun t _ => (hsub t).length_le) k.native (hts k hkk)
        simp only [if_true, dropFlagged_map]
        apply Nat.lt_of_not_le
        intro hle
        have := (List.filter_sublist (l := db k.native)).eq_of_length_le hle
        rw [List.filter_eq_self] at this
        have := this r0 hr0
        simp [hb0] at this
      obtain ⟨db', g1, g2, g3, g4⟩ := ih _ (Nat.lt_of_lt_of_le hlt' (Nat.le_of_lt_succ hlt))
      refine ⟨db', g1, fun t => (g2 t).trans (hsub t), g3, ?_⟩
      intro c hc hcons
      apply g4 c _ hcons
      intro t
      by_cases ht : t = k.native
      · subst ht
        simp only [if_true, dropFlagged_map]
        have h2 := (hc k.native).filter (fun r => !panRowFails db k r)
        rwa [List.filter_eq_self.2] at h2
        intro r hr
        cases hb : panRowFails db k r with
        | false => rfl
        | true =>
          exfalso
          rw [panRowFails_iff db k (hk k hkk).1 (hk k hkk).2] at hb
          exact hcons k hkk r hr (panFails_mono hc hb)
      · simp only [ht, if_false]; exact hc t

theorem panRemove_fuel_mono (fks : List FK) (db r : PanDB V) {fuel fuel' : Nat} (hle : fuel ≤ fuel')
    (h : panRemove fks fuel db = some r) : panRemove fks fuel' db = some r := by
  have hstep : ∀ fuel (db : PanDB V), panRemove fks fuel db = some r → panRemove fks (fuel + 1) db = some r := by
    intro fuel
    induction fuel with
    | zero => intro db h; simp [panRemove] at h
    | succ fuel ih =>
      intro db h
      rw [panRemove] at h ⊢
      cases hf : panFindRows db none fks 0 with
      | nil => simpa [hf] using h
      | cons p l => rw [hf] at h; exact ih _ h
  induction hle with
  | refl => exact h
  | step _ ih => exact hstep _ _ ih

end Ticdat

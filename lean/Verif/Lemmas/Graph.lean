import Verif.Spec.Graph
import Verif.Model.Graph
set_option linter.unusedSectionVars false
set_option linter.unusedSimpArgs false
namespace Ticdat
open Spec

theorem mem_fkChildren {fks : List FK} {a b : String} : b ∈ fkChildren fks a ↔ Edge fks a b := by
  simp only [fkChildren, List.mem_map, List.mem_filter, decide_eq_true_eq, Edge]
  constructor
  · rintro ⟨k, ⟨h1, h2⟩, h3⟩; exact ⟨k, h1, h2, h3⟩
  · rintro ⟨k, h1, h2, h3⟩; exact ⟨k, ⟨h1, h2⟩, h3⟩

theorem path_trans {fks : List FK} {a b c : String} (h : Path fks a b) (h' : Path fks b c) : Path fks a c := by
  induction h with
  | refl => exact h'
  | step e _ ih => exact .step e (ih h')

/-! ### Depth -/

/-- The native tables not on the current path. -/
def unseen (fks : List FK) (seen : List String) : Nat :=
  ((fks.map FK.native).filter (fun n => decide (n ∉ seen))).length

theorem unseen_lt {fks : List FK} {t c : String} {seen : List String} (h : t ∉ seen) (hc : Edge fks t c) :
    unseen fks (seen ++ [t]) < unseen fks seen := by
  have hmem : t ∈ fks.map FK.native := by
    obtain ⟨k, h1, h2, _⟩ := hc
    exact List.mem_map.2 ⟨k, h1, h2⟩
  unfold unseen
  generalize fks.map FK.native = l at hmem
  have hsub : ∀ l : List String, (l.filter (fun n => decide (n ∉ seen ++ [t]))).Sublist
      (l.filter (fun n => decide (n ∉ seen))) := by
    intro l
    have : (l.filter (fun n => decide (n ∉ seen ++ [t]))) =
        (l.filter (fun n => decide (n ∉ seen))).filter (fun n => decide (n ≠ t)) := by
      rw [List.filter_filter]
      apply List.filter_congr
      intro x _
      simp [Bool.and_comm]
    rw [this]
    exact List.filter_sublist
  apply Nat.lt_of_not_le
  intro hle
  have heq := (hsub l).eq_of_length_le hle
  have h1 : t ∈ l.filter (fun n => decide (n ∉ seen)) := List.mem_filter.2 ⟨hmem, by simpa using h⟩
  rw [← heq] at h1
  simp at h1

theorem unseen_le (fks : List FK) (seen : List String) : unseen fks seen ≤ fks.length := by
  unfold unseen
  exact Nat.le_trans (List.length_filter_le _ _) (by simp)

/-! ### Circle -/

/-- A path to `target` whose non-final nodes avoid `seen`. -/
inductive Avoid (fks : List FK) (target : String) (seen : List String) : String → Prop
  | done : Avoid fks target seen target
  | step {a b : String} : a ∉ seen → Edge fks a b → Avoid fks target seen b → Avoid fks target seen a

theorem avoid_split {fks : List FK} {target : String} {seen : List String} (x : String) {a : String}
    (h : Avoid fks target seen a) :
    Avoid fks target (seen ++ [x]) a ∨ ∃ c, Edge fks x c ∧ Avoid fks target (seen ++ [x]) c := by
  induction h with
  | done => exact Or.inl .done
  | @step a b hn he _ ih =>
    rcases ih with ih | ih
    · by_cases hx : a = x
      · subst hx; exact Or.inr ⟨b, he, ih⟩
      · exact Or.inl (.step (by simp [hn, hx]) he ih)
    · exact Or.inr ih

theorem avoid_mono {fks : List FK} {target : String} {seen : List String} {x a : String}
    (h : Avoid fks target (seen ++ [x]) a) : Avoid fks target seen a := by
  induction h with
  | done => exact .done
  | step hn he _ ih => exact .step (fun h => hn (List.mem_append_left _ h)) he ih

theorem foldlM_or {A : Type} (f : A → Option Bool) (l : List A) (b : Bool)
    (h : ∀ a ∈ l, ∃ r, f a = some r) :
    ∃ r, l.foldlM (fun b c => do let b' ← f c; return b || b') b = some r ∧
      (r = true ↔ b = true ∨ ∃ a ∈ l, f a = some true) := by
  induction l generalizing b with
  | nil => exact ⟨b, rfl, by simp⟩
  | cons a l ih =>
    obtain ⟨r0, h0⟩ := h a List.mem_cons_self
    obtain ⟨r, h1, h2⟩ := ih (b || r0) (fun c hc => h c (List.mem_cons_of_mem _ hc))
    refine ⟨r, ?_, ?_⟩
    · simpa [List.foldlM_cons, h0] using h1
    · rw [h2]
      simp only [Bool.or_eq_true, List.mem_cons, exists_eq_or_imp, h0, Option.some.injEq, or_assoc]

theorem circleVisit_spec (fks : List FK) (target : String) :
    ∀ (fuel : Nat) (t : String) (seen : List String), unseen fks seen < fuel →
      ∃ b, circleVisit fks target fuel t seen = some b ∧ (b = true ↔ Avoid fks target seen t) := by
  intro fuel
  induction fuel with
  | zero => intro t seen h; omega
  | succ fuel ih =>
    intro t seen hlt
    rw [circleVisit]
    by_cases h1 : t = target
    · subst h1
      exact ⟨true, by simp, by simp [Avoid.done]⟩
    · simp only [h1, if_false]
      by_cases h2 : t ∈ seen
      · refine ⟨false, by simp [h2], ?_⟩
        simp only [Bool.false_eq_true, false_iff]
        intro h
        cases h with
        | done => exact h1 rfl
        | step hn _ _ => exact hn h2
      · simp only [h2, if_false]
        have hch : ∀ c ∈ fkChildren fks t, ∃ r, circleVisit fks target fuel c (seen ++ [t]) = some r := by
          intro c hc
          have := unseen_lt h2 (mem_fkChildren.1 hc)
          obtain ⟨b, hb, _⟩ := ih c (seen ++ [t]) (by omega)
          exact ⟨b, hb⟩
        obtain ⟨r, hr, hr2⟩ := foldlM_or _ _ false hch
        refine ⟨r, hr, ?_⟩
        rw [hr2]
        simp only [Bool.false_eq_true, false_or]
        constructor
        · rintro ⟨c, hc, hb⟩
          have := unseen_lt h2 (mem_fkChildren.1 hc)
          obtain ⟨b, hb', hiff⟩ := ih c (seen ++ [t]) (by omega)
          rw [hb] at hb'
          obtain rfl := Option.some.inj hb'
          exact .step h2 (mem_fkChildren.1 hc) (avoid_mono (hiff.1 rfl))
        · intro h
          rcases avoid_split t h with h' | ⟨c, he, h'⟩
          · cases h' with
            | done => exact absurd rfl h1
            | step hn _ _ => exact absurd (List.mem_append_right _ (List.mem_singleton.2 rfl)) hn
          · have := unseen_lt h2 he
            obtain ⟨b, hb, hiff⟩ := ih c (seen ++ [t]) (by omega)
            exact ⟨c, mem_fkChildren.2 he, by rw [hb, hiff.2 h']⟩

theorem avoid_nil_iff {fks : List FK} {target a : String} : Avoid fks target [] a ↔ Path fks a target := by
  constructor
  · intro h
    induction h with
    | done => exact .refl _
    | step _ he _ ih => exact .step he ih
  · intro h
    induction h with
    | refl => exact .done
    | step he _ ih => exact .step (by simp) he ih

/-! ### Postgres order -/

theorem pgVisit_mono (fks : List FK) : ∀ (fuel : Nat) (t : String) (seen rtn rtn' : List String),
    pgVisit fks fuel t seen rtn = some rtn' → ∃ ext, rtn' = rtn ++ ext := by
  intro fuel
  induction fuel with
  | zero => intro t seen rtn rtn' h; simp [pgVisit] at h
  | succ fuel ih =>
    intro t seen rtn rtn' h
    rw [pgVisit] at h
    split at h
    · exact ⟨[], by simpa using h.symm⟩
    · rename_i hnm
      clear hnm
      simp only [Option.bind_eq_bind, Option.bind_eq_some_iff] at h
      obtain ⟨r1, h1, h2⟩ := h
      have : ∃ ext, r1 = rtn ++ ext := by
        clear h2
        generalize fkChildren fks t = l at h1
        induction l generalizing rtn with
        | nil => exact ⟨[], by simpa using h1.symm⟩
        | cons c l ihl =>
          simp only [List.foldlM_cons, Option.bind_eq_bind, Option.bind_eq_some_iff] at h1
          obtain ⟨r2, h3, h4⟩ := h1
          obtain ⟨e1, rfl⟩ := ih c _ _ _ h3
          obtain ⟨e2, rfl⟩ := ihl _ h4
          exact ⟨e1 ++ e2, by simp⟩
      obtain ⟨e, rfl⟩ := this
      exact ⟨e ++ [t], by simpa using (Option.some.inj h2).symm⟩

/-- What holds of the list of ordered tables at every point, whatever the shape of the graph. -/
structure PgInv (tables : List String) (seen rtn : List String) : Prop where
  nodup : rtn.Nodup
  sub : ∀ t ∈ rtn, t ∈ tables
  avoid : ∀ t ∈ rtn, t ∉ seen

theorem pgVisit_spec (fks : List FK) (tables : List String) (htab : ∀ k ∈ fks, k.foreign ∈ tables) :
    ∀ (fuel : Nat) (t : String) (seen rtn : List String), t ∈ tables → unseen fks seen < fuel →
      PgInv tables seen rtn →
      ∃ rtn', pgVisit fks fuel t seen rtn = some rtn' ∧ PgInv tables seen rtn' ∧
        (t ∈ rtn' ∨ t ∈ seen) := by
  intro fuel
  induction fuel with
  | zero => intro t seen rtn _ h; omega
  | succ fuel ih =>
    intro t seen rtn ht hlt inv
    rw [pgVisit]
    by_cases hmem : t ∈ rtn ++ seen
    · refine ⟨rtn, by simp [hmem], inv, ?_⟩
      simpa using hmem
    · simp only [hmem, if_false]
      simp only [List.mem_append, not_or] at hmem
      have hfold : ∀ (l : List String), (∀ c ∈ l, Edge fks t c) → ∀ r, PgInv tables (seen ++ [t]) r →
          ∃ r', l.foldlM (fun acc c => pgVisit fks fuel c (seen ++ [t]) acc) r = some r' ∧
            PgInv tables (seen ++ [t]) r' := by
        intro l
        induction l with
        | nil => intro _ r hr; exact ⟨r, rfl, hr⟩
        | cons c l ihl =>
          intro hl r hr
          have he := hl c List.mem_cons_self
          have := unseen_lt hmem.2 he
          have hct : c ∈ tables := by obtain ⟨k, h1, _, rfl⟩ := he; exact htab k h1
          obtain ⟨r1, h1, h2, _⟩ := ih c (seen ++ [t]) r hct (by omega) hr
          obtain ⟨r2, h3, h4⟩ := ihl (fun c hc => hl c (List.mem_cons_of_mem _ hc)) r1 h2
          exact ⟨r2, by simp [List.foldlM_cons, h1, h3], h4⟩
      obtain ⟨r, h1, h2⟩ := hfold (fkChildren fks t) (fun c hc => mem_fkChildren.1 hc) rtn
        ⟨inv.nodup, inv.sub, by
          intro x hx hx'
          rcases List.mem_append.1 hx' with h | h
          · exact inv.avoid x hx h
          · rw [List.mem_singleton] at h; exact hmem.1 (h ▸ hx)⟩
      refine ⟨r ++ [t], by simp [h1], ⟨?_, ?_, ?_⟩, Or.inl (by simp)⟩
      · rw [List.nodup_append]
        refine ⟨h2.nodup, by simp, ?_⟩
        intro a ha b hb
        rw [List.mem_singleton] at hb
        rintro rfl
        exact h2.avoid a ha (by simp [hb])
      · intro x hx
        rcases List.mem_append.1 hx with h | h
        · exact h2.sub x h
        · rw [List.mem_singleton] at h; exact h ▸ ht
      · intro x hx
        rcases List.mem_append.1 hx with h | h
        · exact fun h' => h2.avoid x h (List.mem_append_left _ h')
        · rw [List.mem_singleton] at h; exact h ▸ hmem.2

/-- Every listed table comes after its foreign tables (self references aside). -/
def Closed (fks : List FK) (rtn : List String) : Prop :=
  ∀ pre n post, rtn = pre ++ n :: post → ∀ c, Edge fks n c → c ≠ n → c ∈ pre

theorem closed_snoc {fks : List FK} {rtn : List String} {t : String} (h : Closed fks rtn)
    (ht : ∀ c, Edge fks t c → c ≠ t → c ∈ rtn) : Closed fks (rtn ++ [t]) := by
  intro pre n post he c hc hne
  rcases List.eq_nil_or_concat post with rfl | ⟨q, x, hqx⟩
  · have := List.append_inj' he rfl
    obtain ⟨rfl, h2⟩ := this
    simp only [List.cons.injEq, and_true] at h2
    exact ht c (h2 ▸ hc) (h2 ▸ hne)
  · rw [hqx] at he
    have he' : rtn ++ [t] = (pre ++ n :: q) ++ [x] := by simpa using he
    obtain ⟨h1, _⟩ := List.append_inj' he' rfl
    exact h pre n q h1 c hc hne

/-- On a graph with no cycles (self references aside) the visit puts `t` after everything it refers to. -/
theorem pgVisit_closed (fks : List FK) (hac : Acyclic (nonSelf fks)) :
    ∀ (fuel : Nat) (t : String) (seen rtn rtn' : List String),
      (∀ x ∈ seen, Path1 (nonSelf fks) x t) → Closed fks rtn →
      pgVisit fks fuel t seen rtn = some rtn' → Closed fks rtn' ∧ t ∈ rtn' := by
  intro fuel
  induction fuel with
  | zero => intro t seen rtn rtn' _ _ h; simp [pgVisit] at h
  | succ fuel ih =>
    intro t seen rtn rtn' hseen hcl h
    rw [pgVisit] at h
    have hts : t ∉ seen := fun hm => hac t (hseen t hm)
    by_cases hmem : t ∈ rtn ++ seen
    · simp only [hmem, if_true, Option.some.injEq] at h
      subst h
      exact ⟨hcl, by rcases List.mem_append.1 hmem with h | h; exact h; exact absurd h hts⟩
    · simp only [hmem, if_false, Option.bind_eq_bind, Option.bind_eq_some_iff] at h
      obtain ⟨r1, h1, h2⟩ := h
      have hself : ∀ r, pgVisit fks fuel t (seen ++ [t]) r = some r ∨ fuel = 0 := by
        intro r
        cases fuel with
        | zero => exact Or.inr rfl
        | succ n => left; rw [pgVisit]; simp
      have hfold : ∀ (l : List String), (∀ c ∈ l, Edge fks t c) → ∀ r r', Closed fks r →
          l.foldlM (fun acc c => pgVisit fks fuel c (seen ++ [t]) acc) r = some r' →
          Closed fks r' ∧ (∀ x ∈ r, x ∈ r') ∧ ∀ c ∈ l, c ≠ t → c ∈ r' := by
        intro l
        induction l with
        | nil =>
          intro _ r r' hr h
          have : r = r' := by simpa using h
          subst this
          exact ⟨hr, fun x hx => hx, by simp⟩
        | cons c l ihl =>
          intro hl r r' hr h
          simp only [List.foldlM_cons, Option.bind_eq_bind, Option.bind_eq_some_iff] at h
          obtain ⟨r2, h3, h4⟩ := h
          obtain ⟨ext, hext⟩ := pgVisit_mono fks _ _ _ _ _ h3
          have hr2 : Closed fks r2 ∧ (c ≠ t → c ∈ r2) := by
            by_cases hct : c = t
            · subst hct
              rcases hself r with h5 | h5
              · rw [h5] at h3
                have := Option.some.inj h3
                subst this
                exact ⟨hr, fun h => absurd rfl h⟩
              · subst h5; simp [pgVisit] at h3
            · have he : Edge (nonSelf fks) t c := by
                obtain ⟨k, g1, g2, g3⟩ := hl c List.mem_cons_self
                refine ⟨k, List.mem_filter.2 ⟨g1, ?_⟩, g2, g3⟩
                simp only [decide_eq_true_eq, ne_eq]
                intro e
                exact hct (g3.symm.trans (e.symm.trans g2))
              have := ih c (seen ++ [t]) r r2 (by
                intro x hx
                rcases List.mem_append.1 hx with h | h
                · obtain ⟨b, hb1, hb2⟩ := hseen x h
                  exact ⟨b, hb1, path_trans hb2 (.step he (.refl _))⟩
                · rw [List.mem_singleton] at h
                  subst h
                  exact ⟨c, he, .refl _⟩) hr h3
              exact ⟨this.1, fun _ => this.2⟩
          obtain ⟨a1, a2, a3⟩ := ihl (fun c hc => hl c (List.mem_cons_of_mem _ hc)) r2 r' hr2.1 h4
          refine ⟨a1, fun x hx => a2 x (by rw [hext]; exact List.mem_append_left _ hx), ?_⟩
          intro d hd hdt
          rcases List.mem_cons.1 hd with rfl | hd
          · exact a2 _ (hr2.2 hdt)
          · exact a3 d hd hdt
      obtain ⟨b1, _, b3⟩ := hfold _ (fun c hc => mem_fkChildren.1 hc) rtn r1 hcl h1
      have := Option.some.inj h2
      subst this
      exact ⟨closed_snoc b1 (fun c hc hne => b3 c (mem_fkChildren.2 hc) hne), by simp⟩

/-! ### Sqlite order -/

/-- Without cycles the sqlite visit is the postgres visit. -/
theorem sqlVisit_eq_pgVisit (fks : List FK) (hac : Acyclic fks) :
    ∀ (fuel : Nat) (t : String) (seen rtn : List String), (∀ x ∈ seen, Path1 fks x t) →
      sqlVisit fks fuel t rtn = pgVisit fks fuel t seen rtn := by
  intro fuel
  induction fuel with
  | zero => intro t seen rtn _; rfl
  | succ fuel ih =>
    intro t seen rtn hseen
    have hts : t ∉ seen := fun hm => hac t (hseen t hm)
    rw [sqlVisit, pgVisit]
    simp only [List.mem_append, hts, or_false]
    split
    · rfl
    · have : ∀ (l : List String), (∀ c ∈ l, Edge fks t c) → ∀ r,
          l.foldlM (fun acc c => sqlVisit fks fuel c acc) r =
          l.foldlM (fun acc c => pgVisit fks fuel c (seen ++ [t]) acc) r := by
        intro l
        induction l with
        | nil => intro _ r; rfl
        | cons c l ihl =>
          intro hl r
          have he := hl c List.mem_cons_self
          rw [List.foldlM_cons, List.foldlM_cons, ih c (seen ++ [t]) r]
          · cases pgVisit fks fuel c (seen ++ [t]) r with
            | none => rfl
            | some r1 => exact ihl (fun c hc => hl c (List.mem_cons_of_mem _ hc)) r1
          · intro x hx
            rcases List.mem_append.1 hx with h | h
            · obtain ⟨b, hb1, hb2⟩ := hseen x h
              exact ⟨b, hb1, path_trans hb2 (.step he (.refl _))⟩
            · rw [List.mem_singleton] at h
              subst h
              exact ⟨c, he, .refl _⟩
      rw [this _ (fun c hc => mem_fkChildren.1 hc)]

/-- A visit that returns never lists a table of a cycle. -/
theorem sqlVisit_cycle (fks : List FK) :
    ∀ (fuel : Nat) (t : String) (rtn rtn' : List String), (∀ x ∈ rtn, ¬ Path1 fks x x) →
      sqlVisit fks fuel t rtn = some rtn' → ¬ Path1 fks t t ∧ ∀ x ∈ rtn', ¬ Path1 fks x x := by
  intro fuel
  induction fuel with
  | zero => intro t rtn rtn' _ h; simp [sqlVisit] at h
  | succ fuel ih =>
    intro t rtn rtn' hr h
    rw [sqlVisit] at h
    by_cases hm : t ∈ rtn
    · simp only [hm, if_true, Option.some.injEq] at h
      subst h
      exact ⟨hr t hm, hr⟩
    · simp only [hm, if_false, Option.bind_eq_bind, Option.bind_eq_some_iff] at h
      obtain ⟨r1, h1, h2⟩ := h
      have hfold : ∀ (l : List String) r r', (∀ x ∈ r, ¬ Path1 fks x x) →
          l.foldlM (fun acc c => sqlVisit fks fuel c acc) r = some r' →
          (∀ c ∈ l, ¬ Path1 fks c c) ∧ ∀ x ∈ r', ¬ Path1 fks x x := by
        intro l
        induction l with
        | nil => intro r r' hr h; have : r = r' := by simpa using h
                 subst this; exact ⟨by simp, hr⟩
        | cons c l ihl =>
          intro r r' hr h
          simp only [List.foldlM_cons, Option.bind_eq_bind, Option.bind_eq_some_iff] at h
          obtain ⟨r2, h3, h4⟩ := h
          obtain ⟨a1, a2⟩ := ih c r r2 hr h3
          obtain ⟨b1, b2⟩ := ihl r2 r' a2 h4
          refine ⟨?_, b2⟩
          intro d hd
          rcases List.mem_cons.1 hd with rfl | hd
          · exact a1
          · exact b1 d hd
      obtain ⟨b1, b2⟩ := hfold _ rtn r1 hr h1
      have hnt : ¬ Path1 fks t t := by
        rintro ⟨c, he, hp⟩
        apply b1 c (mem_fkChildren.2 he)
        -- c →* t → c
        cases hp with
        | refl => exact ⟨_, he, .refl _⟩
        | @step _ b _ e p => exact ⟨b, e, path_trans p (.step he (.refl _))⟩
      refine ⟨hnt, ?_⟩
      have := Option.some.inj h2
      subst this
      intro x hx
      rcases List.mem_append.1 hx with h | h
      · exact b2 x h
      · rw [List.mem_singleton] at h; exact h ▸ hnt

end Ticdat

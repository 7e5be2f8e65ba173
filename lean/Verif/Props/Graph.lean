import Verif.Lemmas.Graph
import Verif.Spec.PanFK
/-!
# C07 - C10: circle warning, postgres and sqlite table orders, states during a postgres write
-/
set_option linter.unusedSectionVars false
namespace Ticdat
open Spec

/-- **C07.**  `does_new_fk_complete_circle` answers (no endless recursion: a depth of one more than the number of keys is
enough), and it answers "yes" iff the new native table can already be reached from the new foreign table by following
declared foreign keys (zero keys if the two tables are the same). -/
theorem circle_warning_exact (fks : List FK) (native foreign : String) :
    ∃ b, (∀ fuel, fks.length < fuel → completesCircle fks fuel native foreign = some b) ∧
      (b = true ↔ Path fks foreign native) := by
  obtain ⟨b, hb, hiff⟩ := circleVisit_spec fks native (fks.length + 1) foreign []
    (Nat.lt_of_le_of_lt (unseen_le _ _) (Nat.lt_succ_self _))
  refine ⟨b, ?_, by rw [hiff, avoid_nil_iff]⟩
  intro fuel hf
  obtain ⟨b', hb', hiff'⟩ := circleVisit_spec fks native fuel foreign []
    (Nat.lt_of_le_of_lt (unseen_le _ _) hf)
  have : b' = b := by rw [Bool.eq_iff_iff, hiff, hiff']
  exact this ▸ hb'

example : completesCircle [⟨"b", "c", []⟩, ⟨"c", "d", []⟩, ⟨"d", "b", []⟩] 5 "a" "b" = some false ∧
    completesCircle [⟨"b", "c", []⟩, ⟨"c", "d", []⟩, ⟨"d", "b", []⟩, ⟨"d", "a", []⟩] 5 "a" "b" = some true := by
  decide

theorem pgOrder_fold (fks : List FK) (tables : List String)
    (htab : ∀ k ∈ fks, k.foreign ∈ tables) (fuel : Nat) (hf : fks.length < fuel) :
    ∀ (l : List String) (rtn : List String), (∀ t ∈ l, t ∈ tables) → PgInv tables [] rtn →
      ∃ o, l.foldlM (fun acc t => pgVisit fks fuel t [] acc) rtn = some o ∧ PgInv tables [] o ∧
        (∀ t ∈ rtn, t ∈ o) ∧ (∀ t ∈ l, t ∈ o) ∧
        (Acyclic (nonSelf fks) → Closed fks rtn → Closed fks o) := by
  intro l
  induction l with
  | nil => intro rtn _ inv; exact ⟨rtn, rfl, inv, fun _ h => h, by simp, fun _ h => h⟩
  | cons t l ih =>
    intro rtn hl inv
    obtain ⟨r1, h1, h2, h3⟩ := pgVisit_spec fks tables htab fuel t [] rtn (hl t List.mem_cons_self)
      (Nat.lt_of_le_of_lt (unseen_le _ _) hf) inv
    obtain ⟨o, g1, g2, g3, g4, g5⟩ := ih r1 (fun x hx => hl x (List.mem_cons_of_mem _ hx)) h2
    obtain ⟨ext, hext⟩ := pgVisit_mono fks _ _ _ _ _ h1
    refine ⟨o, by simp [List.foldlM_cons, h1, g1], g2, ?_, ?_, ?_⟩
    · intro x hx
      exact g3 x (by rw [hext]; exact List.mem_append_left _ hx)
    · intro x hx
      rcases List.mem_cons.1 hx with rfl | hx
      · rcases h3 with h3 | h3
        · exact g3 _ h3
        · simp at h3
      · exact g4 x hx
    · intro hac hcl
      exact g5 hac (pgVisit_closed fks hac fuel t [] rtn r1 (by simp) hcl h1).1

theorem foreignFirst_of_closed {fks : List FK} {o : List String} (h : Closed fks o) : ForeignFirst fks o := by
  intro k hk hne pre post he
  exact h pre k.native post he k.foreign ⟨k, hk, rfl, rfl⟩ (Ne.symm hne)

/-- **C08.**  The postgres table order terminates on every graph of foreign keys, also on cyclic ones; it lists every
table exactly once; and when the keys are acyclic (self references aside) foreign tables come first. -/
theorem pg_order_spec (fks : List FK) (tables : List String)
    (htab : ∀ k ∈ fks, k.foreign ∈ tables) :
    ∃ o, (∀ fuel, fks.length < fuel → pgOrder fks tables fuel = some o) ∧ o.Nodup ∧
      (∀ t, t ∈ o ↔ t ∈ tables) ∧ (Acyclic (nonSelf fks) → ForeignFirst fks o) := by
  have inv0 : PgInv tables [] [] := ⟨List.nodup_nil, by simp, by simp⟩
  obtain ⟨o, h1, h2, _, h4, h5⟩ := pgOrder_fold fks tables htab (fks.length + 1)
    (Nat.lt_succ_self _) tables [] (fun _ h => h) inv0
  have hcl : Closed fks [] := by intro pre n post h; simp at h
  refine ⟨o, ?_, h2.nodup, fun t => ⟨h2.sub t, h4 t⟩, fun hac => foreignFirst_of_closed (h5 hac hcl)⟩
  intro fuel hf
  -- the result does not depend on the fuel
  have hmono : ∀ (n : Nat) (t : String) (seen rtn r : List String), pgVisit fks n t seen rtn = some r →
      pgVisit fks (n + 1) t seen rtn = some r := by
    intro n
    induction n with
    | zero => intro t seen rtn r h; simp [pgVisit] at h
    | succ n ih =>
      intro t seen rtn r h
      rw [pgVisit] at h ⊢
      split at h
      · rename_i hm; simp only [hm, if_true]; exact h
      · rename_i hm
        simp only [hm, if_false]
        simp only [Option.bind_eq_bind, Option.bind_eq_some_iff] at h ⊢
        obtain ⟨r1, h1, h2⟩ := h
        refine ⟨r1, ?_, h2⟩
        clear h2 hm
        generalize fkChildren fks t = l at h1
        induction l generalizing rtn with
        | nil => exact h1
        | cons c l ihl =>
          simp only [List.foldlM_cons, Option.bind_eq_bind, Option.bind_eq_some_iff] at h1 ⊢
          obtain ⟨r2, h3, h4⟩ := h1
          exact ⟨r2, ih _ _ _ _ h3, ihl _ h4⟩
  have hmono' : ∀ (n m : Nat), n ≤ m → ∀ (t : String) (seen rtn r : List String),
      pgVisit fks n t seen rtn = some r → pgVisit fks m t seen rtn = some r := by
    intro n m hle
    induction hle with
    | refl => intro t seen rtn r h; exact h
    | step _ ih => intro t seen rtn r h; exact hmono _ _ _ _ _ (ih _ _ _ _ h)
  have : ∀ (l : List String) (rtn : List String),
      l.foldlM (fun acc t => pgVisit fks (fks.length + 1) t [] acc) rtn = some o →
      l.foldlM (fun acc t => pgVisit fks fuel t [] acc) rtn = some o := by
    intro l
    induction l with
    | nil => intro rtn h; exact h
    | cons c l ihl =>
      intro rtn h
      simp only [List.foldlM_cons, Option.bind_eq_bind, Option.bind_eq_some_iff] at h ⊢
      obtain ⟨r2, h3, h4⟩ := h
      exact ⟨r2, hmono' _ _ hf _ _ _ _ h3, ihl _ h4⟩
  exact this tables [] h1

/-- **C09.**  On acyclic foreign keys the sqlite table order terminates, lists every table exactly once, and puts foreign
tables first; it is then the postgres order. -/
theorem sqlite_order_spec (fks : List FK) (tables : List String)
    (htab : ∀ k ∈ fks, k.foreign ∈ tables) (hac : Acyclic fks) :
    ∃ o, (∀ fuel, fks.length < fuel → sqlOrder fks tables fuel = some o) ∧ o.Nodup ∧
      (∀ t, t ∈ o ↔ t ∈ tables) ∧ ForeignFirst fks o := by
  obtain ⟨o, h1, h2, h3, h4⟩ := pg_order_spec fks tables htab
  have heq : ∀ fuel, sqlOrder fks tables fuel = pgOrder fks tables fuel := by
    intro fuel
    unfold sqlOrder pgOrder
    congr 1
    funext acc t
    exact sqlVisit_eq_pgVisit fks hac fuel t [] acc (by simp)
  refine ⟨o, fun fuel hf => by rw [heq]; exact h1 fuel hf, h2, h3, h4 ?_⟩
  intro t ht
  apply hac t
  have hedge : ∀ a b, Edge (nonSelf fks) a b → Edge fks a b := by
    rintro a b ⟨k, hk, h⟩
    exact ⟨k, (List.mem_filter.1 hk).1, h⟩
  have hpath : ∀ a b, Path (nonSelf fks) a b → Path fks a b := by
    intro a b h
    induction h with
    | refl => exact .refl _
    | step e _ ih => exact .step (hedge _ _ e) ih
  obtain ⟨b, e, p⟩ := ht
  exact ⟨b, hedge _ _ e, hpath _ _ p⟩

/-- **Finding (C09).**  As soon as some table of the schema can be reached from itself (a self reference is enough) the
sqlite table order does not terminate: whatever the recursion depth, there is no result.  So no sqlite schema can be
written for such a factory. -/
theorem sqlite_order_diverges_on_cycles (fks : List FK) (tables : List String) (t : String) (ht : t ∈ tables)
    (hcyc : Path1 fks t t) (fuel : Nat) : sqlOrder fks tables fuel = none := by
  cases h : sqlOrder fks tables fuel with
  | none => rfl
  | some o =>
    exfalso
    have : ∀ (l : List String) (rtn o : List String), (∀ x ∈ rtn, ¬ Path1 fks x x) →
        l.foldlM (fun acc t => sqlVisit fks fuel t acc) rtn = some o → ∀ x ∈ l, ¬ Path1 fks x x := by
      intro l
      induction l with
      | nil => intro _ _ _ _; simp
      | cons c l ihl =>
        intro rtn o hr h
        simp only [List.foldlM_cons, Option.bind_eq_bind, Option.bind_eq_some_iff] at h
        obtain ⟨r2, h3, h4⟩ := h
        obtain ⟨a1, a2⟩ := sqlVisit_cycle fks fuel c rtn r2 hr h3
        intro x hx
        rcases List.mem_cons.1 hx with rfl | hx
        · exact a1
        · exact ihl r2 o a2 h4 x hx
    exact this tables [] o (by simp) h t ht hcyc

example : pgOrder [⟨"q", "f", []⟩, ⟨"q", "n", []⟩, ⟨"log", "q", []⟩, ⟨"f", "f", []⟩] ["log", "q", "f", "n"] 5 =
    some ["f", "n", "q", "log"] := by decide
example : sqlOrder [⟨"q", "f", []⟩, ⟨"q", "n", []⟩, ⟨"log", "q", []⟩] ["log", "q", "f", "n"] 5 =
    some ["f", "n", "q", "log"] := by decide
/-- A cyclic graph: postgres still lists every table once. -/
example : pgOrder [⟨"a", "b", []⟩, ⟨"b", "c", []⟩, ⟨"c", "a", []⟩] ["a", "b", "c"] 5 = some ["c", "b", "a"] := by decide

/-! ### C10 -/
variable {V : Type}

theorem deleteStates_form (del : String → Bool) (l : List String) (st : PanDB V) :
    (∀ x ∈ deleteStates del l st, ∃ pre post, l = pre ++ post ∧
      x = fun t => if t ∈ pre ∧ del t = true then [] else st t) ∧
    (st :: deleteStates del l st).getLastD st = fun t => if t ∈ l ∧ del t = true then [] else st t := by
  induction l generalizing st with
  | nil => exact ⟨by simp [deleteStates], by simp [deleteStates]⟩
  | cons a l ih =>
    rw [deleteStates]
    cases hd : del a with
    | true =>
      simp only [if_true]
      obtain ⟨h1, h2⟩ := ih (fun t' => if t' = a then [] else st t')
      constructor
      · intro x hx
        rcases List.mem_cons.1 hx with rfl | hx
        · refine ⟨[a], l, rfl, ?_⟩
          funext t
          by_cases ht : t = a
          · subst ht; simp [hd]
          · simp [ht]
        · obtain ⟨pre, post, rfl, rfl⟩ := h1 x hx
          refine ⟨a :: pre, post, rfl, ?_⟩
          funext t
          by_cases ht : t = a
          · subst ht; simp [hd]
          · simp [ht]
      · simp only [List.getLastD_cons] at h2 ⊢
        rw [h2]
        funext t
        by_cases ht : t = a
        · subst ht; simp [hd]
        · simp [ht]
    | false =>
      simp only [Bool.false_eq_true, if_false]
      obtain ⟨h1, h2⟩ := ih st
      constructor
      · intro x hx
        obtain ⟨pre, post, rfl, rfl⟩ := h1 x hx
        refine ⟨a :: pre, post, rfl, ?_⟩
        funext t
        by_cases ht : t = a
        · subst ht; simp [hd]
        · simp [ht]
      · rw [h2]
        funext t
        by_cases ht : t = a
        · subst ht; simp [hd]
        · simp [ht]

theorem insertRowStates_form (t : String) (rs : List (PRow V)) (st : PanDB V) :
    (∀ x ∈ insertRowStates t rs st, ∃ ra rb, rs = ra ++ rb ∧
      x = fun t' => if t' = t then st t' ++ ra else st t') ∧
    (insertRowStates t rs st).getLastD st = fun t' => if t' = t then st t' ++ rs else st t' := by
  induction rs generalizing st with
  | nil =>
    refine ⟨by simp [insertRowStates], ?_⟩
    funext t'
    by_cases h : t' = t <;> simp [insertRowStates]
  | cons r rs ih =>
    obtain ⟨h1, h2⟩ := ih (fun t' => if t' = t then st t' ++ [r] else st t')
    rw [insertRowStates]
    constructor
    · intro x hx
      rcases List.mem_cons.1 hx with rfl | hx
      · exact ⟨[r], rs, rfl, rfl⟩
      · obtain ⟨ra, rb, rfl, rfl⟩ := h1 x hx
        refine ⟨r :: ra, rb, rfl, ?_⟩
        funext t'
        by_cases h : t' = t <;> simp [h]
    · simp only [List.getLastD_cons]
      rw [h2]
      funext t'
      by_cases h : t' = t <;> simp [h]

theorem insertStates_form (dat : PanDB V) (l : List String) (hn : l.Nodup) (st : PanDB V) :
    (∀ x ∈ insertStates dat l st, ∃ pre t post ra rb, l = pre ++ t :: post ∧ dat t = ra ++ rb ∧
      x = fun t' => if t' = t then st t' ++ ra else if t' ∈ pre then st t' ++ dat t' else st t') ∧
    (insertStates dat l st).getLastD st = fun t' => if t' ∈ l then st t' ++ dat t' else st t' := by
  induction l generalizing st with
  | nil => exact ⟨by simp [insertStates], by simp [insertStates]⟩
  | cons a l ih =>
    rw [List.nodup_cons] at hn
    obtain ⟨r1, r2⟩ := insertRowStates_form a (dat a) st
    obtain ⟨h1, h2⟩ := ih hn.2 ((insertRowStates a (dat a) st).getLastD st)
    rw [insertStates]
    constructor
    · intro x hx
      rcases List.mem_append.1 hx with hx | hx
      · obtain ⟨ra, rb, he, rfl⟩ := r1 x hx
        exact ⟨[], a, l, ra, rb, rfl, he, by simp⟩
      · obtain ⟨pre, t, post, ra, rb, rfl, hb, rfl⟩ := h1 x hx
        refine ⟨a :: pre, t, post, ra, rb, rfl, hb, ?_⟩
        rw [r2]
        have hat : t ≠ a := fun e => hn.1 (by simp [e])
        have hap : a ∉ pre := fun e => hn.1 (by simp [e])
        funext t'
        by_cases h3 : t' = t
        · subst h3; simp [hat]
        · by_cases h2 : t' = a
          · subst h2; simp [h3, hap]
          · simp [h3, h2]
    · have hlast : ∀ (A B : List (PanDB V)), (A ++ B).getLastD st = B.getLastD (A.getLastD st) := by
        intro A B
        cases B with
        | nil => simp
        | cons b B => simp [List.getLastD_eq_getLast?, List.getLast?_append]
      rw [hlast, h2, r2]
      funext t'
      by_cases h : t' = a
      · subst h; simp [hn.1]
      · simp [h]

/-- **C10.**  Writing a foreign-key-consistent data object to a consistent postgres database with acyclic foreign keys:
after every single statement (each table delete, each row insert) the database satisfies every foreign key, and in the
end each table holds its kept rows followed by the written rows.  `del t` says that the old rows of `t` are deleted (the
default for every table); tables may be appended to instead as long as no kept table refers to a deleted one.  `order` is
the result of `_ordered_tables`. -/
theorem pg_write_never_breaks_fks (fks : List FK) (tables : List String)
    (htab : ∀ k ∈ fks, k.foreign ∈ tables ∧ k.native ∈ tables) (hac : Acyclic fks)
    (old dat : PanDB V) (hold : PanConsistent fks old) (hdat : PanConsistent fks dat)
    (del : String → Bool) (hdel : ∀ k ∈ fks, del k.foreign = true → del k.native = true)
    (fuel : Nat) (hf : fks.length < fuel) :
    ∃ order, pgOrder fks tables fuel = some order ∧
      (∀ st ∈ writeStates order del dat old, PanConsistent fks st) ∧
      ∀ t ∈ tables, (writeStates order del dat old).getLastD old t =
        (if del t then [] else old t) ++ dat t := by
  obtain ⟨o, h1, hnd, hmem, hff⟩ := pg_order_spec fks tables (fun k h => (htab k h).1)
  have hff : ForeignFirst fks o := by
    apply hff
    intro t ht
    apply hac t
    have hedge : ∀ a b, Edge (nonSelf fks) a b → Edge fks a b := by
      rintro a b ⟨k, hk, h⟩
      exact ⟨k, (List.mem_filter.1 hk).1, h⟩
    have hpath : ∀ a b, Path (nonSelf fks) a b → Path fks a b := by
      intro a b h
      induction h with
      | refl => exact .refl _
      | step e _ ih => exact .step (hedge _ _ e) ih
    obtain ⟨b, e, p⟩ := ht
    exact ⟨b, hedge _ _ e, hpath _ _ p⟩
  have hself : ∀ k ∈ fks, k.native ≠ k.foreign := by
    intro k hk e
    exact hac k.native ⟨k.foreign, ⟨k, hk, rfl, rfl⟩, e ▸ .refl _⟩
  -- a masked state is consistent whenever the mask is a prefix of the reversed order
  have hmask : ∀ pre post, o.reverse = pre ++ post →
      PanConsistent fks (fun t => if t ∈ pre ∧ del t = true then [] else old t) := by
    intro pre post he k hk r hr hfail
    simp only at hr
    split at hr
    · simp at hr
    · rename_i hnk
      apply hold k hk r hr
      intro q hq
      apply hfail q
      simp only
      rw [if_neg]
      · exact hq
      · rintro ⟨hfp, hfd⟩
        apply hnk
        refine ⟨?_, hdel k hk hfd⟩
        -- the foreign table is in the reversed prefix, so the native one is too
        have hnat : k.native ∈ o := (hmem _).2 (htab k hk).2
        obtain ⟨a, b, hab⟩ := List.append_of_mem hnat
        have hfa : k.foreign ∈ a := hff k hk (hself k hk) a b hab
        have hrev : o.reverse = b.reverse ++ k.native :: a.reverse := by rw [hab]; simp
        rw [hrev] at he
        have hndr : (b.reverse ++ k.native :: a.reverse).Nodup := by rw [← hrev]; exact (List.reverse_perm o).nodup_iff.2 hnd
        rw [List.append_eq_append_iff] at he
        rcases he with ⟨c, hc1, hc2⟩ | ⟨c, hc1, hc2⟩
        · -- pre = b.reverse ++ c
          cases c with
          | nil =>
            exfalso
            simp only [List.append_nil] at hc1
            rw [hc1] at hfp
            have := (List.nodup_append.1 hndr).2.2 _ hfp k.foreign
              (List.mem_cons_of_mem _ (List.mem_reverse.2 hfa))
            exact this rfl
          | cons x c =>
            simp only [List.cons_append, List.cons.injEq] at hc2
            rw [hc1, hc2.1]; simp
        · exfalso
          have : k.foreign ∈ b.reverse := by rw [hc1]; exact List.mem_append_left _ hfp
          exact (List.nodup_append.1 hndr).2.2 _ this k.foreign
            (List.mem_cons_of_mem _ (List.mem_reverse.2 hfa)) rfl
  obtain ⟨d1, d2⟩ := deleteStates_form del o.reverse old
  have hst0 : PanConsistent fks (fun t => if t ∈ o.reverse ∧ del t = true then [] else old t) :=
    hmask o.reverse [] (by simp)
  obtain ⟨i1, i2⟩ := insertStates_form dat o hnd (fun t => if t ∈ o.reverse ∧ del t = true then [] else old t)
  refine ⟨o, h1 fuel hf, ?_, ?_⟩
  · intro st hst
    unfold writeStates at hst
    simp only [d2] at hst
    rcases List.mem_append.1 hst with hst | hst
    · rcases List.mem_cons.1 hst with rfl | hst
      · exact hold
      · obtain ⟨pre, post, he, rfl⟩ := d1 st hst
        exact hmask pre post he
    · obtain ⟨pre, t, post, ra, rb, he, hb, rfl⟩ := i1 st hst
      intro k hk r hr hfail
      have hgrow : ∀ t', ∀ q ∈ (if t' ∈ o.reverse ∧ del t' = true then [] else old t'),
          q ∈ (fun t' => if t' = t then (if t' ∈ o.reverse ∧ del t' = true then [] else old t') ++ ra
            else if t' ∈ pre then (if t' ∈ o.reverse ∧ del t' = true then [] else old t') ++ dat t'
            else (if t' ∈ o.reverse ∧ del t' = true then [] else old t')) t' := by
        intro t' q hq
        simp only
        split
        · exact List.mem_append_left _ hq
        · split
          · exact List.mem_append_left _ hq
          · exact hq
      have hnew : r ∈ dat k.native → (k.native = t ∨ k.native ∈ pre) → False := by
        intro hr hin
        apply hdat k hk r hr
        intro q hq
        apply hfail q
        have hfp : k.foreign ∈ pre := by
          rcases hin with e | hin
          · exact hff k hk (hself k hk) pre post (by rw [he, e])
          · obtain ⟨a, b, hab⟩ := List.append_of_mem hin
            have := hff k hk (hself k hk) a (b ++ t :: post) (by rw [he, hab]; simp)
            rw [hab]; exact List.mem_append_left _ this
        have hft : k.foreign ≠ t := by
          intro e
          rw [he, List.nodup_append] at hnd
          exact hnd.2.2 _ hfp t List.mem_cons_self e
        simp only [hft, if_false, hfp, if_true]
        exact List.mem_append_right _ hq
      have hkeep : r ∈ (if k.native ∈ o.reverse ∧ del k.native = true then [] else old k.native) → False := by
        intro hr
        apply hst0 k hk r hr
        intro q hq
        exact hfail q (hgrow _ q hq)
      simp only at hr
      split at hr
      · rename_i e
        rcases List.mem_append.1 hr with hr | hr
        · exact hkeep hr
        · apply hnew _ (Or.inl e)
          rw [e, hb]; exact List.mem_append_left _ hr
      · split at hr
        · rename_i e
          rcases List.mem_append.1 hr with hr | hr
          · exact hkeep hr
          · exact hnew hr (Or.inr e)
        · exact hkeep hr
  · intro t ht
    have hto : t ∈ o := (hmem t).2 ht
    have hlast : ∀ (A B : List (PanDB V)), (A ++ B).getLastD old = B.getLastD (A.getLastD old) := by
      intro A B
      cases B with
      | nil => simp
      | cons b B => simp [List.getLastD_eq_getLast?, List.getLast?_append]
    unfold writeStates
    simp only [hlast, d2, i2]
    simp only [hto, if_true, List.mem_reverse, true_and]

/-- Non-vacuity: a two-table write through all its states. -/
example :
    let fks : List FK := [⟨"c", "p", [("x", "id")]⟩]
    let row (f : String) (n : Nat) : PRow Nat := fun g => if g = f then some n else none
    let old : PanDB Nat := fun t => if t = "p" then [row "id" 1] else [row "x" 1]
    let dat : PanDB Nat := fun t => if t = "p" then [row "id" 2, row "id" 3] else [row "x" 3]
    (writeStates ["p", "c"] (fun _ => true) dat old).map (fun st => ((st "p").length, (st "c").length)) =
      [(1, 1), (1, 0), (0, 0), (1, 0), (2, 0), (2, 1)] := by decide

end Ticdat

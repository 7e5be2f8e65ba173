import Verif.Model.Implied
import Verif.Props.RemoveFK
/-!
# C06, C40: implied foreign keys and cardinality
-/
set_option linter.unusedSectionVars false
set_option linter.unusedSimpArgs false
namespace Ticdat
open Spec
variable {V : Type} [DecidableEq V]

theorem mem_impliedCandidates {s : Schema} {fks : List FK} {d : FK} :
    d ∈ impliedCandidates s fks ↔ (∃ k1 ∈ fks, ∃ k2 ∈ fks, k2.native = k1.foreign ∧ derivedFK k1 k2 = d) ∧
      d ∉ fks ∧ simpleFK s d = true := by
  simp only [impliedCandidates, List.mem_filter, List.mem_flatMap, List.mem_map, decide_eq_true_eq,
    Bool.and_eq_true]
  constructor
  · rintro ⟨⟨k1, h1, k2, ⟨h2, h3⟩, h4⟩, h5, h6⟩
    exact ⟨⟨k1, h1, k2, h2, h3, h4⟩, h5, h6⟩
  · rintro ⟨⟨k1, h1, k2, h2, h3, h4⟩, h5, h6⟩
    exact ⟨⟨k1, h1, k2, ⟨h2, h3⟩, h4⟩, h5, h6⟩

theorem mem_derived {k1 k2 : FK} {nf ff : String} (h : (nf, ff) ∈ (derivedFK k1 k2).mapping) :
    ∃ bf, (ff, bf) ∈ k2.foreignToNative ∧ (bf, nf) ∈ k1.foreignToNative := by
  simp only [derivedFK, List.mem_filterMap, Option.map_eq_some_iff, Prod.mk.injEq] at h
  obtain ⟨⟨ff', bf⟩, h1, nf', h2, rfl, rfl⟩ := h
  exact ⟨bf, h1, PyDict.get?_mem h2⟩

theorem nodup_fst_inj {l : List (String × String)} (h : (l.map Prod.fst).Nodup) {a b c : String}
    (h1 : (a, b) ∈ l) (h2 : (a, c) ∈ l) : b = c := by
  have e1 := PyDict.get?_of_mem (d := l) h h1
  have e2 := PyDict.get?_of_mem (d := l) h h2
  rw [e1] at e2
  exact Option.some.inj e2

/-- What is known of a derived key even if its mapping is empty. -/
theorem derived_fields {k1 k2 : FK} (n1 : (k1.mapping.map Prod.fst).Nodup)
    (n2 : (k2.mapping.map Prod.fst).Nodup) :
    ((derivedFK k1 k2).mapping.map Prod.fst).Nodup ∧
    (∀ p ∈ (derivedFK k1 k2).mapping, (∃ b, (p.1, b) ∈ k1.mapping) ∧ ∃ b, (b, p.2) ∈ k2.mapping) := by
  refine ⟨?_, ?_⟩
  · have hn2 : k2.foreignToNative.Pairwise (fun p q => p.2 ≠ q.2) := by
      have hk : (PyDict.keys k2.foreignToNative).Nodup := PyDict.ofList_keys_nodup _
      unfold PyDict.keys at hk
      rw [List.Nodup, List.pairwise_map] at hk
      apply List.Pairwise.imp_of_mem _ hk
      rintro ⟨f, b⟩ ⟨f', b'⟩ hm hm' hne he
      simp only at hne he
      subst he
      exact hne (nodup_fst_inj n2 (foreignToNative_mem hm) (foreignToNative_mem hm'))
    rw [List.Nodup, List.pairwise_map]
    simp only [derivedFK]
    rw [List.pairwise_filterMap]
    apply hn2.imp
    rintro ⟨f, b⟩ ⟨f', b'⟩ hne x hx y hy he
    simp only [Option.map_eq_some_iff] at hx hy
    obtain ⟨nf, g1, rfl⟩ := hx
    obtain ⟨nf', g2, rfl⟩ := hy
    simp only at he hne
    subst he
    exact hne (nodup_fst_inj n1 (foreignToNative_mem (PyDict.get?_mem g1))
      (foreignToNative_mem (PyDict.get?_mem g2)))
  · rintro ⟨nf, ff⟩ hm
    obtain ⟨bf, hb1, hb2⟩ := mem_derived hm
    exact ⟨⟨bf, foreignToNative_mem hb2⟩, bf, foreignToNative_mem hb1⟩

theorem derived_ok {s : Schema} {k1 k2 : FK} (h1 : FKOK s k1) (h2 : FKOK s k2) (hb : k2.native = k1.foreign)
    (hsimple : simpleFK s (derivedFK k1 k2) = true) (hpk : s.pks k2.foreign ≠ []) : FKOK s (derivedFK k1 k2) := by
  simp only [simpleFK, decide_eq_true_eq] at hsimple
  obtain ⟨g1, g2⟩ := derived_fields h1.native_nodup h2.native_nodup
  refine ⟨h1.native_mem, h2.foreign_mem, ?_, g1, ?_, ?_⟩
  · intro hm
    obtain ⟨f, hf⟩ := List.exists_mem_of_ne_nil _ hpk
    have := hsimple.1 f hf
    rw [hm] at this
    simp at this
  · intro p hp
    obtain ⟨⟨b, hb⟩, _⟩ := g2 p hp
    exact h1.native_fields (p.1, b) hb
  · intro p hp
    obtain ⟨_, b, hb⟩ := g2 p hp
    exact h2.foreign_fields (b, p.2) hb

/-- The data object satisfies the key, in the sense of the code. -/
def HoldsEff (s : Schema) (db : DB V) (k : FK) : Prop :=
  ∀ p ∈ (db k.native).items, ¬ FailsEff s db k (recOf (tableOf s k.native) p.1 p.2)

theorem derived_holds {s : Schema} {db : DB V} {k1 k2 : FK} (hb : k2.native = k1.foreign)
    (h1 : HoldsEff s db k1) (h2 : HoldsEff s db k2) : HoldsEff s db (derivedFK k1 k2) := by
  intro p hp hf
  have g1 := h1 p hp
  apply g1
  intro q hq hag1
  rw [rows_eq_items] at hq
  obtain ⟨q0, hq0, rfl⟩ := List.mem_map.1 hq
  have g2 := h2 q0 (by rw [hb]; exact hq0)
  apply g2
  intro w hw hag2
  apply hf w hw
  rintro ⟨ff, nf⟩ hm
  obtain ⟨bf, hb1, hb2⟩ := mem_derived (foreignToNative_mem hm)
  have e1 := hag1 (bf, nf) hb2
  have e2 := hag2 (ff, bf) hb1
  rw [hb] at e2
  exact e1.trans e2

theorem findFK_clean_iff {s : Schema} (hs : SchemaOK s) {db : DB V} (hdb : DBOK s db) {fks : List FK}
    (hk : ∀ k ∈ fks, FKOK s k) (hn : fks.Nodup) :
    findFK s fks db none = some [] ↔ ∀ k ∈ fks, HoldsEff s db k := by
  obtain ⟨d, hd, inv⟩ := findFK_dictInv hs hdb hk hn none (by simp)
  simp only [takeLim] at inv
  rw [hd, Option.some.injEq, findFK_empty_iff inv]
  constructor
  · intro h k hkk p hp hf
    rw [← failB_iff hs hdb (hk k hkk) hp, h k hkk p hp] at hf
    simp at hf
  · intro h k hkk p hp
    cases hb : failB s db k p with
    | false => rfl
    | true => exact absurd ((failB_iff hs hdb (hk k hkk) hp).1 hb) (h k hkk p hp)

/-- The declared keys that C06 covers: every foreign table has a primary key. -/
def ImplOK (s : Schema) (fks : List FK) : Prop :=
  fks.Nodup ∧ ∀ k ∈ fks, FKOK s k ∧ s.pks k.foreign ≠ []

theorem implied_step_ok {s : Schema} {a b : List FK} (h : ImpliedStep s a b) (ha : ImplOK s a) : ImplOK s b := by
  obtain ⟨d, hd, rfl⟩ := h
  obtain ⟨⟨k1, h1, k2, h2, hb, rfl⟩, hn, hs⟩ := mem_impliedCandidates.1 hd
  refine ⟨List.nodup_cons.2 ⟨hn, ha.1⟩, ?_⟩
  intro k hk
  rcases List.mem_cons.1 hk with rfl | hk
  · exact ⟨derived_ok (ha.2 k1 h1).1 (ha.2 k2 h2).1 hb hs (ha.2 k2 h2).2, (ha.2 k2 h2).2⟩
  · exact ha.2 k hk

theorem implied_step_holds {s : Schema} {db : DB V} {a b : List FK} (h : ImpliedStep s a b) :
    (∀ k ∈ b, HoldsEff s db k) ↔ (∀ k ∈ a, HoldsEff s db k) := by
  obtain ⟨d, hd, rfl⟩ := h
  obtain ⟨⟨k1, h1, k2, h2, hb, rfl⟩, _, _⟩ := mem_impliedCandidates.1 hd
  constructor
  · intro h k hk; exact h k (List.mem_cons_of_mem _ hk)
  · intro h k hk
    rcases List.mem_cons.1 hk with rfl | hk
    · exact derived_holds hb (h k1 h1) (h k2 h2)
    · exact h k hk

/-- **C06 (partial).**  When every table referred to by a declared key has a primary key, `add_implied_foreign_keys` does
not change the verdict: whatever order the derived keys are found in, `find_foreign_key_failures` finds nothing with the
extended keys iff it finds nothing with the declared ones; the declared keys are kept.  Missing: tables with no primary
key, for which the statement is false, see `implied_fk_pkless_changes_verdict`. -/
theorem implied_fks_same_verdict_partial {s : Schema} (hs : SchemaOK s) {fks fks' : List FK} {n : Nat}
    (hok : ImplOK s fks) (hrun : ImpliedRun s n fks fks') {db : DB V} (hdb : DBOK s db) :
    (findFK s fks' db none = some [] ↔ findFK s fks db none = some []) ∧ (∀ k ∈ fks, k ∈ fks') ∧
      ∀ k ∈ fks', FKOK s k := by
  have : ImplOK s fks' ∧ ((∀ k ∈ fks', HoldsEff s db k) ↔ (∀ k ∈ fks, HoldsEff s db k)) ∧ ∀ k ∈ fks, k ∈ fks' := by
    induction hrun with
    | stop _ => exact ⟨hok, Iff.rfl, fun _ h => h⟩
    | step hst _ ih =>
      obtain ⟨i1, i2, i3⟩ := ih (implied_step_ok hst hok)
      refine ⟨i1, i2.trans (implied_step_holds hst), ?_⟩
      intro k hk
      apply i3
      obtain ⟨d, _, rfl⟩ := hst
      exact List.mem_cons_of_mem _ hk
  obtain ⟨h1, h2, h3⟩ := this
  refine ⟨?_, h3, fun k hk => (h1.2 k hk).1⟩
  rw [findFK_clean_iff hs hdb (fun k h => (h1.2 k h).1) h1.1, findFK_clean_iff hs hdb (fun k h => (hok.2 k h).1) hok.1]
  exact h2

/-! ### Termination of the loop -/

/-- All lists over `ps` of length at most `n`. -/
def listsUpTo {A : Type} (ps : List A) : Nat → List (List A)
  | 0 => [[]]
  | n + 1 => [] :: ps.flatMap (fun p => (listsUpTo ps n).map (p :: ·))

theorem mem_listsUpTo {A : Type} (ps : List A) (n : Nat) (l : List A) (hl : l.length ≤ n) (hm : ∀ a ∈ l, a ∈ ps) :
    l ∈ listsUpTo ps n := by
  induction n generalizing l with
  | zero => have : l = [] := List.length_eq_zero_iff.1 (by omega); simp [this, listsUpTo]
  | succ n ih =>
    cases l with
    | nil => simp [listsUpTo]
    | cons a l =>
      simp only [listsUpTo, List.mem_cons, reduceCtorEq, List.mem_flatMap, List.mem_map, false_or]
      exact ⟨a, hm a List.mem_cons_self, l, ih l (by simpa using hl) (fun b hb => hm b (List.mem_cons_of_mem _ hb)), rfl⟩

theorem nodup_length_le {A : Type} [DecidableEq A] (l u : List A) (hn : l.Nodup) (hs : ∀ a ∈ l, a ∈ u) :
    l.length ≤ u.length := by
  induction l generalizing u with
  | nil => simp
  | cons a l ih =>
    rw [List.nodup_cons] at hn
    have ha := hs a List.mem_cons_self
    have := ih (u.erase a) hn.2 (by
      intro b hb
      have hne : b ≠ a := fun e => hn.1 (e ▸ hb)
      rw [List.mem_erase_of_ne hne]
      exact hs b (List.mem_cons_of_mem _ hb))
    rw [List.length_erase_of_mem ha] at this
    have hpos : 0 < u.length := List.length_pos_of_mem ha
    simp only [List.length_cons]
    omega

/-- Every foreign key that fits the schema. -/
def allFKs (s : Schema) : List FK :=
  (PyDict.keys s).flatMap (fun n => (PyDict.keys s).flatMap (fun f =>
    (listsUpTo ((s.allFields n).flatMap (fun a => (s.allFields f).map (fun b => (a, b)))) (s.allFields n).length).map
      (fun m => ⟨n, f, m⟩)))

theorem mem_allFKs {s : Schema} {k : FK} (h : FKOK s k) : k ∈ allFKs s := by
  simp only [allFKs, List.mem_flatMap, List.mem_map]
  refine ⟨k.native, h.native_mem, k.foreign, h.foreign_mem, k.mapping, ?_, rfl⟩
  apply mem_listsUpTo
  · rw [← List.length_map (f := Prod.fst)]
    apply nodup_length_le _ _ h.native_nodup
    intro a ha
    obtain ⟨p, hp, rfl⟩ := List.mem_map.1 ha
    exact h.native_fields p hp
  · intro p hp
    simp only [List.mem_flatMap, List.mem_map]
    exact ⟨p.1, h.native_fields p hp, p.2, h.foreign_fields p hp, rfl⟩

theorem implOK_length {s : Schema} {fks : List FK} (h : ImplOK s fks) : fks.length ≤ (allFKs s).length := by
  exact nodup_length_le _ _ h.1 (fun k hk => mem_allFKs (h.2 k hk).1)

/-- The loop of `add_implied_foreign_keys` stops: with any iteration order there is a bound on the number of added
keys that depends on the schema only, and the loop with the model's own order returns. -/
theorem implied_fks_terminates {s : Schema} {fks : List FK} (hok : ImplOK s fks) :
    (∀ n fks', ImpliedRun s n fks fks' → n + fks.length ≤ (allFKs s).length) ∧
    ∀ fuel, (allFKs s).length < fuel → ∃ fks' n, addImplied s fuel fks = some fks' ∧ ImpliedRun s n fks fks' := by
  constructor
  · intro n fks' hrun
    induction hrun with
    | stop _ => rw [Nat.zero_add]; exact implOK_length hok
    | step hst _ ih =>
      have := ih (implied_step_ok hst hok)
      obtain ⟨d, _, rfl⟩ := hst
      simp only [List.length_cons] at this
      omega
  · have : ∀ (fuel : Nat) (fks : List FK), ImplOK s fks → (allFKs s).length < fuel + fks.length →
        ∃ fks' n, addImplied s fuel fks = some fks' ∧ ImpliedRun s n fks fks' := by
      intro fuel
      induction fuel with
      | zero => intro fks hok hlt; have := implOK_length hok; omega
      | succ fuel ih =>
        intro fks hok hlt
        rw [addImplied]
        cases hc : impliedCandidates s fks with
        | nil => exact ⟨fks, 0, rfl, .stop hc⟩
        | cons d ds =>
          have hst : ImpliedStep s fks (d :: fks) := ⟨d, by rw [hc]; exact List.mem_cons_self, rfl⟩
          obtain ⟨fks', n, h1, h2⟩ := ih (d :: fks) (implied_step_ok hst hok) (by simp only [List.length_cons]; omega)
          exact ⟨fks', n + 1, h1, .step hst h2⟩
    intro fuel hf
    exact this fuel fks hok (by omega)

/-- Non-vacuity: `log → quantities → foods` implies `log → foods`. -/
example : (addImplied dietSchema 5 (dietFKs)).map (fun l => l.map (fun k => (k.native, k.foreign, k.mapping))) =
    some [("log", "nutrients", [("nutrient", "name")]), ("log", "foods", [("food", "name")]),
      ("quantities", "foods", [("food", "name")]), ("quantities", "nutrients", [("nutrient", "name")]),
      ("log", "quantities", [("nutrient", "nutrient"), ("food", "food")])] := by decide

example : ImplOK dietSchema dietFKs :=
  ⟨by decide, fun k h => ⟨(dietFKs_ok k h).1, by
    simp only [dietFKs, List.mem_cons, List.not_mem_nil, or_false] at h
    rcases h with rfl | rfl | rfl <;> decide⟩⟩

/-- **Finding (C06).**  If a key refers to a table with no primary key, `add_implied_foreign_keys` can add a key with an
empty mapping, and then every native row fails: the verdict changes from clean to failing. -/
theorem implied_fk_pkless_changes_verdict :
    let s : Schema := [("a", ⟨["x"], []⟩), ("b", ⟨["x", "y"], []⟩), ("c", ⟨[], ["y"]⟩)]
    let fks : List FK := [⟨"a", "b", [("x", "x")]⟩, ⟨"b", "c", [("y", "y")]⟩]
    let db : DB Nat := fun t => if t = "a" then .dict [(.one 1, [])] else if t = "b" then .dict [(.many [1, 2], [])]
      else .list [[2]]
    (∀ k ∈ fks, FKOK s k ∧ ForeignDistinct k) ∧ findFK s fks db none = some [] ∧
      ((addImplied s 5 fks).bind (fun fks' => findFK s fks' db none)).map
          (fun d => d.map (fun p => (p.1, p.2.nativePks))) =
        some [(⟨"a", "c", []⟩, [PKey.one 1])] := by
  refine ⟨?_, by decide, by decide⟩
  intro k h
  simp only [List.mem_cons, List.not_mem_nil, or_false] at h
  rcases h with rfl | rfl <;>
    exact ⟨⟨by decide, by decide, by decide, by decide, by decide, by decide⟩, by unfold ForeignDistinct; decide⟩

/-! ### C40 -/

/-- In every good data object the values of `fields` single out a row of table `t`. -/
def Determines (V : Type) (s : Schema) (t : String) (fields : List String) : Prop :=
  ∀ db : DB V, DBOK s db → ∀ p ∈ rows (tableOf s t) (db t), ∀ q ∈ rows (tableOf s t) (db t),
    (∀ f ∈ fields, p.2 f = q.2 f) → p.1 = q.1

/-- The key with one value per primary key field. -/
def mkKey (vs : List V) : PKey V :=
  match vs with
  | [v] => .one v
  | vs => .many vs

theorem keyVals_mkKey (vs : List V) : keyVals (mkKey vs) = vs := by
  unfold mkKey
  split <;> rfl

theorem keyOK_mkKey (vs : List V) (n : Nat) (h : vs.length = n) (hn : n ≠ 0) : KeyOK n (mkKey vs) := by
  unfold mkKey
  split
  · show n = 1
    simpa using h.symm
  · rename_i hne
    refine ⟨h, ?_⟩
    match vs, h, hne with
    | [], h, _ => simp at h; omega
    | [v], _, hne => exact absurd rfl (hne v)
    | _ :: _ :: _, h, _ => simp at h; omega

/-- **C40.**  One half of the cardinality is "one" exactly when, in every good data object, the mapped fields single out
a row of the table.  (The values of a field can differ: `a ≠ b`.) -/
theorem cardinality_one_iff {s : Schema} (hs : SchemaOK s) {a b : V} (hab : a ≠ b) {t : String}
    (ht : t ∈ PyDict.keys s) (fields : List String) :
    halfCard s t fields = "one" ↔ Determines V s t fields := by
  unfold halfCard
  constructor
  · intro h
    have hc : s.pks t ≠ [] ∧ ∀ f ∈ s.pks t, f ∈ fields := by
      by_cases hc : s.pks t ≠ [] ∧ ∀ f ∈ s.pks t, f ∈ fields
      · exact hc
      · rw [if_neg hc] at h; exact absurd h (by decide)
    intro db hdb p hp q hq hag
    have hT := tableOK_of_mem hs hdb ht
    rw [rows_eq_items] at hp hq
    obtain ⟨p0, hp0, rfl⟩ := List.mem_map.1 hp
    obtain ⟨q0, hq0, rfl⟩ := List.mem_map.1 hq
    have rp := rowOK_of_items hT hp0
    have rq := rowOK_of_items hT hq0
    have hkv : keyVals p0.1 = keyVals q0.1 := by
      apply List.ext_getElem (by rw [rp.1, rq.1])
      intro i h1 h2
      have hi : i < (tableOf s t).pks.length := by rw [← rp.1]; exact h1
      have hf := hag _ (hc.2 _ (List.getElem_mem hi : (tableOf s t).pks[i] ∈ (tableOf s t).pks))
      simp only at hf
      rw [recOf_pk rp (List.getElem_mem hi), recOf_pk rq (List.getElem_mem hi)] at hf
      have hnd : (tableOf s t).pks.Nodup := (List.nodup_append.1 (hs.fields_nodup t)).1
      rw [hnd.idxOf_getElem, List.getElem?_eq_getElem h1, List.getElem?_eq_getElem h2] at hf
      exact Option.some.inj hf
    have hne : (tableOf s t).pks.length ≠ 0 := fun h => hc.1 (List.length_eq_zero_iff.1 h)
    simp only
    rcases Nat.lt_or_ge 1 (tableOf s t).pks.length with h1 | h1
    · obtain ⟨u, hu⟩ := rp.2.2.2.1 h1
      obtain ⟨w, hw⟩ := rq.2.2.2.1 h1
      rw [hu, hw] at hkv ⊢
      exact congrArg PKey.many hkv
    · obtain ⟨u, hu⟩ := rp.2.2.1 (by omega)
      obtain ⟨w, hw⟩ := rq.2.2.1 (by omega)
      rw [hu, hw] at hkv ⊢
      simp only [keyVals, List.cons.injEq, and_true] at hkv
      rw [hkv]
  · intro hdet
    split
    · rfl
    · rename_i hc
      exfalso
      -- a good data object with two rows of `t` that agree on `fields`
      let td : TableData V := if s.pks t = [] then
          .list [(s.dfs t).map (fun _ => a), (s.dfs t).map (fun _ => a)]
        else .dict [(mkKey ((s.pks t).map (fun _ => a)), (s.dfs t).map (fun _ => a)),
          (mkKey ((s.pks t).map (fun f => if f ∈ fields then a else b)), (s.dfs t).map (fun _ => a))]
      let db : DB V := fun t' => if t' = t then td else if s.pks t' = [] then .list [] else .dict []
      have hpne : s.pks t ≠ [] → (s.pks t).map (fun _ => a) ≠
          (s.pks t).map (fun f => if f ∈ fields then a else b) := by
        intro h0 he
        apply hc
        refine ⟨h0, ?_⟩
        intro f hf
        apply Classical.byContradiction
        intro hnf
        have := (List.map_inj_left.1 he) f hf
        simp only [hnf, if_false] at this
        exact hab this
      have hkne : s.pks t ≠ [] → mkKey ((s.pks t).map (fun _ => a)) ≠
          mkKey ((s.pks t).map (fun f => if f ∈ fields then a else b)) := by
        intro h0 he
        apply hpne h0
        rw [← keyVals_mkKey ((s.pks t).map (fun _ => a)), he, keyVals_mkKey]
      have hTd : TableOK (tableOf s t) td := by
        by_cases h0 : s.pks t = []
        · simp only [td, h0, if_true, TableOK, tableOf]
          simp [h0]
        · have hl : (s.pks t).length ≠ 0 := fun h => h0 (List.length_eq_zero_iff.1 h)
          simp only [td, h0, if_false, TableOK, tableOf]
          refine ⟨h0, ?_, ?_⟩
          · simp [hkne h0]
          · intro p hp
            simp only [List.mem_cons, List.not_mem_nil, or_false] at hp
            rcases hp with rfl | rfl <;> exact ⟨keyOK_mkKey _ _ (by simp) hl, by simp⟩
      have hdb : DBOK s db := by
        intro t' ts hm
        have hg := PyDict.get?_of_mem hs.tables_nodup hm
        have hts : tableOf s t' = ts := by simp [tableOf, Schema.pks, Schema.dfs, hg]
        by_cases h : t' = t
        · subst h
          simp only [db, if_true]
          rw [← hts]; exact hTd
        · simp only [db, h, if_false]
          have hpk : s.pks t' = ts.pks := by rw [← hts]; rfl
          by_cases h0 : s.pks t' = []
          · simp only [h0, if_true, TableOK]
            exact ⟨by rw [← hpk]; exact h0, by simp⟩
          · simp only [h0, if_false, TableOK]
            exact ⟨by rw [← hpk]; exact h0, by simp, by simp⟩
      have hrow := hdet db hdb
      simp only [db, if_true] at hrow
      by_cases h0 : s.pks t = []
      · simp only [td, h0, if_true, rows] at hrow
        have := hrow _ (List.mem_map.2 ⟨(_, 0), by simp [List.zipIdx], rfl⟩) _
          (List.mem_map.2 ⟨((s.dfs t).map (fun _ => a), 1), by simp [List.zipIdx], rfl⟩) (fun f _ => rfl)
        simp at this
      · simp only [td, h0, if_false, rows, List.map_cons, List.map_nil] at hrow
        apply hkne h0
        have := hrow _ List.mem_cons_self _ (List.mem_cons_of_mem _ List.mem_cons_self)
        apply this
        intro f hf
        have r1 : RowOK (tableOf s t) (mkKey ((s.pks t).map (fun _ => a))) ((s.dfs t).map (fun _ => a)) := by
          have := rowOK_of_items hTd (pk := mkKey ((s.pks t).map (fun _ => a))) (row := (s.dfs t).map (fun _ => a))
          apply this
          simp [td, h0, TableData.items]
        have r2 : RowOK (tableOf s t) (mkKey ((s.pks t).map (fun f => if f ∈ fields then a else b)))
            ((s.dfs t).map (fun _ => a)) := by
          apply rowOK_of_items hTd
          simp [td, h0, TableData.items]
        simp only
        by_cases hp : f ∈ (tableOf s t).pks
        · rw [recOf_pk r1 hp, recOf_pk r2 hp, keyVals_mkKey, keyVals_mkKey]
          have hlt : (tableOf s t).pks.idxOf f < (s.pks t).length := List.idxOf_lt_length_iff.2 hp
          have hget : (s.pks t)[(tableOf s t).pks.idxOf f]'hlt = f := List.getElem_idxOf hlt
          simp [List.getElem?_eq_getElem hlt, hget, hf]
        · by_cases hd : f ∈ (tableOf s t).dfs
          · rw [recOf_df r1 hp hd, recOf_df r2 hp hd]
          · simp only [recOf, keyVals_mkKey, tableOf] at hp hd ⊢
            rw [List.lookup_eq_none_iff.2, List.lookup_eq_none_iff.2]
            · intro p hpm
              rcases List.mem_append.1 hpm with h | h
              · have := (List.of_mem_zip (a := p.1) (b := p.2) h).1
                simp only [beq_eq_false_iff_ne, ne_eq, beq_iff_eq, bne_iff_ne]; intro e; rw [← e] at this; exact hp this
              · have := (List.of_mem_zip (a := p.1) (b := p.2) h).1
                simp only [beq_eq_false_iff_ne, ne_eq, beq_iff_eq, bne_iff_ne]; intro e; rw [← e] at this; exact hd this
            · intro p hpm
              rcases List.mem_append.1 hpm with h | h
              · have := (List.of_mem_zip (a := p.1) (b := p.2) h).1
                simp only [beq_eq_false_iff_ne, ne_eq, beq_iff_eq, bne_iff_ne]; intro e; rw [← e] at this; exact hp this
              · have := (List.of_mem_zip (a := p.1) (b := p.2) h).1
                simp only [beq_eq_false_iff_ne, ne_eq, beq_iff_eq, bne_iff_ne]; intro e; rw [← e] at this; exact hd this

example : dietFKs.map (cardinality dietSchema) = ["many-to-one", "many-to-one", "many-to-one"] ∧
    cardinality dietSchema ⟨"foods", "quantities", [("name", "food")]⟩ = "one-to-many" := by decide

end Ticdat

import Verif.Spec.Objects
/-!
# C83: `deep_copy`, `deep_freeze`, and what a factory shows of itself
-/
set_option linter.unusedSimpArgs false
set_option linter.unusedSectionVars false
namespace Ticdat
open Spec

/-! ### Changes elsewhere -/

mutual
theorem changed_other (i : Nat) (new : PyVal) : ∀ x : PyVal, i ∉ ids x → changed i new x = x
  | .atom _, _ => rfl
  | .func _, _ => rfl
  | .factory j c, h => by
    simp only [ids, List.mem_cons, List.not_mem_nil, or_false] at h
    simp only [changed]
    rw [if_neg (fun e => h e.symm)]
  | .tuple xs, h => by
    simp only [changed]
    rw [changedAll_other i new xs h]
  | .frozenset xs, h => by
    simp only [changed]
    rw [changedAll_other i new xs h]
  | .list j xs, h => by
    simp only [ids, List.mem_cons, not_or] at h
    simp only [changed]
    rw [if_neg (fun e => h.1 e.symm), changedAll_other i new xs h.2]
  | .set j xs, h => by
    simp only [ids, List.mem_cons, not_or] at h
    simp only [changed]
    rw [if_neg (fun e => h.1 e.symm), changedAll_other i new xs h.2]
  | .dict j fr kvs, h => by
    simp only [ids, List.mem_cons, not_or] at h
    simp only [changed]
    rw [if_neg (fun e => h.1 e.symm), changedPairs_other i new kvs h.2]
theorem changedAll_other (i : Nat) (new : PyVal) : ∀ x : PyVals, i ∉ idsAll x → changedAll i new x = x
  | .nil, _ => rfl
  | .cons x xs, h => by
    simp only [idsAll, List.mem_append, not_or] at h
    simp only [changedAll]
    rw [changed_other i new x h.1, changedAll_other i new xs h.2]
theorem changedPairs_other (i : Nat) (new : PyVal) : ∀ x : PyPairs, i ∉ idsPairs x → changedPairs i new x = x
  | .nil, _ => rfl
  | .cons k v kvs, h => by
    simp only [idsPairs, List.mem_append, not_or] at h
    simp only [changedPairs]
    rw [changed_other i new k h.1, changed_other i new v h.2.1, changedPairs_other i new kvs h.2.2]
end

theorem separate_of {x y : PyVal} (h : ∀ i ∈ ids x, i ∉ ids y) : Separate x y :=
  ⟨fun i hi new => changed_other i new y (h i hi), fun i hi new => changed_other i new x (fun hx => h i hx hi)⟩

/-! ### `deep_freeze` -/

mutual
theorem freeze_content : ∀ (x : PyVal) (n : Nat), SameContent true x (deepFreeze x n).1
  | .atom c, n => .atom c
  | .func i, n => .func i
  | .factory i c, n => .factory i i c
  | .tuple xs, n => .tuple (freeze_contents xs n)
  | .list i xs, n => .listTuple i rfl (freeze_contents xs n)
  | .frozenset xs, n => .frozenset (freeze_contents xs n)
  | .set i xs, n => .setFrozen i rfl (freeze_contents xs n)
  | .dict i fr kvs, n => .dict i _ fr true (freeze_entries kvs n)
theorem freeze_contents : ∀ (x : PyVals) (n : Nat), SameContents true x (deepFreezeAll x n).1
  | .nil, n => .nil
  | .cons x xs, n => .cons (freeze_content x n) (freeze_contents xs _)
theorem freeze_entries : ∀ (x : PyPairs) (n : Nat), SameEntries true x (deepFreezePairs x n).1
  | .nil, n => .nil
  | .cons k v kvs, n => .cons (freeze_content k n) (freeze_content v _) (freeze_entries kvs _)
end

mutual
theorem freeze_frozen : ∀ (x : PyVal) (n : Nat), AllParts NotMutable (deepFreeze x n).1
  | .atom c, n => trivial
  | .func i, n => trivial
  | .factory i c, n => trivial
  | .tuple xs, n => ⟨trivial, freeze_frozens xs n⟩
  | .list i xs, n => ⟨trivial, freeze_frozens xs n⟩
  | .frozenset xs, n => ⟨trivial, freeze_frozens xs n⟩
  | .set i xs, n => ⟨trivial, freeze_frozens xs n⟩
  | .dict i fr kvs, n => ⟨rfl, freeze_frozenPairs kvs n⟩
theorem freeze_frozens : ∀ (x : PyVals) (n : Nat), AllPartsAll NotMutable (deepFreezeAll x n).1
  | .nil, n => trivial
  | .cons x xs, n => ⟨freeze_frozen x n, freeze_frozens xs _⟩
theorem freeze_frozenPairs : ∀ (x : PyPairs) (n : Nat), AllPartsPairs NotMutable (deepFreezePairs x n).1
  | .nil, n => trivial
  | .cons k v kvs, n => ⟨freeze_frozen k n, freeze_frozen v _, freeze_frozenPairs kvs _⟩
end

mutual
theorem freeze_ids : ∀ (x : PyVal) (n : Nat), AllParts NotFactory x →
    n ≤ (deepFreeze x n).2 ∧ ∀ i ∈ ids (deepFreeze x n).1, n ≤ i ∧ i < (deepFreeze x n).2
  | .atom c, n, _ => ⟨Nat.le_refl _, fun i h => absurd h List.not_mem_nil⟩
  | .func i, n, _ => ⟨Nat.le_refl _, fun i h => absurd h List.not_mem_nil⟩
  | .factory i c, n, h => h.elim
  | .tuple xs, n, h => freeze_idsAll xs n h.2
  | .list i xs, n, h => freeze_idsAll xs n h.2
  | .frozenset xs, n, h => freeze_idsAll xs n h.2
  | .set i xs, n, h => freeze_idsAll xs n h.2
  | .dict i fr kvs, n, h => by
    obtain ⟨h1, h2⟩ := freeze_idsPairs kvs n h.2
    simp only [deepFreeze, ids]
    refine ⟨by omega, fun j hj => ?_⟩
    rcases List.mem_cons.1 hj with rfl | hj
    · omega
    · have := h2 j hj
      omega
theorem freeze_idsAll : ∀ (x : PyVals) (n : Nat), AllPartsAll NotFactory x →
    n ≤ (deepFreezeAll x n).2 ∧ ∀ i ∈ idsAll (deepFreezeAll x n).1, n ≤ i ∧ i < (deepFreezeAll x n).2
  | .nil, n, _ => ⟨Nat.le_refl _, fun i h => absurd h List.not_mem_nil⟩
  | .cons x xs, n, h => by
    obtain ⟨h1, h2⟩ := freeze_ids x n h.1
    obtain ⟨h3, h4⟩ := freeze_idsAll xs (deepFreeze x n).2 h.2
    simp only [deepFreezeAll, idsAll, List.mem_append]
    refine ⟨by omega, fun j hj => ?_⟩
    rcases hj with hj | hj
    · have := h2 j hj
      omega
    · have := h4 j hj
      omega
theorem freeze_idsPairs : ∀ (x : PyPairs) (n : Nat), AllPartsPairs NotFactory x →
    n ≤ (deepFreezePairs x n).2 ∧ ∀ i ∈ idsPairs (deepFreezePairs x n).1, n ≤ i ∧ i < (deepFreezePairs x n).2
  | .nil, n, _ => ⟨Nat.le_refl _, fun i h => absurd h List.not_mem_nil⟩
  | .cons k v kvs, n, h => by
    obtain ⟨h1, h2⟩ := freeze_ids k n h.1
    obtain ⟨h3, h4⟩ := freeze_ids v (deepFreeze k n).2 h.2.1
    obtain ⟨h5, h6⟩ := freeze_idsPairs kvs (deepFreeze v (deepFreeze k n).2).2 h.2.2
    simp only [deepFreezePairs, idsPairs, List.mem_append]
    refine ⟨by omega, fun j hj => ?_⟩
    rcases hj with hj | hj | hj
    · have := h2 j hj
      omega
    · have := h4 j hj
      omega
    · have := h6 j hj
      omega
end

/-- **C83, `deep_freeze`.**  The result has the contents of the object, with tuples for lists and frozensets for sets, and no part of
it is a list, a set or an ordinary dictionary.  If no factory is in it, changes to the one object do not show in the other. -/
theorem deep_freeze_spec (x : PyVal) (n : Nat) (hn : ∀ i ∈ ids x, i < n) :
    SameContent true x (deepFreeze x n).1 ∧ AllParts NotMutable (deepFreeze x n).1 ∧
      (AllParts NotFactory x → Separate x (deepFreeze x n).1) := by
  refine ⟨freeze_content x n, freeze_frozen x n, fun hf => separate_of (fun i hi hj => ?_)⟩
  have h1 := hn i hi
  have h2 := (freeze_ids x n hf).2 i hj
  omega

/-! ### `deep_copy` -/

/-- What a copy is. -/
def CopyFrom (n : Nat) (x : PyVal) (r : PyVal × Nat) : Prop :=
  SameContent false x r.1 ∧ AllParts NotFrozenDict r.1 ∧ n ≤ r.2 ∧ ∀ i ∈ ids r.1, n ≤ i ∧ i < r.2

def CopyFromAll (n : Nat) (x : PyVals) (r : PyVals × Nat) : Prop :=
  SameContents false x r.1 ∧ AllPartsAll NotFrozenDict r.1 ∧ n ≤ r.2 ∧ ∀ i ∈ idsAll r.1, n ≤ i ∧ i < r.2

def CopyFromPairs (n : Nat) (x : PyPairs) (r : PyPairs × Nat) : Prop :=
  SameEntries false x r.1 ∧ AllPartsPairs NotFrozenDict r.1 ∧ n ≤ r.2 ∧ ∀ i ∈ idsPairs r.1, n ≤ i ∧ i < r.2

theorem atom_copy (c : Cell) (n : Nat) : CopyFrom n (.atom c) (.atom c, n) :=
  ⟨.atom c, trivial, Nat.le_refl _, fun _ h => absurd h List.not_mem_nil⟩

theorem new_id {n m : Nat} {l : List Nat} (hm : n ≤ m) (h : ∀ i ∈ l, n ≤ i ∧ i < m) :
    n ≤ m + 1 ∧ ∀ i ∈ m :: l, n ≤ i ∧ i < m + 1 := by
  refine ⟨by omega, fun i hi => ?_⟩
  rcases List.mem_cons.1 hi with rfl | hi
  · omega
  · have := h i hi
    omega

mutual
theorem copy_from : ∀ (x : PyVal) (n : Nat) (r : PyVal × Nat), deepCopy x n = some r → CopyFrom n x r
  | .atom c, n, r, h => by
    cases c with
    | dt d => simp [deepCopy] at h
    | other k => simp [deepCopy] at h
    | none => simp only [deepCopy, Option.some.injEq] at h; subst h; exact atom_copy _ _
    | nan => simp only [deepCopy, Option.some.injEq] at h; subst h; exact atom_copy _ _
    | num q => simp only [deepCopy, Option.some.injEq] at h; subst h; exact atom_copy _ _
    | bool b => simp only [deepCopy, Option.some.injEq] at h; subst h; exact atom_copy _ _
    | str s => simp only [deepCopy, Option.some.injEq] at h; subst h; exact atom_copy _ _
  | .func i, n, r, h => by
    simp only [deepCopy, Option.some.injEq] at h
    subst h
    exact ⟨.func i, trivial, Nat.le_refl _, fun _ h => absurd h List.not_mem_nil⟩
  | .factory i c, n, r, h => by
    simp only [deepCopy, Option.some.injEq] at h
    subst h
    exact ⟨.factory i n c, trivial, new_id (Nat.le_refl _) (fun _ h => absurd h List.not_mem_nil)⟩
  | .tuple xs, n, r, h => by
    simp only [deepCopy, Option.map_eq_some_iff] at h
    obtain ⟨a, h, rfl⟩ := h
    obtain ⟨h1, h2, h3, h4⟩ := copy_fromAll xs n a h
    exact ⟨.tuple h1, ⟨trivial, h2⟩, h3, h4⟩
  | .frozenset xs, n, r, h => by
    simp only [deepCopy, Option.map_eq_some_iff] at h
    obtain ⟨a, h, rfl⟩ := h
    obtain ⟨h1, h2, h3, h4⟩ := copy_fromAll xs n a h
    exact ⟨.frozenset h1, ⟨trivial, h2⟩, h3, h4⟩
  | .set i xs, n, r, h => by
    simp only [deepCopy, Option.map_eq_some_iff] at h
    obtain ⟨a, h, rfl⟩ := h
    obtain ⟨h1, h2, h3, h4⟩ := copy_fromAll xs n a h
    exact ⟨.set i _ rfl h1, ⟨trivial, h2⟩, new_id h3 h4⟩
  | .list i xs, n, r, h => by
    simp only [deepCopy, Option.map_eq_some_iff] at h
    obtain ⟨a, h, rfl⟩ := h
    obtain ⟨h1, h2, h3, h4⟩ := copy_fromAll xs n a h
    exact ⟨.list i _ rfl h1, ⟨trivial, h2⟩, new_id h3 h4⟩
  | .dict i fr kvs, n, r, h => by
    simp only [deepCopy, Option.map_eq_some_iff] at h
    obtain ⟨a, h, rfl⟩ := h
    obtain ⟨h1, h2, h3, h4⟩ := copy_fromPairs kvs n a h
    exact ⟨.dict i _ fr false h1, ⟨rfl, h2⟩, new_id h3 h4⟩
theorem copy_fromAll : ∀ (x : PyVals) (n : Nat) (r : PyVals × Nat), deepCopyAll x n = some r → CopyFromAll n x r
  | .nil, n, r, h => by
    simp only [deepCopyAll, Option.some.injEq] at h
    subst h
    exact ⟨.nil, trivial, Nat.le_refl _, fun _ h => absurd h List.not_mem_nil⟩
  | .cons x xs, n, r, h => by
    simp only [deepCopyAll, Option.bind_eq_some_iff, Option.map_eq_some_iff] at h
    obtain ⟨a, ha, b, hb, rfl⟩ := h
    obtain ⟨h1, h2, h3, h4⟩ := copy_from x n a ha
    obtain ⟨g1, g2, g3, g4⟩ := copy_fromAll xs a.2 b hb
    refine ⟨.cons h1 g1, ⟨h2, g2⟩, by simp only; omega, fun i hi => ?_⟩
    simp only [idsAll, List.mem_append] at hi
    rcases hi with hi | hi
    · have := h4 i hi
      simp only
      omega
    · have := g4 i hi
      simp only
      omega
theorem copy_fromPairs : ∀ (x : PyPairs) (n : Nat) (r : PyPairs × Nat), deepCopyPairs x n = some r → CopyFromPairs n x r
  | .nil, n, r, h => by
    simp only [deepCopyPairs, Option.some.injEq] at h
    subst h
    exact ⟨.nil, trivial, Nat.le_refl _, fun _ h => absurd h List.not_mem_nil⟩
  | .cons k v kvs, n, r, h => by
    simp only [deepCopyPairs, Option.bind_eq_some_iff, Option.map_eq_some_iff] at h
    obtain ⟨a, ha, b, hb, c, hc, rfl⟩ := h
    obtain ⟨h1, h2, h3, h4⟩ := copy_from k n a ha
    obtain ⟨g1, g2, g3, g4⟩ := copy_from v a.2 b hb
    obtain ⟨k1, k2, k3, k4⟩ := copy_fromPairs kvs b.2 c hc
    refine ⟨.cons h1 g1 k1, ⟨h2, g2, k2⟩, by simp only; omega, fun i hi => ?_⟩
    simp only [idsPairs, List.mem_append] at hi
    rcases hi with hi | hi | hi
    · have := h4 i hi
      simp only
      omega
    · have := g4 i hi
      simp only
      omega
    · have := k4 i hi
      simp only
      omega
end

theorem map_returns {A B : Type} (o : Option A) (g : A → B) : (∃ r, o.map g = some r) ↔ ∃ r, o = some r := by
  cases o <;> simp

mutual
theorem copy_some_iff : ∀ (x : PyVal) (n : Nat), (∃ r, deepCopy x n = some r) ↔ AllParts Known x
  | .atom c, n => by cases c <;> simp [deepCopy, AllParts, Known]
  | .func i, n => by simp [deepCopy, AllParts, Known]
  | .factory i c, n => by simp [deepCopy, AllParts, Known]
  | .tuple xs, n => by simp only [deepCopy, AllParts, Known, true_and, map_returns, copyAll_some_iff xs n]
  | .frozenset xs, n => by simp only [deepCopy, AllParts, Known, true_and, map_returns, copyAll_some_iff xs n]
  | .set i xs, n => by simp only [deepCopy, AllParts, Known, true_and, map_returns, copyAll_some_iff xs n]
  | .list i xs, n => by simp only [deepCopy, AllParts, Known, true_and, map_returns, copyAll_some_iff xs n]
  | .dict i fr kvs, n => by simp only [deepCopy, AllParts, Known, true_and, map_returns, copyPairs_some_iff kvs n]
theorem copyAll_some_iff : ∀ (x : PyVals) (n : Nat), (∃ r, deepCopyAll x n = some r) ↔ AllPartsAll Known x
  | .nil, n => by simp [deepCopyAll, AllPartsAll]
  | .cons x xs, n => by
    simp only [deepCopyAll, AllPartsAll, Option.bind_eq_some_iff, Option.map_eq_some_iff]
    constructor
    · rintro ⟨_, a, ha, b, hb, _⟩
      exact ⟨(copy_some_iff x n).1 ⟨a, ha⟩, (copyAll_some_iff xs a.2).1 ⟨b, hb⟩⟩
    · rintro ⟨h1, h2⟩
      obtain ⟨a, ha⟩ := (copy_some_iff x n).2 h1
      obtain ⟨b, hb⟩ := (copyAll_some_iff xs a.2).2 h2
      exact ⟨_, a, ha, b, hb, rfl⟩
theorem copyPairs_some_iff : ∀ (x : PyPairs) (n : Nat), (∃ r, deepCopyPairs x n = some r) ↔ AllPartsPairs Known x
  | .nil, n => by simp [deepCopyPairs, AllPartsPairs]
  | .cons k v kvs, n => by
    simp only [deepCopyPairs, AllPartsPairs, Option.bind_eq_some_iff, Option.map_eq_some_iff]
    constructor
    · rintro ⟨_, a, ha, b, hb, c, hc, _⟩
      exact ⟨(copy_some_iff k n).1 ⟨a, ha⟩, (copy_some_iff v a.2).1 ⟨b, hb⟩, (copyPairs_some_iff kvs b.2).1 ⟨c, hc⟩⟩
    · rintro ⟨h1, h2, h3⟩
      obtain ⟨a, ha⟩ := (copy_some_iff k n).2 h1
      obtain ⟨b, hb⟩ := (copy_some_iff v a.2).2 h2
      obtain ⟨c, hc⟩ := (copyPairs_some_iff kvs b.2).2 h3
      exact ⟨_, a, ha, b, hb, c, hc, rfl⟩
end

/-- **C83, `deep_copy`.**  It raises exactly for objects with a datetime or an object of an unknown class in them.  Otherwise the copy
has the same contents in containers of the same classes, except that it has no `FrozenDict`, and changes to the one object do not show
in the other. -/
theorem deep_copy_spec (x : PyVal) (n : Nat) (hn : ∀ i ∈ ids x, i < n) :
    ((∃ r, deepCopy x n = some r) ↔ AllParts Known x) ∧
    ∀ y m, deepCopy x n = some (y, m) → SameContent false x y ∧ AllParts NotFrozenDict y ∧ Separate x y := by
  refine ⟨copy_some_iff x n, fun y m h => ?_⟩
  obtain ⟨h1, h2, _, h4⟩ := copy_from x n _ h
  refine ⟨h1, h2, separate_of (fun i hi hj => ?_)⟩
  have g1 := hn i hi
  have g2 := (h4 i hj).1
  omega

/-- A dictionary as `schema(include_ancillary_info=True)` has it. -/
def schemaObject : PyVal :=
  .dict 0 false (.cons (.atom (.str "default_values")) (.dict 1 true (.cons (.atom (.str "t")) (.dict 2 true
    (.cons (.atom (.str "f")) (.atom (.num (.fin 7))) .nil)) .nil))
    (.cons (.atom (.str "tables_fields")) (.dict 3 false (.cons (.atom (.str "t")) (.list 4 (.cons (.list 5 .nil)
      (.cons (.list 6 (.cons (.atom (.str "f")) .nil)) .nil))) .nil)) .nil))

example : (∀ i ∈ ids schemaObject, i < 7) ∧ AllParts Known schemaObject ∧ AllParts NotFactory schemaObject := by
  simp [schemaObject, ids, idsAll, idsPairs, AllParts, AllPartsAll, AllPartsPairs, Known, NotFactory]

/-- **Finding.**  `deep_copy` raises on a dictionary with a datetime. -/
theorem deep_copy_datetime (d n : Nat) : deepCopy (.dict 0 false (.cons (.atom (.str "when")) (.atom (.dt d)) .nil)) n = none := rfl

/-- **Finding.**  A list that occurs twice in an object is two lists in its `deep_copy`: a change to the one shows in the other place of
the original, but not of the copy. -/
theorem deep_copy_splits :
    deepCopy (.tuple (.cons (.list 0 .nil) (.cons (.list 0 .nil) .nil))) 1 =
      some (.tuple (.cons (.list 1 .nil) (.cons (.list 2 .nil) .nil)), 3) := rfl

/-- **Finding.**  A factory in a frozen object is the factory itself. -/
theorem deep_freeze_factory (i c n : Nat) : (deepFreeze (.tuple (.cons (.factory i c) .nil)) n).1 = .tuple (.cons (.factory i c) .nil) := rfl

/-! ### What a factory shows of itself -/

mutual
theorem content_refl : ∀ x : PyVal, SameContent false x x
  | .atom c => .atom c
  | .func i => .func i
  | .factory i c => .factory i i c
  | .tuple xs => .tuple (contents_refl xs)
  | .frozenset xs => .frozenset (contents_refl xs)
  | .list i xs => .list i i rfl (contents_refl xs)
  | .set i xs => .set i i rfl (contents_refl xs)
  | .dict i fr kvs => .dict i i fr fr (entries_refl kvs)
theorem contents_refl : ∀ x : PyVals, SameContents false x x
  | .nil => .nil
  | .cons x xs => .cons (content_refl x) (contents_refl xs)
theorem entries_refl : ∀ x : PyPairs, SameEntries false x x
  | .nil => .nil
  | .cons k v kvs => .cons (content_refl k) (content_refl v) (entries_refl kvs)
end

theorem innerDicts_entries : ∀ (x : PyPairs) (n : Nat), SameEntries false x (innerDicts x n)
  | .nil, n => .nil
  | .cons k (.dict i fr kvs) rest, n => .cons (content_refl k) (.dict i n fr true (entries_refl kvs)) (innerDicts_entries rest (n + 1))
  | .cons k (.atom c) rest, n => .cons (content_refl k) (content_refl _) (innerDicts_entries rest n)
  | .cons k (.func i) rest, n => .cons (content_refl k) (content_refl _) (innerDicts_entries rest n)
  | .cons k (.factory i c) rest, n => .cons (content_refl k) (content_refl _) (innerDicts_entries rest n)
  | .cons k (.tuple xs) rest, n => .cons (content_refl k) (content_refl _) (innerDicts_entries rest n)
  | .cons k (.frozenset xs) rest, n => .cons (content_refl k) (content_refl _) (innerDicts_entries rest n)
  | .cons k (.list i xs) rest, n => .cons (content_refl k) (content_refl _) (innerDicts_entries rest n)
  | .cons k (.set i xs) rest, n => .cons (content_refl k) (content_refl _) (innerDicts_entries rest n)

theorem innerDicts_ids : ∀ (x : PyPairs) (n : Nat), DictsOfFixed x → ∀ i ∈ idsPairs (innerDicts x n), n ≤ i
  | .nil, n, _, i, hi => absurd hi List.not_mem_nil
  | .cons k (.dict j fr kvs) rest, n, h, i, hi => by
    obtain ⟨h1, h2, h3⟩ := h
    simp only [innerDicts, idsPairs, ids, h1, h2, List.nil_append, List.cons_append, List.mem_cons, List.append_nil] at hi
    rcases hi with rfl | hi
    · exact Nat.le_refl _
    · have := innerDicts_ids rest (n + 1) h3 i hi
      omega
  | .cons k (.atom c) rest, n, h, i, hi => h.elim
  | .cons k (.func j) rest, n, h, i, hi => h.elim
  | .cons k (.factory j c) rest, n, h, i, hi => h.elim
  | .cons k (.tuple xs) rest, n, h, i, hi => h.elim
  | .cons k (.frozenset xs) rest, n, h, i, hi => h.elim
  | .cons k (.list j xs) rest, n, h, i, hi => h.elim
  | .cons k (.set j xs) rest, n, h, i, hi => h.elim

theorem innerDicts_frozen : ∀ (x : PyPairs) (n : Nat), DictsOfFrozen x → AllPartsPairs NotMutable (innerDicts x n)
  | .nil, n, _ => trivial
  | .cons k (.dict j fr kvs) rest, n, h => ⟨h.1, ⟨rfl, h.2.1⟩, innerDicts_frozen rest (n + 1) h.2.2⟩
  | .cons k (.atom c) rest, n, h => h.elim
  | .cons k (.func j) rest, n, h => h.elim
  | .cons k (.factory j c) rest, n, h => h.elim
  | .cons k (.tuple xs) rest, n, h => h.elim
  | .cons k (.frozenset xs) rest, n, h => h.elim
  | .cons k (.list j xs) rest, n, h => h.elim
  | .cons k (.set j xs) rest, n, h => h.elim

theorem entry_fixed {t : String} {i : Nat} {fr : Bool} {kvs : PyPairs} : ∀ (x : PyPairs), DictsOfFixed x →
    PyPairs.entry t x = some (.dict i fr kvs) → idsPairs kvs = []
  | .nil, _, he => by simp [PyPairs.entry] at he
  | .cons k v rest, h, he => by
    have hv : ∃ j fr' kvs', v = .dict j fr' kvs' := by
      cases v with
      | dict j fr' kvs' => exact ⟨_, _, _, rfl⟩
      | _ => exact h.elim
    obtain ⟨j, fr', kvs', rfl⟩ := hv
    have hrest := entry_fixed rest h.2.2 (t := t) (i := i) (fr := fr) (kvs := kvs)
    cases k with
    | atom c =>
      cases c with
      | str s =>
        simp only [PyPairs.entry] at he
        split at he
        · cases he
          exact h.2.1
        · exact hrest he
      | _ => exact hrest he
    | _ => exact hrest he

theorem entry_iff {t : String} {v : PyVal} : ∀ (x : PyPairs), PyPairs.entry t x = some v ↔ Maps t v x
  | .nil => ⟨fun h => by simp [PyPairs.entry] at h, fun h => nomatch h⟩
  | .cons k w rest => by
    have ih := entry_iff rest (t := t) (v := v)
    have other : k ≠ .atom (.str t) → (PyPairs.entry t rest = some v ↔ Maps t v (.cons k w rest)) := by
      intro hk
      refine ih.trans ⟨fun h => .there hk h, fun h => ?_⟩
      cases h with
      | here => exact absurd rfl hk
      | there _ h => exact h
    cases k with
    | atom c =>
      cases c with
      | str s =>
        simp only [PyPairs.entry]
        by_cases hs : s = t
        · subst hs
          rw [if_pos rfl]
          refine ⟨fun h => ?_, fun h => ?_⟩
          · cases h
            exact .here rest
          · cases h with
            | here => rfl
            | there hk _ => exact absurd rfl hk
        · rw [if_neg hs]
          exact other (by simpa using hs)
      | _ => exact other (by simp)
    | _ => exact other (by simp)

/-- A dictionary with a new identity whose entries cannot change is separate from everything older. -/
theorem shallow_separate {x : PyVal} {n : Nat} (hn : ∀ i ∈ ids x, i < n) {fr : Bool} {kvs : PyPairs} (h : ∀ i ∈ idsPairs kvs, n ≤ i) :
    Separate x (.dict n fr kvs) := by
  apply separate_of
  intro i hi hj
  have h1 := hn i hi
  rcases List.mem_cons.1 hj with rfl | hj
  · omega
  · have := h i hj
    omega

/-- **C83, what a factory shows of itself.**  What `default_values`, `generator_tables`, `parameters`, `tooltips`, `data_types` and
`get_row_predicates` return has the contents of the factory's own containers (as tuples instead of lists where they are frozen), and
nothing that is done to it, by any method of its class, changes the factory; nor do later changes to the factory show in it. -/
theorem factory_shows_copies (f : FactoryObjects) (hf : FactoryFixed f) (n : Nat) (hn : ∀ i ∈ ids (factoryState f), i < n) (t : String) :
    (SameContent true (.dict f.defaultsId false f.defaults) (f.defaultValues n) ∧ Separate (factoryState f) (f.defaultValues n)) ∧
    (SameContent true (.list f.generatorsId f.generators) (f.generatorTables n) ∧ Separate (factoryState f) (f.generatorTables n)) ∧
    (SameContent false (.dict f.paramsId false f.params) (f.parameters n) ∧ Separate (factoryState f) (f.parameters n)) ∧
    (SameContent false (.dict f.tooltipsId false f.tooltips) (f.shownTooltips n) ∧ Separate (factoryState f) (f.shownTooltips n)) ∧
    (SameContent false (.dict f.typesId false f.types) (f.dataTypes n) ∧ Separate (factoryState f) (f.dataTypes n)) ∧
    ((∀ i fr kvs, Maps t (.dict i fr kvs) f.predicates → SameContent false (.dict i fr kvs) (f.rowPredicates t n)) ∧
      ((∀ v, ¬ Maps t v f.predicates) → f.rowPredicates t n = .dict n false .nil) ∧
      Separate (factoryState f) (f.rowPredicates t n)) := by
  have hfreeze : ∀ x, AllParts NotFactory x → Separate (factoryState f) (deepFreeze x n).1 := by
    intro x hx
    apply separate_of
    intro i hi hj
    have h1 := hn i hi
    have h2 := (freeze_ids x n hx).2 i hj
    omega
  refine ⟨⟨freeze_content _ n, hfreeze _ ⟨trivial, hf.defaults⟩⟩, ⟨freeze_content _ n, hfreeze _ ⟨trivial, hf.generators⟩⟩,
    ⟨.dict _ _ _ _ (entries_refl _), shallow_separate hn (by rw [hf.params]; simp)⟩,
    ⟨.dict _ _ _ _ (entries_refl _), shallow_separate hn (by rw [hf.tooltips]; simp)⟩,
    ⟨.dict _ _ _ _ (innerDicts_entries _ _), shallow_separate hn (fun i hi => ?_)⟩, ?_, ?_, ?_⟩
  · have := innerDicts_ids f.types (n + 1) hf.types i hi
    omega
  · intro i fr kvs he
    unfold FactoryObjects.rowPredicates
    rw [(entry_iff _).2 he]
    exact .dict _ _ _ _ (entries_refl _)
  · intro he
    unfold FactoryObjects.rowPredicates
    cases hx : PyPairs.entry t f.predicates with
    | none => rfl
    | some v => exact absurd ((entry_iff _).1 hx) (he v)
  · unfold FactoryObjects.rowPredicates
    split
    · rename_i i fr kvs he
      exact shallow_separate hn (by rw [entry_fixed _ hf.predicates he]; simp)
    · exact shallow_separate hn (by simp [idsPairs])

/-- The frozen ones have no list, set or ordinary dictionary in them, if the factory's own entries have none. -/
theorem factory_shows_frozen (f : FactoryObjects) (n : Nat) :
    AllParts NotMutable (f.defaultValues n) ∧ AllParts NotMutable (f.generatorTables n) ∧
    (AllPartsPairs NotMutable f.params → AllParts NotMutable (f.parameters n)) ∧
    (AllPartsPairs NotMutable f.tooltips → AllParts NotMutable (f.shownTooltips n)) ∧
    (DictsOfFrozen f.types → AllParts NotMutable (f.dataTypes n)) :=
  ⟨freeze_frozen _ n, freeze_frozen _ n, fun h => ⟨rfl, h⟩, fun h => ⟨rfl, h⟩, fun h => ⟨rfl, innerDicts_frozen _ _ h⟩⟩

/-- A factory with a table of one key and one data field, a default value, a type, a predicate, a tooltip, a parameter and a
generator table. -/
def objFactory : FactoryObjects where
  pks := .dict 0 true (.cons (.atom (.str "t")) (.tuple (.cons (.atom (.str "k")) .nil)) .nil)
  dfs := .dict 1 true (.cons (.atom (.str "t")) (.tuple (.cons (.atom (.str "f")) .nil)) .nil)
  defaults := .cons (.atom (.str "t")) (.dict 8 false (.cons (.atom (.str "f")) (.atom (.num (.fin 3))) .nil)) .nil
  types := .cons (.atom (.str "t")) (.dict 9 false (.cons (.atom (.str "f")) (.tuple (.cons (.atom (.bool true)) .nil)) .nil)) .nil
  predicates := .cons (.atom (.str "t")) (.dict 10 false (.cons (.atom (.str "p")) (.tuple (.cons (.func 11) .nil)) .nil)) .nil
  tooltips := .cons (.atom (.str "t")) (.atom (.str "tip")) .nil
  params := .cons (.atom (.str "p")) (.tuple (.cons (.atom .none) (.cons (.atom (.num (.fin 1))) .nil))) .nil
  generators := .cons (.atom (.str "g")) .nil
  defaultsId := 2
  typesId := 3
  predicatesId := 4
  tooltipsId := 5
  paramsId := 6
  generatorsId := 7

theorem objFactory_fixed : FactoryFixed objFactory where
  defaults := by simp [objFactory, AllPartsPairs, AllParts, NotFactory]
  generators := by simp [objFactory, AllPartsAll, AllParts, NotFactory]
  params := rfl
  tooltips := rfl
  types := ⟨rfl, rfl, trivial⟩
  predicates := ⟨rfl, rfl, trivial⟩

example : AllPartsPairs NotMutable objFactory.params ∧ AllPartsPairs NotMutable objFactory.tooltips ∧ DictsOfFrozen objFactory.types := by
  simp [objFactory, AllPartsPairs, AllParts, AllPartsAll, NotMutable, DictsOfFrozen]

example : ∀ i ∈ ids (factoryState objFactory), i < 12 := by
  simp [factoryState, objFactory, ids, idsAll, idsPairs]

/-- **Finding.**  `primary_key_fields` and `data_fields` return the dictionaries of the factory itself: a method that a `FrozenDict`
does not refuse, like `clear` (C27), takes the tables from the factory. -/
theorem primary_key_fields_is_own (f : FactoryObjects) (i : Nat) (k v : PyVal) (kvs : PyPairs)
    (h : f.primaryKeyFields = .dict i true (.cons k v kvs)) :
    changed i (.dict i true .nil) (factoryState f) ≠ factoryState f := by
  have h : f.pks = .dict i true (.cons k v kvs) := h
  intro e
  unfold factoryState at e
  rw [h] at e
  simp [changed, changedAll] at e

theorem data_fields_is_own (f : FactoryObjects) (i : Nat) (k v : PyVal) (kvs : PyPairs)
    (h : f.dataFields = .dict i true (.cons k v kvs)) :
    changed i (.dict i true .nil) (factoryState f) ≠ factoryState f := by
  have h : f.dfs = .dict i true (.cons k v kvs) := h
  intro e
  unfold factoryState at e
  rw [h] at e
  simp [changed, changedAll] at e

/-- **Finding.**  The default value of a parameter without type rules can be a list; then `parameters` shows the factory's own list. -/
theorem parameter_default_is_own (f : FactoryObjects) (n i : Nat)
    (h : f.params = .cons (.atom (.str "p")) (.tuple (.cons (.atom .none) (.cons (.list i .nil) .nil))) .nil) (hp : f.paramsId ≠ i) :
    i ∈ ids (f.parameters n) ∧ changed i (.list i (.cons (.atom .none) .nil)) (factoryState f) ≠ factoryState f := by
  constructor
  · unfold FactoryObjects.parameters
    rw [h]
    simp [ids, idsPairs, idsAll]
  · intro e
    unfold factoryState at e
    rw [h] at e
    simp [changed, changedAll, changedPairs, hp] at e

end Ticdat

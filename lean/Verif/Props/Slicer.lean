import Verif.Model.Utils
import Verif.Spec.Utils
import Verif.Lemmas.Dict
/-!
# C25: `Slicer.slice` answers exactly the matching tuples
-/
namespace Ticdat
open Spec

variable {A : Type} [DecidableEq A]

theorem getD_foldl_bucket (f : List A → List A) (rows : List (List A)) :
    ∀ (d : PyDict (List A) (List (List A))) (k : List A),
      (PyDict.get? (rows.foldl (fun d x => bucketAdd d (f x) x) d) k).getD [] =
        (PyDict.get? d k).getD [] ++ rows.filter (fun x => decide (f x = k)) := by
  induction rows with
  | nil => intro d k; simp
  | cons x rest ih =>
    intro d k
    rw [List.foldl_cons, ih]
    unfold bucketAdd
    rw [PyDict.get?_set]
    by_cases h : f x = k
    · simp [h]
    · simp [h]

theorem mem_wildcardsOf (star : A) (args : List A) (i : Nat) : i ∈ wildcardsOf star args ↔ args[i]? = some star := by
  unfold wildcardsOf
  simp only [List.mem_map, List.mem_filter, decide_eq_true_eq]
  constructor
  · rintro ⟨⟨x, j⟩, ⟨h1, h2⟩, h3⟩
    simp only at h2 h3
    subst h2 h3
    rw [List.mem_zipIdx_iff_getElem?] at h1
    exact h1
  · intro h
    exact ⟨(star, i), ⟨by rw [List.mem_zipIdx_iff_getElem?]; exact h, rfl⟩, rfl⟩

theorem mem_fixedOf (star : A) (args : List A) (i : Nat) :
    i ∈ fixedOf args.length (wildcardsOf star args) ↔ i < args.length ∧ args[i]? ≠ some star := by
  unfold fixedOf
  simp [List.mem_filter, mem_wildcardsOf]

theorem filterMap_eq_iff {I B : Type} (f g : I → Option B) (l : List I) (hf : ∀ i ∈ l, (f i).isSome)
    (hg : ∀ i ∈ l, (g i).isSome) : l.filterMap f = l.filterMap g ↔ ∀ i ∈ l, f i = g i := by
  induction l with
  | nil => simp
  | cons x xs ih =>
    obtain ⟨a, ha⟩ := Option.isSome_iff_exists.mp (hf x (by simp))
    obtain ⟨b, hb⟩ := Option.isSome_iff_exists.mp (hg x (by simp))
    have := ih (fun i hi => hf i (by simp [hi])) (fun i hi => hg i (by simp [hi]))
    simp only [List.filterMap_cons, ha, hb, List.cons.injEq, this, List.mem_cons, forall_eq_or_imp, Option.some.injEq]

theorem sliceMatches_iff (star : A) : ∀ (args ix : List A), ix.length = args.length →
    (sliceMatches star args ix = true ↔ ∀ i, i < args.length → args[i]? ≠ some star → ix[i]? = args[i]?) := by
  intro args
  induction args with
  | nil => intro ix _; simp [sliceMatches]
  | cons a rest ih =>
    intro ix hl
    cases ix with
    | nil => simp at hl
    | cons x xs =>
      have hl' : xs.length = rest.length := by simpa using hl
      have := ih xs hl'
      simp only [sliceMatches, List.zip_cons_cons, List.all_cons, Bool.and_eq_true, Bool.or_eq_true,
        decide_eq_true_eq] at this ⊢
      rw [this]
      constructor
      · rintro ⟨h1, h2⟩ i hi hs
        cases i with
        | zero =>
          simp only [List.getElem?_cons_zero, ne_eq, Option.some.injEq] at hs ⊢
          rcases h1 with h1 | h1
          · exact absurd h1 hs
          · exact h1.symm
        | succ j =>
          simp only [List.getElem?_cons_succ] at hs ⊢
          exact h2 j (by simpa using hi) hs
      · intro h
        constructor
        · by_cases hs : a = star
          · exact .inl hs
          · have := h 0 (by simp) (by simpa using hs)
            simp only [List.getElem?_cons_zero, Option.some.injEq] at this
            exact .inr this.symm
        · intro j hj hs
          have := h (j + 1) (by simpa using hj) (by simpa using hs)
          simpa using this

theorem pickAt_eq_iff (star : A) (args ix : List A) (hl : ix.length = args.length) :
    pickAt (fixedOf args.length (wildcardsOf star args)) ix = pickAt (fixedOf args.length (wildcardsOf star args)) args ↔
      sliceMatches star args ix = true := by
  rw [sliceMatches_iff star args ix hl]
  unfold pickAt
  rw [filterMap_eq_iff]
  · constructor
    · intro h i hi hs
      exact h i ((mem_fixedOf star args i).mpr ⟨hi, hs⟩)
    · intro h i hi
      obtain ⟨h1, h2⟩ := (mem_fixedOf star args i).mp hi
      exact h i h1 h2
  · intro i hi
    obtain ⟨h1, _⟩ := (mem_fixedOf star args i).mp hi
    simp [hl, h1]
  · intro i hi
    obtain ⟨h1, _⟩ := (mem_fixedOf star args i).mp hi
    simp [h1]

/-- The cache holds exactly the groups of the index tuples. -/
structure SlicerInv (rows : List (List A)) (n : Nat) (s : SlicerState A) : Prop where
  same : s.indices = rows
  len : ∀ x ∈ rows, x.length = n
  cache : ∀ wild inner, PyDict.get? s.archive wild = some inner →
    ∀ k, (PyDict.get? inner k).getD [] = rows.filter (fun x => decide (pickAt (fixedOf n wild) x = k))

/-- What each call should answer. -/
def slicerAnswer (star : A) (rows : List (List A)) : SlicerOp A → Option (List (List A))
  | .clear => some []
  | .slice args =>
    match rows with
    | [] => some []
    | r :: _ => if args.length = r.length then some (rows.filter (sliceMatches star args)) else none

theorem slicerStep_spec (star : A) (rows : List (List A)) (n : Nat) (s : SlicerState A) (h : SlicerInv rows n s)
    (op : SlicerOp A) : SlicerInv rows n (slicerStep star s op).1 ∧
      (slicerStep star s op).2 = slicerAnswer star rows op := by
  cases op with
  | clear => exact ⟨⟨h.same, h.len, fun wild inner hw => by simp [slicerStep] at hw⟩, rfl⟩
  | slice args =>
    simp only [slicerStep, slicerAnswer, slice]
    rw [h.same]
    cases hr : rows with
    | nil => rw [hr] at h; exact ⟨h, rfl⟩
    | cons r rest =>
      rw [hr] at h
      have hrn : r.length = n := h.len r (by simp)
      simp only
      by_cases hl : args.length = r.length
      · have hln : args.length = n := by omega
        simp only [hl, if_true]
        generalize hA : (if PyDict.has s.archive (wildcardsOf star args) = true then s.archive
          else PyDict.set s.archive (wildcardsOf star args)
            ((r :: rest).foldl (fun d x => bucketAdd d (pickAt (fixedOf r.length (wildcardsOf star args)) x) x) [])) = arch
        -- the archive now has the entry and still satisfies the invariant
        have hinv : ∀ wild inner, PyDict.get? arch wild = some inner →
            ∀ k, (PyDict.get? inner k).getD [] = (r :: rest).filter (fun x => decide (pickAt (fixedOf n wild) x = k)) := by
          intro wild inner hw k
          rw [← hA] at hw
          split at hw
          · exact h.cache wild inner hw k
          · rw [PyDict.get?_set] at hw
            split at hw
            · rename_i e
              cases hw
              rw [getD_foldl_bucket, ← hrn, ← e]
              simp
            · exact h.cache wild inner hw k
        have hhas : ∃ inner, PyDict.get? arch (wildcardsOf star args) = some inner := by
          rw [← hA]
          split
          · rename_i hh
            exact Option.isSome_iff_exists.mp hh
          · rw [PyDict.get?_set, if_pos rfl]
            exact ⟨_, rfl⟩
        obtain ⟨inner, hinner⟩ := hhas
        have hget := hinv _ _ hinner
        generalize hI : (if PyDict.has inner (pickAt (fixedOf r.length (wildcardsOf star args)) args) = true then inner
          else PyDict.set inner (pickAt (fixedOf r.length (wildcardsOf star args)) args) []) = inner'
        have hsame : ∀ k, (PyDict.get? inner' k).getD [] = (PyDict.get? inner k).getD [] := by
          intro k
          rw [← hI]
          split
          · rfl
          · rename_i hh
            rw [PyDict.get?_set]
            split
            · rename_i e
              subst e
              cases hg : PyDict.get? inner (pickAt (fixedOf r.length (wildcardsOf star args)) args) with
              | none => rfl
              | some v => simp [PyDict.has, hg] at hh
            · rfl
        simp only [hinner, Option.getD_some, hI]
        refine ⟨⟨rfl, h.len, ?_⟩, ?_⟩
        · intro wild inner2 hw k
          simp only at hw
          rw [PyDict.get?_set] at hw
          split at hw
          · rename_i e
            cases hw
            rw [hsame, hget, e]
          · exact hinv wild inner2 hw k
        · rw [hsame, hget]
          congr 1
          apply List.filter_congr
          intro x hx
          have hx' : x.length = args.length := by rw [h.len x hx, hln]
          have := pickAt_eq_iff star args x hx'
          rw [← hln, ← hl]
          rw [Bool.eq_iff_iff, decide_eq_true_iff]
          exact this
      · simp only [hl, if_false]
        exact ⟨h, trivial⟩

theorem slicerRun_spec (star : A) (rows : List (List A)) (n : Nat) (ops : List (SlicerOp A)) :
    ∀ s : SlicerState A, SlicerInv rows n s → slicerRun star s ops = ops.map (slicerAnswer star rows) := by
  induction ops with
  | nil => intro s _; rfl
  | cons op rest ih =>
    intro s h
    obtain ⟨h1, h2⟩ := slicerStep_spec star rows n s h op
    rw [slicerRun, List.map_cons, h2, ih _ h1]

/-- **C25.**  A `Slicer` is created iff the tuples have one length and none has a wildcard entry, and then, after any
history of slices and clears, each slice answers exactly the tuples that agree with the arguments at every
non-wildcard position, in their original order; a slice with the wrong number of arguments raises (`none`). -/
theorem slicer_answers (star : A) (rows : List (List A)) :
    ((∃ s, slicerInit star rows = some s) ↔
      (∀ x ∈ rows, ∀ y ∈ rows, x.length = y.length) ∧ ∀ x ∈ rows, star ∉ x) ∧
    ∀ s, slicerInit star rows = some s → ∀ ops, slicerRun star s ops = ops.map (slicerAnswer star rows) := by
  have hinit : (∃ s, slicerInit star rows = some s) ↔
      (∀ x ∈ rows, ∀ y ∈ rows, x.length = y.length) ∧ ∀ x ∈ rows, star ∉ x := by
    cases rows with
    | nil => simp [slicerInit]
    | cons r rest =>
      simp only [slicerInit]
      split
      · rename_i h
        simp only [Bool.and_eq_true, List.all_eq_true, beq_iff_eq, Bool.not_eq_true', List.any_eq_false,
          List.contains_iff_mem, Bool.not_eq_true] at h
        obtain ⟨h1, h2⟩ := h
        have hall : ∀ x ∈ r :: rest, x.length = r.length := by
          intro x hx
          rcases List.mem_cons.mp hx with rfl | hx
          · rfl
          · exact h1 x hx
        refine iff_of_true ⟨_, rfl⟩ ⟨fun x hx y hy => by rw [hall x hx, hall y hy], fun x hx hs => ?_⟩
        exact (h2 x hx) hs
      · rename_i h
        refine iff_of_false (by simp) (fun ⟨h1, h2⟩ => h ?_)
        simp only [Bool.and_eq_true, List.all_eq_true, beq_iff_eq, Bool.not_eq_true', List.any_eq_false,
          List.contains_iff_mem, Bool.not_eq_true]
        exact ⟨fun x hx => h1 x (by simp [hx]) r (by simp), fun x hx hs => h2 x hx hs⟩
  refine ⟨hinit, fun s hs ops => ?_⟩
  have hlen := (hinit.mp ⟨s, hs⟩).1
  cases rows with
  | nil =>
    simp only [slicerInit, Option.some.injEq] at hs
    exact slicerRun_spec star [] 0 ops s ⟨by rw [← hs], by simp, fun wild inner hw => by rw [← hs] at hw; simp at hw⟩
  | cons r rest =>
    have e : s = ⟨r :: rest, []⟩ := by
      simp only [slicerInit] at hs
      split at hs
      · exact (Option.some.inj hs).symm
      · cases hs
    exact slicerRun_spec star (r :: rest) r.length ops s
      ⟨by rw [e], fun x hx => hlen x hx r (by simp), fun wild inner hw => by rw [e] at hw; simp at hw⟩

/-! ### Non-vacuity -/

example : (slicerInit "*" [["a", "b"], ["a", "c"], ["d", "b"]]).map (fun s =>
    slicerRun "*" s [.slice ["a", "*"], .slice ["*", "b"], .slice ["zz", "*"], .clear, .slice ["a", "*"], .slice ["*"]]) =
    some [some [["a", "b"], ["a", "c"]], some [["a", "b"], ["d", "b"]], some [], some [],
      some [["a", "b"], ["a", "c"]], none] := by decide +kernel

example : (slicerInit "*" [["a", "b"], ["a"]]).isNone ∧ (slicerInit "*" [["a", "*"]]).isNone := by decide +kernel

end Ticdat

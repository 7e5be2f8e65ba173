import Verif.Lemmas.FindFK2
/-!
# C01, C02: `find_foreign_key_failures` reports exactly the foreign key failures

`findFK s fks db lim` models `tdf.find_foreign_key_failures(dat, max_failures=lim)` for a factory with schema `s`
and foreign keys `fks`; `none` as a result is a raised exception.
-/
namespace Ticdat
open Spec
variable {V : Type} [DecidableEq V]

/-- **C01.**  On every good data object `find_foreign_key_failures` does not raise, and what it returns is exact:
a foreign key is a key of the result iff it is declared and has a failing row; the reported primary keys are exactly
those of the rows with no agreeing foreign row; the reported values are exactly the native values of those rows; and
nothing is reported twice. -/
theorem find_fk_exact {s : Schema} (hs : SchemaOK s) {db : DB V} (hdb : DBOK s db) {fks : List FK}
    (hk : ∀ k ∈ fks, FKOK s k ∧ ForeignDistinct k) (hn : fks.Nodup) :
    ∃ d, findFK s fks db none = some d ∧ (PyDict.keys d).Nodup ∧
      (∀ k, k ∈ PyDict.keys d ↔
        k ∈ fks ∧ ∃ p ∈ rows (tableOf s k.native) (db k.native), Fails s db k p.2) ∧
      (∀ k f, d.get? k = some f →
        f.nativePks.Nodup ∧ f.nativeValues.Nodup ∧
        (∀ pk, pk ∈ f.nativePks ↔
          ∃ r, (pk, r) ∈ rows (tableOf s k.native) (db k.native) ∧ Fails s db k r) ∧
        (∀ vs, vs ∈ f.nativeValues ↔
          ∃ p ∈ rows (tableOf s k.native) (db k.native), Fails s db k p.2 ∧
            k.mapping.map (fun m => p.2 m.1) = vs.map some)) := by
  obtain ⟨d, hd, inv⟩ := findFK_dictInv hs hdb (fun k h => (hk k h).1) hn none (by simp)
  simp only [takeLim] at inv
  have hfail : ∀ k ∈ fks, ∀ p ∈ (db k.native).items, failB s db k p = true ↔
      Fails s db k (recOf (tableOf s k.native) p.1 p.2) := by
    intro k hkm p hp
    rw [failB_iff hs hdb (hk k hkm).1 hp, failsEff_iff (hk k hkm).2]
  have hmemE : ∀ k e, e ∈ evOf (allEvs s db fks) k ↔ e.fk = k ∧ k ∈ fks ∧
      ∃ p ∈ (db k.native).items, failB s db k p = true ∧ p.1 = e.pk ∧ valsOf s k p = e.vals := by
    intro k e
    simp only [evOf, List.mem_filter, decide_eq_true_eq, mem_allEvs]
    constructor
    · rintro ⟨⟨h1, h2⟩, rfl⟩; exact ⟨rfl, h1, h2⟩
    · rintro ⟨rfl, h1, h2⟩; exact ⟨⟨h1, h2⟩, rfl⟩
  have hkey : ∀ k, k ∈ PyDict.keys d ↔
        k ∈ fks ∧ ∃ p ∈ rows (tableOf s k.native) (db k.native), Fails s db k p.2 := by
    intro k
    classical
    apply Decidable.not_iff_not.1
    rw [← PyDict.get?_eq_none, inv.none_iff, List.eq_nil_iff_forall_not_mem]
    rw [rows_eq_items]
    constructor
    · rintro h ⟨hkm, q, hq, hf⟩
      obtain ⟨p, hp, rfl⟩ := List.mem_map.1 hq
      exact h ⟨k, p.1, valsOf s k p⟩ ((hmemE k _).2 ⟨rfl, hkm, p, hp, (hfail k hkm p hp).2 hf, rfl, rfl⟩)
    · intro h e he
      obtain ⟨_, hkm, p, hp, hf, _⟩ := (hmemE k e).1 he
      exact h ⟨hkm, (p.1, _), List.mem_map.2 ⟨p, hp, rfl⟩, (hfail k hkm p hp).1 hf⟩
  refine ⟨d, hd, inv.nodup, hkey, ?_⟩
  intro k f hf
  have hkm : k ∈ fks := by
    have : k ∈ PyDict.keys d := by
      apply Decidable.byContradiction
      intro hc
      rw [(PyDict.get?_eq_none _ _).2 hc] at hf
      exact absurd hf (by simp)
    exact ((hkey k).1 this).1
  have hpks := inv.pks k f hf
  refine ⟨?_, inv.vals_nodup k f hf, ?_, ?_⟩
  · rw [hpks]
    have hnd := allEvs_nodup hs hdb fks (fun k h => (hk k h).1) hn
    have h2 : ((evOf (allEvs s db fks) k).map (fun e => (e.fk, e.pk))).Nodup :=
      (List.Sublist.map _ List.filter_sublist).nodup hnd
    have h3 : (evOf (allEvs s db fks) k).map (fun e => (e.fk, e.pk)) =
        ((evOf (allEvs s db fks) k).map (·.pk)).map (fun pk => (k, pk)) := by
      rw [List.map_map]
      apply List.map_congr_left
      intro e he
      simp [((hmemE k e).1 he).1]
    rw [h3] at h2
    have h4 : ∀ (l : List (PKey V)), (l.map (fun pk => (k, pk))).Nodup → l.Nodup := by
      intro l hl
      rw [List.Nodup, List.pairwise_map] at hl
      exact hl.imp (fun hab e => hab (by rw [e]))
    exact h4 _ h2
  · intro pk
    rw [hpks, rows_eq_items]
    simp only [List.mem_map]
    constructor
    · rintro ⟨e, he, rfl⟩
      obtain ⟨_, _, p, hp, hf, h1, _⟩ := (hmemE k e).1 he
      exact ⟨_, ⟨p, hp, by rw [← h1]⟩, (hfail k hkm p hp).1 hf⟩
    · rintro ⟨r, ⟨p, hp, e⟩, hfr⟩
      cases e
      exact ⟨⟨k, p.1, valsOf s k p⟩, (hmemE k _).2 ⟨rfl, hkm, p, hp, (hfail k hkm p hp).2 hfr, rfl, rfl⟩, rfl⟩
  · intro vs
    rw [inv.vals k f hf vs, rows_eq_items]
    have hval : ∀ p ∈ (db k.native).items,
        k.mapping.map (fun m => recOf (tableOf s k.native) p.1 p.2 m.1) = (valsOf s k p).map some := by
      intro p hp
      obtain ⟨ws, h1, h2⟩ := nativeValues_spec hs (hk k hkm).1
        (rowOK_of_items (tableOK_of_mem hs hdb (hk k hkm).1.native_mem) hp)
      simpa [valsOf, h1] using h2
    constructor
    · rintro ⟨e, he, rfl⟩
      obtain ⟨_, _, p, hp, hf, h1, h2⟩ := (hmemE k e).1 he
      exact ⟨_, List.mem_map.2 ⟨p, hp, rfl⟩, (hfail k hkm p hp).1 hf, by rw [hval p hp, h2]⟩
    · rintro ⟨q, hq, hfr, hv⟩
      obtain ⟨p, hp, rfl⟩ := List.mem_map.1 hq
      refine ⟨⟨k, p.1, valsOf s k p⟩, (hmemE k _).2 ⟨rfl, hkm, p, hp, (hfail k hkm p hp).2 hfr, rfl, rfl⟩, ?_⟩
      rw [hval p hp] at hv
      exact (List.map_inj_right (fun x y => by simp)).1 hv

/-- The number of rows reported in a result of `find_foreign_key_failures`. -/
def reported (d : PyDict FK (FKFailures V)) : Nat := (d.map (fun p => p.2.nativePks.length)).sum

/-- **C02.**  With `max_failures = n ≥ 1` everything reported is also reported by the unlimited call (so it is a
genuine failure by C01), and the number of reported rows is exactly `min n total`. -/
theorem find_fk_max_failures {s : Schema} (hs : SchemaOK s) {db : DB V} (hdb : DBOK s db) {fks : List FK}
    (hk : ∀ k ∈ fks, FKOK s k) (hn : fks.Nodup) (n : Nat) (hpos : 0 < n) :
    ∃ d dAll, findFK s fks db (some n) = some d ∧ findFK s fks db none = some dAll ∧
      reported d = min n (reported dAll) ∧
      (∀ k f, d.get? k = some f → f.nativePks ≠ [] ∧ ∃ fAll, dAll.get? k = some fAll ∧
        (∀ pk ∈ f.nativePks, pk ∈ fAll.nativePks) ∧ (∀ vs ∈ f.nativeValues, vs ∈ fAll.nativeValues)) := by
  obtain ⟨d, hd, inv⟩ := findFK_dictInv hs hdb hk hn (some n) (by simp; omega)
  obtain ⟨dAll, hdAll, invAll⟩ := findFK_dictInv hs hdb hk hn none (by simp)
  refine ⟨d, dAll, hd, hdAll, ?_, ?_⟩
  · unfold reported
    rw [inv.total, invAll.total]
    simp [takeLim, List.length_take]
  · intro k f hf
    have hsub : (evOf (takeLim (some n) (allEvs s db fks)) k).Sublist (evOf (allEvs s db fks) k) :=
      (takeLim_sublist _ _).filter _
    have hne : evOf (takeLim (some n) (allEvs s db fks)) k ≠ [] := by
      intro h; rw [(inv.none_iff k).2 h] at hf; exact absurd hf (by simp)
    refine ⟨by rw [inv.pks k f hf]; simpa using hne, ?_⟩
    cases hg : dAll.get? k with
    | none =>
      have h0 := (invAll.none_iff k).1 hg
      simp only [takeLim] at h0
      rw [h0] at hsub
      exact absurd (List.eq_nil_of_sublist_nil hsub) hne
    | some fAll =>
      refine ⟨fAll, rfl, ?_, ?_⟩
      · intro pk hp
        rw [inv.pks k f hf] at hp
        rw [invAll.pks k fAll hg]
        exact (hsub.map _).subset hp
      · intro vs hv
        obtain ⟨e, he, rfl⟩ := (inv.vals k f hf vs).1 hv
        exact (invAll.vals k fAll hg _).2 ⟨e, hsub.subset he, rfl⟩

/-! ### Non-vacuity: a schema with a one-field key, a two-field key and an un-keyed table. -/

/-- Foods, nutrients, the quantity of each nutrient in each food, and an un-keyed log of foods. -/
def dietSchema : Schema :=
  [("foods", ⟨["name"], ["cost"]⟩), ("nutrients", ⟨["name"], []⟩),
   ("quantities", ⟨["food", "nutrient"], ["qty"]⟩), ("log", ⟨[], ["food", "nutrient"]⟩)]

def dietFKs : List FK :=
  [⟨"quantities", "foods", [("food", "name")]⟩, ⟨"quantities", "nutrients", [("nutrient", "name")]⟩,
   ⟨"log", "quantities", [("nutrient", "nutrient"), ("food", "food")]⟩]

def dietDB : DB Nat := fun t =>
  if t = "foods" then .dict [(.one 1, [10]), (.one 2, [20])]
  else if t = "nutrients" then .dict [(.one 7, [])]
  else if t = "quantities" then .dict [(.many [1, 7], [5]), (.many [3, 7], [6]), (.many [2, 8], [6])]
  else .list [[1, 7], [2, 7], [3, 7]]

theorem dietSchema_ok : SchemaOK dietSchema := by
  refine ⟨by decide, ?_⟩
  intro t
  by_cases h : t ∈ PyDict.keys dietSchema
  · simp only [dietSchema, PyDict.keys, List.map_cons, List.map_nil, List.mem_cons, List.not_mem_nil,
      or_false] at h
    rcases h with rfl | rfl | rfl | rfl <;> decide
  · rw [← PyDict.get?_eq_none] at h
    simp [Schema.pks, Schema.dfs, h]

theorem dietDB_ok : DBOK dietSchema dietDB := by
  intro t ts h
  simp only [dietSchema, List.mem_cons, Prod.mk.injEq, List.not_mem_nil, or_false] at h
  rcases h with ⟨rfl, rfl⟩ | ⟨rfl, rfl⟩ | ⟨rfl, rfl⟩ | ⟨rfl, rfl⟩ <;>
    simp [dietDB, TableOK, KeyOK]

theorem dietFKs_ok : ∀ k ∈ dietFKs, FKOK dietSchema k ∧ ForeignDistinct k := by
  intro k h
  simp only [dietFKs, List.mem_cons, List.not_mem_nil, or_false] at h
  rcases h with rfl | rfl | rfl <;>
    exact ⟨⟨by decide, by decide, by decide, by decide, by decide, by decide⟩, by unfold ForeignDistinct; decide⟩

/-- The hypotheses of C01 and C02 hold of the diet data, and the result is the expected non-trivial one. -/
example : (findFK dietSchema dietFKs dietDB none).map (fun d => d.map (fun p => (p.1.foreign, p.2.nativePks))) =
    some [("foods", [.many [3, 7]]), ("nutrients", [.many [2, 8]]), ("quantities", [.idx 1])] := by decide

/-- **Finding.**  When two native fields are mapped to the same foreign field the code only checks the last pair: here
row `(1, 2)` of `n` should match a foreign row on both `a ↦ x` and `b ↦ x`, which is impossible, but no failure is
reported. -/
theorem find_fk_repeated_foreign_field_misses :
    let s : Schema := [("n", ⟨["a", "b"], []⟩), ("f", ⟨["x"], []⟩)]
    let k : FK := ⟨"n", "f", [("a", "x"), ("b", "x")]⟩
    let db : DB Nat := fun t => if t = "n" then .dict [(.many [1, 2], [])] else .dict [(.one 2, [])]
    FKOK s k ∧ findFK s [k] db none = some [] ∧
      ∃ p ∈ rows (tableOf s "n") (db "n"), Fails s db k p.2 := by
  refine ⟨⟨by decide, by decide, by decide, by decide, by decide, by decide⟩, by decide, ?_⟩
  refine ⟨_, List.mem_cons_self, ?_⟩
  intro q hq ha
  have h1 := ha ("a", "x") (by decide)
  have h2 := ha ("b", "x") (by decide)
  rw [← h2] at h1
  revert h1
  decide

end Ticdat

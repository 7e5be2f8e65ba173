import Verif.Lemmas.PanFK
/-!
# C05 (and the pandas side of C01-C04): foreign key failures of `PanDat` objects
-/
set_option linter.unusedSectionVars false
namespace Ticdat
open Spec
variable {V : Type} [DecidableEq V]

/-- The foreign keys for which the pandas code is exact. -/
def PanFKOK (k : FK) : Prop := (k.mapping.map Prod.fst).Nodup ∧ NoClobber k

/-- `PanDatFactory.find_foreign_key_failures` is exact: a key is in the result iff it is declared and some row of its
native table fails, and its flags say row by row which rows fail. -/
theorem pandat_find_fk_exact (db : PanDB V) (fks : List FK) (hk : ∀ k ∈ fks, PanFKOK k) :
    (∀ k, k ∈ (panFindRows db none fks 0).map Prod.fst ↔ k ∈ fks ∧ ∃ r ∈ db k.native, PanFails db k r) ∧
    (∀ k fl, (k, fl) ∈ panFindRows db none fks 0 → fl.length = (db k.native).length ∧
      ∀ (i : Nat) (r : PRow V), (db k.native)[i]? = some r → (fl[i]? = some true ↔ PanFails db k r)) := by
  rw [panFindRows_none]
  constructor
  · intro k
    simp only [List.map_map, List.mem_map, List.mem_filter, List.any_eq_true, Function.comp_apply, exists_eq_right]
    constructor
    · rintro ⟨h, r, hr, hb⟩
      exact ⟨h, r, hr, (panRowFails_iff db k (hk k h).1 (hk k h).2 r).1 hb⟩
    · rintro ⟨h, r, hr, hb⟩
      exact ⟨h, r, hr, (panRowFails_iff db k (hk k h).1 (hk k h).2 r).2 hb⟩
  · intro k fl hm
    simp only [List.mem_map, List.mem_filter, Prod.mk.injEq] at hm
    obtain ⟨k', ⟨h, _⟩, rfl, rfl⟩ := hm
    refine ⟨by simp, ?_⟩
    intro i r hr
    rw [← panRowFails_iff db k' (hk k' h).1 (hk k' h).2 r]
    simp [hr]

/-- With `max_failures = m ≥ 1` the pandas code flags exactly `min m total` rows, all of them failures. -/
theorem pandat_find_fk_max_failures (db : PanDB V) (fks : List FK) (hk : ∀ k ∈ fks, PanFKOK k) (m : Nat)
    (hm : 0 < m) :
    flagged (panFindRows db (some m) fks 0) = min m (flagged (panFindRows db none fks 0)) ∧
    (∀ k fl, (k, fl) ∈ panFindRows db (some m) fks 0 → k ∈ fks ∧
      ∀ (i : Nat) (r : PRow V), (db k.native)[i]? = some r → fl[i]? = some true → PanFails db k r) := by
  obtain ⟨h1, h2⟩ := panFindRows_some db m fks 0 hm
  refine ⟨by simpa using h1, ?_⟩
  intro k fl hmem
  obtain ⟨a, _, b⟩ := h2 k fl hmem
  refine ⟨a, fun i r hr hfl => ?_⟩
  have := b i hfl
  rw [hr] at this
  exact (panRowFails_iff db k (hk k a).1 (hk k a).2 r).1 (by simpa using this)

/-- The `while` loop of `PanDatFactory.remove_foreign_key_failures` terminates, and its result is the largest consistent
part of the data. -/
theorem pandat_remove_fk_greatest (db : PanDB V) (fks : List FK) (hk : ∀ k ∈ fks, PanFKOK k) :
    ∃ db', (∃ n, ∀ fuel, n < fuel → panRemove fks fuel db = some db') ∧
      PanSub db' db ∧ PanConsistent fks db' ∧
      ∀ c : PanDB V, PanSub c db → PanConsistent fks c → PanSub c db' := by
  let ts := fks.map FK.native
  obtain ⟨db', h1, h2, h3, h4⟩ := panRemove_run hk ts (fun k h => List.mem_map.2 ⟨k, h, rfl⟩)
    (panTotal ts db + 1) db (Nat.lt_succ_self _)
  exact ⟨db', ⟨panTotal ts db, fun fuel hf => panRemove_fuel_mono fks db db' hf h1⟩, h2, h3, h4⟩

theorem panSub_antisymm {a b : PanDB V} (h : PanSub a b) (h' : PanSub b a) : a = b := by
  funext t
  exact (h t).eq_of_length_le (h' t).length_le

/-- **C05, order.**  The order in which the foreign keys are visited does not matter: whenever two runs of
`PanDatFactory.remove_foreign_key_failures` that visit the same keys in different orders (Python sets fix no order) both
finish, they finish with the same rows. -/
theorem pandat_remove_order_independent (db : PanDB V) (fks fks' : List FK) (hk : ∀ k ∈ fks, PanFKOK k)
    (hmem : ∀ k, k ∈ fks ↔ k ∈ fks') :
    ∃ db' n, ∀ fuel, n < fuel → panRemove fks fuel db = some db' ∧ panRemove fks' fuel db = some db' := by
  obtain ⟨a, ⟨n, ha⟩, a2, a3, a4⟩ := pandat_remove_fk_greatest db fks hk
  obtain ⟨b, ⟨m, hb⟩, b2, b3, b4⟩ := pandat_remove_fk_greatest db fks' (fun k h => hk k ((hmem k).2 h))
  have hab : a = b := panSub_antisymm
    (b4 a a2 (fun k h => a3 k ((hmem k).2 h))) (a4 b b2 (fun k h => b3 k ((hmem k).1 h)))
  refine ⟨a, max n m, fun fuel hf => ⟨ha fuel (by omega), ?_⟩⟩
  rw [hab]
  exact hb fuel (by omega)

/-! ### Agreement with `TicDatFactory` -/

/-- The records of a table as a plain list. -/
theorem rows_snd_sub {ts : TSchema} {a b : TableData V} (h : SubTable a b) :
    ((rows ts a).map Prod.snd).Sublist ((rows ts b).map Prod.snd) := by
  have hl : ∀ rs : List (List V), ((rows ts (.list rs)).map Prod.snd) = rs.map (recOf ts (.idx 0)) := by
    intro rs
    simp only [rows, List.map_map]
    have : (Prod.snd ∘ fun p : List V × Nat => ((PKey.idx p.2 : PKey V), recOf ts (.idx p.2) p.1)) =
        (recOf ts (.idx 0)) ∘ Prod.fst := rfl
    rw [this, ← List.map_map, List.zipIdx_map_fst]
  cases a <;> cases b
  · rename_i ra rb
    exact ((h : List.Sublist ra rb).map _).map _
  · exact absurd h (by simp [SubTable])
  · exact absurd h (by simp [SubTable])
  · rename_i ra rb
    rw [hl, hl]
    exact (h : List.Sublist ra rb).map _

theorem sub_of_rows_snd {ts : TSchema} {b : TableData V} {l : List (PRow V)}
    (h : l.Sublist ((rows ts b).map Prod.snd)) : ∃ a, SubTable a b ∧ (rows ts a).map Prod.snd = l := by
  cases b with
  | dict rb =>
    simp only [rows, List.map_map] at h
    rw [List.sublist_map_iff] at h
    obtain ⟨l', h1, h2⟩ := h
    exact ⟨.dict l', h1, by simp [rows, h2]⟩
  | list rb =>
    have hl : ∀ rs : List (List V), ((rows ts (.list rs)).map Prod.snd) = rs.map (recOf ts (.idx 0)) := by
      intro rs
      simp only [rows, List.map_map]
      have : (Prod.snd ∘ fun p : List V × Nat => ((PKey.idx p.2 : PKey V), recOf ts (.idx p.2) p.1)) =
          (recOf ts (.idx 0)) ∘ Prod.fst := rfl
      rw [this, ← List.map_map, List.zipIdx_map_fst]
    rw [hl, List.sublist_map_iff] at h
    obtain ⟨l', h1, h2⟩ := h
    exact ⟨.list l', h1, by rw [hl, h2]⟩

theorem fails_toPan {s : Schema} {db : DB V} {k : FK} (hk : FKOK s k) (r : Rec V) :
    PanFails (toPan s db) k r ↔ Fails s db k r := by
  simp only [PanFails, Fails, toPan, hk.foreign_mem, if_true, List.mem_map]
  constructor
  · intro h q hq; exact h q.2 ⟨q, hq, rfl⟩
  · rintro h _ ⟨q, hq, rfl⟩; exact h q hq

theorem consistent_toPan {s : Schema} {db : DB V} {fks : List FK} (hk : ∀ k ∈ fks, FKOK s k) :
    PanConsistent fks (toPan s db) ↔ Consistent s fks db := by
  constructor
  · intro h k hkk p hp hf
    apply h k hkk p.2
    · simp only [toPan, (hk k hkk).native_mem, if_true]
      exact List.mem_map.2 ⟨p, hp, rfl⟩
    · exact (fails_toPan (hk k hkk) p.2).2 hf
  · intro h k hkk r hr hf
    simp only [toPan, (hk k hkk).native_mem, if_true] at hr
    obtain ⟨p, hp, rfl⟩ := List.mem_map.1 hr
    exact h k hkk p hp ((fails_toPan (hk k hkk) p.2).1 hf)

/-- **C05, agreement.**  Removing the failures of a `TicDat` object with `TicDatFactory` (all keys per round) and those
of the corresponding data frames with `PanDatFactory` (one key per iteration, in any order `fks'` of the keys) ends with
the same rows. -/
theorem pandat_remove_same_as_ticdat {s : Schema} (hs : SchemaOK s) {db : DB V} (hdb : DBOK s db)
    {fks fks' : List FK} (hk : ∀ k ∈ fks, FKOK s k ∧ ForeignDistinct k ∧ NoClobber k) (hn : fks.Nodup)
    (hmem : ∀ k, k ∈ fks ↔ k ∈ fks') :
    ∃ db' n, ∀ fuel, n < fuel → removeFK s fks true fuel db = some db' ∧
      panRemove fks' fuel (toPan s db) = some (toPan s db') := by
  obtain ⟨db', h1, h2, h3, h4, _⟩ := remove_fk_greatest hs hdb (fun k h => ⟨(hk k h).1, (hk k h).2.1⟩) hn
  have hk' : ∀ k ∈ fks', FKOK s k := fun k h => (hk k ((hmem k).2 h)).1
  obtain ⟨p, ⟨m, hp⟩, p2, p3, p4⟩ := pandat_remove_fk_greatest (toPan s db) fks'
    (fun k h => ⟨(hk' k h).native_nodup, (hk k ((hmem k).2 h)).2.2⟩)
  refine ⟨db', max (totalRows s db) m, fun fuel hf => ⟨h1 fuel (by omega), ?_⟩⟩
  rw [hp fuel (by omega)]
  congr 1
  apply panSub_antisymm
  · have hex : ∀ t, ∃ a, SubTable a (db t) ∧
        (t ∈ PyDict.keys s → (rows (tableOf s t) a).map Prod.snd = p t) := by
      intro t
      by_cases ht : t ∈ PyDict.keys s
      · have := p2 t
        simp only [toPan, ht, if_true] at this
        obtain ⟨a, ha, he⟩ := sub_of_rows_snd this
        exact ⟨a, ha, fun _ => he⟩
      · exact ⟨db t, subTable_refl _, fun h => absurd h ht⟩
    let c : DB V := fun t => Classical.choose (hex t)
    have hc1 : SubDB s c db := fun t _ => (Classical.choose_spec (hex t)).1
    have hc2 : toPan s c = p := by
      funext t
      by_cases ht : t ∈ PyDict.keys s
      · simp only [toPan, ht, if_true]
        exact (Classical.choose_spec (hex t)).2 ht
      · have := p2 t
        simp only [toPan, ht, if_false] at this ⊢
        exact (List.eq_nil_of_sublist_nil this).symm
    have hc3 : Consistent s fks c := by
      rw [← consistent_toPan (fun k h => (hk k h).1), hc2]
      exact fun k h => p3 k ((hmem k).1 h)
    have := h4 c hc1 hc3
    rw [← hc2]
    intro t
    by_cases ht : t ∈ PyDict.keys s
    · simp only [toPan, ht, if_true]; exact rows_snd_sub (this t ht)
    · simp [toPan, ht]
  · apply p4
    · intro t
      by_cases ht : t ∈ PyDict.keys s
      · simp only [toPan, ht, if_true]; exact rows_snd_sub (h2 t ht)
      · simp [toPan, ht]
    · rw [consistent_toPan hk']
      exact fun k h => h3 k ((hmem k).2 h)

/-! ### Non-vacuity and a finding -/

/-- The diet keys satisfy the pandas side conditions too. -/
theorem dietFKs_pan_ok : ∀ k ∈ dietFKs, FKOK dietSchema k ∧ ForeignDistinct k ∧ NoClobber k := by
  intro k h
  have h' := dietFKs_ok k h
  refine ⟨h'.1, h'.2, ?_⟩
  simp only [dietFKs, List.mem_cons, List.not_mem_nil, or_false] at h
  rcases h with rfl | rfl | rfl <;> (unfold NoClobber; decide)

/-- The pandas loop on the diet frames, with the keys in reverse order. -/
example : (panRemove dietFKs.reverse 20 (toPan dietSchema dietDB)).map
    (fun d => ((d "quantities").map (fun r => r "food"), (d "log").map (fun r => r "food"), (d "foods").length)) =
    some ([some 1], [some 1], 2) := by decide +kernel

/-- **Finding.**  When the mapped field names cross (here a table of directed edges in which every edge must have its
reverse), the pandas code overwrites a parent column before reading it: consistent data is reported as failing, and
`remove_foreign_key_failures` deletes it all.  The same data has no failure for `TicDatFactory`. -/
theorem pandat_crossed_fields_wrong :
    let s : Schema := [("edges", ⟨["a", "b"], []⟩)]
    let k : FK := ⟨"edges", "edges", [("a", "b"), ("b", "a")]⟩
    let db : DB Nat := fun _ => .dict [(.many [1, 2], []), (.many [2, 1], [])]
    FKOK s k ∧ ForeignDistinct k ∧ findFK s [k] db none = some [] ∧
      (panRemove [k] 5 (toPan s db)).map (fun d => (d "edges").length) = some 0 := by
  refine ⟨⟨by decide, by decide, by decide, by decide, by decide, by decide⟩, by unfold ForeignDistinct; decide,
    by decide, by decide⟩

end Ticdat

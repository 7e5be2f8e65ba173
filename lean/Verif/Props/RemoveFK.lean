import Verif.Lemmas.RemoveFK2
import Verif.Props.FindFK
/-!
# C03, C04: `remove_foreign_key_failures` terminates, leaves no failure, and removes no more than it must

`removeFK s fks propagate fuel db` models `tdf.remove_foreign_key_failures(dat, propagate)`; the Python recursion is
unbounded, `fuel` bounds the number of rounds.  The theorems show that any fuel above the number of rows gives the
same answer.
-/
set_option linter.unusedSectionVars false
namespace Ticdat
open Spec
variable {V : Type} [DecidableEq V]

theorem removeFK_fuel_succ (s : Schema) (fks : List FK) (fuel : Nat) (db r : DB V)
    (h : removeFK s fks true fuel db = some r) : removeFK s fks true (fuel + 1) db = some r := by
  induction fuel generalizing db with
  | zero => simp [removeFK] at h
  | succ fuel ih =>
    rw [removeFK] at h ⊢
    cases hr : removeRound s fks db with
    | none => simp [hr] at h
    | some q =>
      obtain ⟨db1, b⟩ := q
      simp only [hr, Option.bind_eq_bind, Option.bind_some, Bool.and_true] at h ⊢
      cases b with
      | false => simpa using h
      | true =>
        simp only [if_true] at h ⊢
        exact ih db1 h

theorem removeFK_fuel_mono (s : Schema) (fks : List FK) (db r : DB V) {fuel fuel' : Nat} (hle : fuel ≤ fuel')
    (h : removeFK s fks true fuel db = some r) : removeFK s fks true fuel' db = some r := by
  induction hle with
  | refl => exact h
  | step _ ih => exact removeFK_fuel_succ _ _ _ _ _ ih

/-- **C03.**  On every good data object, `remove_foreign_key_failures` terminates without raising, whatever the
shape of the foreign keys (chains, cycles, self references): any number of rounds above the number of rows gives the
same result, that result is a good data object obtained by deleting rows, and `find_foreign_key_failures` finds nothing
in it. -/
theorem remove_fk_terminates_clean {s : Schema} (hs : SchemaOK s) {db : DB V} (hdb : DBOK s db) {fks : List FK}
    (hk : ∀ k ∈ fks, FKOK s k) (hn : fks.Nodup) :
    ∃ db', (∀ fuel, totalRows s db < fuel → removeFK s fks true fuel db = some db') ∧
      DBOK s db' ∧ SubDB s db' db ∧ findFK s fks db' none = some [] := by
  obtain ⟨db', h1, h2, h3, _, h4⟩ := removeFK_run hs hk hn (fun _ => True) (fun _ _ _ => trivial)
    (totalRows s db + 1) db hdb (Nat.lt_succ_self _) trivial
  exact ⟨db', fun fuel hf => removeFK_fuel_mono s fks db db' hf h1, h2, h3, h4⟩

/-- The records of a table got by deleting rows are among the records of the table. -/
theorem rows_sub {ts : TSchema} {a b : TableData V} (h : SubTable a b) :
    ∀ q ∈ rows ts a, ∃ q' ∈ rows ts b, q'.2 = q.2 := by
  intro q hq
  cases a with
  | dict ra =>
    cases b with
    | dict rb =>
      obtain ⟨p, hp, rfl⟩ := List.mem_map.1 hq
      exact ⟨_, List.mem_map.2 ⟨p, (h : List.Sublist ra rb).subset hp, rfl⟩, rfl⟩
    | list rb => exact absurd h (by simp [SubTable])
  | list ra =>
    cases b with
    | dict rb => exact absurd h (by simp [SubTable])
    | list rb =>
      obtain ⟨⟨r, i⟩, hp, rfl⟩ := List.mem_map.1 hq
      rw [List.mk_mem_zipIdx_iff_getElem?] at hp
      obtain ⟨j, hj⟩ := List.mem_iff_getElem?.1 ((h : List.Sublist ra rb).subset (List.mem_of_getElem? hp))
      exact ⟨_, List.mem_map.2 ⟨(r, j), by rw [List.mk_mem_zipIdx_iff_getElem?]; exact hj, rfl⟩, rfl⟩

/-- Deleting foreign rows can only create failures. -/
theorem fails_mono {s : Schema} {a b : DB V} (h : SubDB s a b) {k : FK} (hk : FKOK s k) {r : Rec V}
    (hf : Fails s b k r) : Fails s a k r := by
  intro q hq ha
  obtain ⟨q', hq', he⟩ := rows_sub (h k.foreign hk.foreign_mem) q hq
  exact hf q' hq' (he ▸ ha)

/-- A consistent part of a data object survives a round. -/
theorem sub_filt {s : Schema} (hs : SchemaOK s) {db c : DB V} (hdb : DBOK s db) {fks : List FK}
    (hk : ∀ k ∈ fks, FKOK s k ∧ ForeignDistinct k) (hsub : SubDB s c db) (hcons : Consistent s fks c) :
    SubDB s c (filt s fks db) := by
  intro t ht
  have h := hsub t ht
  have hgood : ∀ (p : PKey V × List V), (p ∈ (db t).items) →
      (∃ q ∈ rows (tableOf s t) (c t), q.2 = recOf (tableOf s t) p.1 p.2) → rowBad s fks db t p = false := by
    rintro p hp ⟨q, hq, he⟩
    simp only [rowBad, List.any_eq_false, Bool.and_eq_true, decide_eq_true_eq, not_and]
    rintro k hkk rfl hf
    rw [failB_iff hs hdb (hk k hkk).1 hp, failsEff_iff (hk k hkk).2] at hf
    exact hcons k hkk q hq (he ▸ fails_mono hsub (hk k hkk).1 hf)
  unfold filt
  cases hd : db t with
  | dict rs =>
    cases hc : c t with
    | list _ => rw [hd, hc] at h; exact absurd h (by simp [SubTable])
    | dict rc =>
      rw [hd, hc] at h
      show List.Sublist rc _
      have h2 := (h : List.Sublist rc rs).filter (fun p => !rowBad s fks db t p)
      rwa [List.filter_eq_self.2] at h2
      intro p hp
      rw [hgood p (by rw [hd]; exact h.subset hp) ⟨(p.1, _), by rw [hc]; exact List.mem_map.2 ⟨p, hp, rfl⟩, rfl⟩]
      rfl
  | list rs =>
    cases hc : c t with
    | dict _ => rw [hd, hc] at h; exact absurd h (by simp [SubTable])
    | list rc =>
      rw [hd, hc] at h
      show List.Sublist rc _
      have h2 := (h : List.Sublist rc rs).filter (fun r => !rowBad s fks db t (.idx 0, r))
      rwa [List.filter_eq_self.2] at h2
      intro r hr
      obtain ⟨i, hi⟩ := List.mem_iff_getElem?.1 (h.subset hr)
      obtain ⟨j, hj⟩ := List.mem_iff_getElem?.1 hr
      have : rowBad s fks db t (.idx i, r) = false := by
        apply hgood
        · rw [hd]
          exact List.mem_map.2 ⟨(r, i), by rw [List.mk_mem_zipIdx_iff_getElem?]; exact hi, rfl⟩
        · rw [hc]
          exact ⟨_, List.mem_map.2 ⟨(r, j), by rw [List.mk_mem_zipIdx_iff_getElem?]; exact hj, rfl⟩, rfl⟩
      have he : rowBad s fks db t (.idx 0, r) = rowBad s fks db t (.idx i, r) := by
        unfold rowBad
        rw [Bool.eq_iff_iff]
        simp only [List.any_eq_true, Bool.and_eq_true, decide_eq_true_eq]
        constructor
        · rintro ⟨k, hkk, rfl, hf⟩
          exact ⟨k, hkk, rfl, by rw [failB_idx hs hdb (hk k hkk).1 hd hi]; exact hf⟩
        · rintro ⟨k, hkk, rfl, hf⟩
          exact ⟨k, hkk, rfl, by rw [← failB_idx hs hdb (hk k hkk).1 hd hi]; exact hf⟩
      rw [he, this]
      rfl

theorem subTable_antisymm {a b : TableData V} (h : SubTable a b) (h' : SubTable b a) : a = b :=
  subTable_antisymm_of_size h (size_le_of_sub h')

theorem consistent_of_clean {s : Schema} (hs : SchemaOK s) {db : DB V} (hdb : DBOK s db) {fks : List FK}
    (hk : ∀ k ∈ fks, FKOK s k ∧ ForeignDistinct k) (hn : fks.Nodup) (h : findFK s fks db none = some []) :
    Consistent s fks db := by
  obtain ⟨d, hd, _, hkey, _⟩ := find_fk_exact hs hdb hk hn
  rw [h] at hd
  obtain rfl := Option.some.inj hd
  intro k hkk p hp hf
  have := (hkey k).2 ⟨hkk, p, hp, hf⟩
  simp [PyDict.keys] at this

/-- **C04.**  The result of `remove_foreign_key_failures` is the largest consistent part of the data: it is obtained by
deleting rows, it has no foreign key failure, and every consistent data object obtained by deleting rows from the input
is obtained by deleting rows from the result.  So no row is deleted that could have stayed, and consistent data is
returned unchanged. -/
theorem remove_fk_greatest {s : Schema} (hs : SchemaOK s) {db : DB V} (hdb : DBOK s db) {fks : List FK}
    (hk : ∀ k ∈ fks, FKOK s k ∧ ForeignDistinct k) (hn : fks.Nodup) :
    ∃ db', (∀ fuel, totalRows s db < fuel → removeFK s fks true fuel db = some db') ∧
      SubDB s db' db ∧ Consistent s fks db' ∧
      (∀ c : DB V, SubDB s c db → Consistent s fks c → SubDB s c db') ∧
      (Consistent s fks db → ∀ t ∈ PyDict.keys s, db' t = db t) := by
  obtain ⟨db', h1, h2, h3, h4, h5⟩ := removeFK_run hs (fun k h => (hk k h).1) hn
    (fun x => ∀ c : DB V, SubDB s c db → Consistent s fks c → SubDB s c x)
    (fun x hx hP c h hc => sub_filt hs hx hk (hP c h hc) hc)
    (totalRows s db + 1) db hdb (Nat.lt_succ_self _) (fun c h _ => h)
  refine ⟨db', fun fuel hf => removeFK_fuel_mono s fks db db' hf h1, h3,
    consistent_of_clean hs h2 hk hn h5, h4, ?_⟩
  intro hc t ht
  exact subTable_antisymm (h3 t ht) (h4 db (subDB_refl s db) hc t ht)

/-- Two consistent parts that both contain every consistent part are the same: C04 determines the result. -/
theorem greatest_unique {s : Schema} {fks : List FK} {db a b : DB V}
    (ha : SubDB s a db ∧ Consistent s fks a ∧ ∀ c, SubDB s c db → Consistent s fks c → SubDB s c a)
    (hb : SubDB s b db ∧ Consistent s fks b ∧ ∀ c, SubDB s c db → Consistent s fks c → SubDB s c b) :
    ∀ t ∈ PyDict.keys s, a t = b t := fun t ht =>
  subTable_antisymm (hb.2.2 a ha.1 ha.2.1 t ht) (ha.2.2 b hb.1 hb.2.1 t ht)

/-! ### Non-vacuity -/

/-- On the diet data removal cascades: the orphan quantities go, and the log row that used one of them too. -/
example : (removeFK dietSchema dietFKs true 20 dietDB).map
    (fun d => ((d "quantities").size, (d "log").items.map Prod.snd, (d "foods").size)) =
    some (1, [[1, 7]], 2) := by decide +kernel

/-- A self-referencing key: the chain `1 → 2 → 3 → (missing)` is removed one row per round; the cycle `8 ↔ 9` stays. -/
example :
    let s : Schema := [("t", ⟨["id"], ["parent"]⟩)]
    let db : DB Nat := fun _ => .dict [(.one 1, [2]), (.one 2, [3]), (.one 3, [4]), (.one 8, [9]), (.one 9, [8])]
    (removeFK s [⟨"t", "t", [("parent", "id")]⟩] true 6 db).map (fun d => (d "t").items) =
      some [(.one 8, [9]), (.one 9, [8])] := by decide +kernel

end Ticdat

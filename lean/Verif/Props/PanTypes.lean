import Verif.Props.DataType
import Verif.Spec.PanTypes
/-!
# C56, C57: data type failures of pandas data objects
-/
set_option linter.unusedSectionVars false
set_option linter.unusedSimpArgs false
namespace Ticdat
open Spec

theorem panBadCell_eq (parses : Cell → Bool) (td : TypeDict) (c : Cell) :
    panBadCell parses td c = !td.validData parses c := by
  unfold panBadCell
  split
  · rename_i h
    cases c <;> simp [Cell.isNull] at h <;> simp [TypeDict.validData, Cell.isNull]
  · rfl

theorem panFlagCells_none (bad : Cell → Bool) (cs : List Cell) (n : Nat) :
    panFlagCells bad none cs n = (cs.map bad, n) := by
  induction cs with
  | nil => rfl
  | cons c cs ih => simp [panFlagCells, ih]

/-- The positions from `k` of the flags that are set. -/
def flaggedFrom (k : Nat) (fl : List Bool) : List Nat := (fl.zipIdx k).filterMap (fun p => if p.1 then some p.2 else none)

theorem flaggedFrom_cons (k : Nat) (b : Bool) (fl : List Bool) :
    flaggedFrom k (b :: fl) = (if b then [k] else []) ++ flaggedFrom (k + 1) fl := by
  unfold flaggedFrom
  cases b <;> simp

theorem flaggedFrom_shift (k : Nat) (fl : List Bool) : flaggedFrom k fl = (flaggedFrom 0 fl).map (· + k) := by
  induction fl generalizing k with
  | nil => rfl
  | cons b fl ih =>
    rw [flaggedFrom_cons, flaggedFrom_cons, ih (k + 1), ih (0 + 1)]
    cases b <;> simp [Function.comp_def, Nat.add_comm, Nat.add_left_comm]

theorem flagged_eq (fl : List Bool) : flagged fl = flaggedFrom 0 fl := by
  induction fl with
  | nil => rfl
  | cons b fl ih =>
    rw [flaggedFrom_cons, flaggedFrom_shift (0 + 1), ← ih]
    unfold flagged
    rw [List.length_cons, List.range_succ_eq_map, List.filter_cons, List.filter_map]
    have h : (fun i => decide ((b :: fl)[i]? = some true)) ∘ Nat.succ = (fun i => decide (fl[i]? = some true)) := by
      funext i; simp
    rw [h]
    cases b <;> simp

theorem flaggedFrom_nil_iff (k : Nat) (fl : List Bool) : flaggedFrom k fl = [] ↔ fl.any id = false := by
  induction fl generalizing k with
  | nil => simp [flaggedFrom]
  | cons b fl ih => rw [flaggedFrom_cons]; cases b <;> simp [ih]

theorem panFlagCells_some (bad : Cell → Bool) (m : Nat) (cs : List Cell) (n k : Nat) (hn : n ≤ m) :
    (panFlagCells bad (some m) cs n).1.length = cs.length ∧
    flaggedFrom k (panFlagCells bad (some m) cs n).1 = (flaggedFrom k (cs.map bad)).take (m - n) ∧
    (panFlagCells bad (some m) cs n).2 = n + (flaggedFrom k (panFlagCells bad (some m) cs n).1).length := by
  induction cs generalizing n k with
  | nil => simp [panFlagCells, flaggedFrom]
  | cons c cs ih =>
    unfold panFlagCells
    simp only
    split
    · rename_i h
      obtain ⟨h0, h1, h2⟩ := ih n (k + 1) hn
      have hz : m - n = 0 := by omega
      simp only [List.length_cons, flaggedFrom_cons, h0, h1, h2, hz]
      simp [h1, hz]
    · rename_i h
      by_cases hb : bad c = true
      · obtain ⟨h0, h1, h2⟩ := ih (n + 1) (k + 1) (by omega)
        simp only [hb, if_true, List.length_cons, flaggedFrom_cons, List.map_cons, h0, h1, h2]
        have : m - n = (m - (n + 1)) + 1 := by omega
        rw [this]
        simp only [List.cons_append, List.nil_append, List.take_succ_cons, true_and, List.length_cons]
        omega
      · have hb' : bad c = false := by simpa using hb
        obtain ⟨h0, h1, h2⟩ := ih n (k + 1) hn
        simp only [hb', Bool.false_eq_true, if_false, List.length_cons, flaggedFrom_cons, List.map_cons, h0, h1, h2,
          List.nil_append, true_and]

/-- The result of the loop without a limit. -/
def panTypeAll (parses : Cell → Bool) (db : PanDB Cell) (types : List (String × String × TypeDict)) :
    List ((String × String) × List Bool) :=
  types.flatMap (fun x =>
    let fl := (db x.1).map (fun r => (r x.2.1).any (panBadCell parses x.2.2))
    if fl.any id then [((x.1, x.2.1), fl)] else [])

theorem cells_exist {rows : List (PRow Cell)} {f : String} (h : ∀ r ∈ rows, ∃ v, r f = some v) :
    ∃ cells, rows.mapM (fun r => r f) = some cells ∧
      ∀ bad : Cell → Bool, cells.map bad = rows.map (fun r => (r f).any bad) := by
  induction rows with
  | nil => exact ⟨[], rfl, fun _ => rfl⟩
  | cons r rows ih =>
    obtain ⟨cells, h1, h2⟩ := ih (fun r' hr' => h r' (List.mem_cons_of_mem _ hr'))
    obtain ⟨v, hv⟩ := h r List.mem_cons_self
    exact ⟨v :: cells, by simp [List.mapM_cons, hv, h1], fun bad => by simp [h2 bad, hv]⟩

theorem panTypeLoop_none {parses : Cell → Bool} {db : PanDB Cell} (types : List (String × String × TypeDict))
    (h : ∀ x ∈ types, ∀ r ∈ db x.1, ∃ v, r x.2.1 = some v) (n : Nat) :
    panTypeLoop parses db none types n = some (panTypeAll parses db types) := by
  induction types with
  | nil => rfl
  | cons x types ih =>
    obtain ⟨t, f, td⟩ := x
    obtain ⟨cells, h1, h2⟩ := cells_exist (h _ List.mem_cons_self)
    have ih' := ih (fun y hy => h y (List.mem_cons_of_mem _ hy))
    simp only [panTypeLoop, h1, panFlagCells_none, Option.bind_eq_bind, Option.bind_some, tripsEnd, Bool.false_eq_true,
      if_false, ih', h2 (panBadCell parses td), Option.pure_def]
    rfl

theorem panTypeLoop_some {parses : Cell → Bool} {db : PanDB Cell} (m : Nat) (types : List (String × String × TypeDict))
    (h : ∀ x ∈ types, ∀ r ∈ db x.1, ∃ v, r x.2.1 = some v) (n : Nat) (hn : n < m) :
    ∃ d, panTypeLoop parses db (some m) types n = some d ∧
      reported d = (reported (panTypeAll parses db types)).take (m - n) ∧
      (∀ p ∈ d, p.2.any id = true ∧ p.2.length = (db p.1.1).length) := by
  induction types generalizing n with
  | nil => exact ⟨[], rfl, by simp [reported, panTypeAll], by simp⟩
  | cons x types ih =>
    obtain ⟨t, f, td⟩ := x
    obtain ⟨cells, h1, h2⟩ := cells_exist (h _ List.mem_cons_self)
    have hlen : cells.length = (db t).length := by
      have := congrArg List.length (h2 (fun _ => true))
      simpa using this
    have h2' := h2 (panBadCell parses td)
    obtain ⟨g0, g1, g2⟩ := panFlagCells_some (panBadCell parses td) m cells n 0 (by omega)
    rw [h2'] at g1
    simp only [panTypeLoop, h1, Option.bind_eq_bind, Option.bind_some, Option.pure_def]
    cases hp : panFlagCells (panBadCell parses td) (some m) cells n with
    | mk fl n' =>
    rw [hp] at g0 g1 g2
    simp only at g0 g1 g2
    have hrep : ∀ fl : List Bool, reported (if fl.any id then [((t, f), fl)] else []) = (flaggedFrom 0 fl).map (fun i => ((t, f), i)) := by
      intro fl
      by_cases ha : fl.any id = true
      · simp [ha, reported, flagged_eq]
      · have : fl.any id = false := by simpa using ha
        rw [(flaggedFrom_nil_iff 0 fl).2 this]
        simp [this, reported]
    have happ : ∀ a b, reported (a ++ b) = reported a ++ reported b := by
      intro a b; simp [reported]
    have hall : reported (panTypeAll parses db ((t, f, td) :: types)) =
        (flaggedFrom 0 ((db t).map (fun r => (r f).any (panBadCell parses td)))).map (fun i => ((t, f), i)) ++
          reported (panTypeAll parses db types) := by
      rw [panTypeAll, List.flatMap_cons, happ]
      simp only [hrep]
      rfl
    have hentry : ∀ p ∈ (if fl.any id then [((t, f), fl)] else []), p.2.any id = true ∧ p.2.length = (db p.1.1).length := by
      intro p hp'
      split at hp'
      · rename_i ha
        simp only [List.mem_cons, List.not_mem_nil, or_false] at hp'
        subst hp'
        exact ⟨ha, g0.trans hlen⟩
      · simp at hp'
    simp only [tripsEnd, decide_eq_true_eq]
    have hl : (flaggedFrom 0 fl).length ≤ (flaggedFrom 0 ((db t).map (fun r => (r f).any (panBadCell parses td)))).length := by
      rw [g1]; simp only [List.length_take]; omega
    have hl2 : (flaggedFrom 0 fl).length = min (m - n) (flaggedFrom 0 ((db t).map (fun r => (r f).any (panBadCell parses td)))).length := by
      rw [g1]; simp only [List.length_take]
    by_cases hstop : m ≤ n'
    · rw [if_pos hstop]
      refine ⟨_, rfl, ?_, hentry⟩
      rw [hrep, hall, g1, List.take_append, List.map_take]
      have : m - n - ((flaggedFrom 0 ((db t).map (fun r => (r f).any (panBadCell parses td)))).map
        (fun i => (((t, f), i) : (String × String) × Nat))).length = 0 := by
        simp only [List.length_map]; omega
      rw [this]
      simp
    · rw [if_neg hstop]
      obtain ⟨d, k1, k2, k3⟩ := ih (fun y hy => h y (List.mem_cons_of_mem _ hy)) n' (by omega)
      refine ⟨_, by rw [k1]; rfl, ?_, ?_⟩
      · rw [happ, hrep, hall, k2, List.take_append, g1, List.map_take]
        congr 2
        simp only [List.length_map]
        omega
      · intro p hp'
        rcases List.mem_append.1 hp' with hp' | hp'
        · exact hentry p hp'
        · exact k3 p hp'

theorem mem_trueTypes {s : Schema} (hs : SchemaOK s) {dts : DataTypes} (hd : TypesOK s dts) (t f : String) (td : TypeDict) :
    (t, f, td) ∈ trueTypes s dts ↔ effType s dts t f = some td := by
  obtain ⟨hok, hat⟩ := tmpTypes_spec hs hd
  rw [← hat, ← mem_types_iff hok]
  simp only [trueTypes, List.mem_flatMap, List.mem_map, Prod.mk.injEq, Prod.exists]
  constructor
  · rintro ⟨a, b, h1, c, e, h2, rfl, rfl, rfl⟩; exact ⟨b, h1, h2⟩
  · rintro ⟨r, h1, h2⟩; exact ⟨t, r, h1, f, td, h2, rfl, rfl, rfl⟩

theorem trueTypes_nodup {s : Schema} (hs : SchemaOK s) {dts : DataTypes} (hd : TypesOK s dts) :
    ((trueTypes s dts).map (fun x => (x.1, x.2.1))).Nodup := by
  obtain ⟨hok, _⟩ := tmpTypes_spec hs hd
  have h1 := hok.tables_nodup
  have h2 := hok.fields_nodup
  unfold trueTypes
  generalize tmpTypes s dts = d at h1 h2
  clear hok
  induction d with
  | nil => simp
  | cons p d ih =>
    obtain ⟨t, r⟩ := p
    simp only [PyDict.keys, List.map_cons, List.nodup_cons] at h1
    rw [List.flatMap_cons, List.map_append, List.nodup_append]
    refine ⟨?_, ih h1.2 (fun t r h => h2 t r (List.mem_cons_of_mem _ h)), ?_⟩
    · have := h2 t r List.mem_cons_self
      rw [List.map_map]
      unfold PyDict.keys at this
      unfold List.Nodup at *
      rw [List.pairwise_map] at *
      exact this.imp (fun h e => h (Prod.mk.inj e).2)
    · rintro ⟨a, b⟩ ha ⟨a', b'⟩ hb he
      simp only [List.mem_map, Prod.mk.injEq, Prod.exists, List.mem_flatMap] at ha hb
      obtain ⟨_, _, _, ⟨_, _, _, rfl, _, _⟩, rfl, _⟩ := ha
      obtain ⟨x, _, _, ⟨t', r', hm, _, _, _, rfl, _, _⟩, rfl, _⟩ := hb
      rw [(Prod.mk.inj he).1] at h1
      exact h1.1 (List.mem_map.2 ⟨_, hm, rfl⟩)

theorem panCols {s : Schema} (hs : SchemaOK s) {dts : DataTypes} (hd : TypesOK s dts) {db : PanDB Cell} (hdb : PanOK s db) :
    ∀ x ∈ trueTypes s dts, ∀ r ∈ db x.1, ∃ v, r x.2.1 = some v := by
  rintro ⟨t, f, td⟩ hx r hr
  obtain ⟨h1, h2⟩ := effType_fields hd ((mem_trueTypes hs hd t f td).1 hx)
  exact hdb t h1 r hr f h2

theorem panTypeAll_keys (parses : Cell → Bool) (db : PanDB Cell) (types : List (String × String × TypeDict)) :
    (PyDict.keys (panTypeAll parses db types)).Sublist (types.map (fun x => (x.1, x.2.1))) := by
  unfold panTypeAll PyDict.keys
  induction types with
  | nil => simp
  | cons x types ih =>
    rw [List.flatMap_cons, List.map_append, List.map_cons]
    simp only
    split
    · exact ih.cons₂ _
    · exact ih.cons _

theorem mem_panTypeAll (parses : Cell → Bool) (db : PanDB Cell) (types : List (String × String × TypeDict))
    (t f : String) (fl : List Bool) : ((t, f), fl) ∈ panTypeAll parses db types ↔
      ∃ td, (t, f, td) ∈ types ∧ fl = (db t).map (fun r => (r f).any (panBadCell parses td)) ∧ fl.any id = true := by
  unfold panTypeAll
  simp only [List.mem_flatMap, Prod.exists]
  constructor
  · rintro ⟨t', f', td, hm, h⟩
    split at h
    · rename_i ha
      simp only [List.mem_cons, List.not_mem_nil, or_false, Prod.mk.injEq] at h
      obtain ⟨⟨rfl, rfl⟩, rfl⟩ := h
      exact ⟨td, hm, rfl, ha⟩
    · simp at h
  · rintro ⟨td, hm, rfl, ha⟩
    exact ⟨t, f, td, hm, by rw [if_pos ha]; simp⟩

theorem bad_any_iff {parses : Cell → Bool} {s : Schema} {dts : DataTypes} {t f : String} {td : TypeDict}
    (h : effType s dts t f = some td) (r : PRow Cell) :
    (r f).any (panBadCell parses td) = true ↔ PanBad parses s dts t f r := by
  unfold PanBad
  simp only [← effType_bad, h, Option.some.injEq, exists_eq_left', Option.any_eq_true, panBadCell_eq]
  constructor
  · rintro ⟨c, hc, hb⟩; exact ⟨c, hc, by simpa using hb⟩
  · rintro ⟨c, hc, hb⟩; exact ⟨c, hc, by simpa using hb⟩

/-- **C56.**  On every good pandas data object `find_data_type_failures` does not raise and is exact: `(table, field)` is a
key iff some row of the table has a bad value in that field, and the flags, one for each row, mark exactly those rows. -/
theorem pan_types_exact {parses : Cell → Bool} {s : Schema} (hs : SchemaOK s) {dts : DataTypes} (hd : TypesOK s dts)
    {db : PanDB Cell} (hdb : PanOK s db) :
    ∃ d, panFindTypes parses s dts db none = some d ∧ (PyDict.keys d).Nodup ∧
      (∀ t f, (t, f) ∈ PyDict.keys d ↔ ∃ r ∈ db t, PanBad parses s dts t f r) ∧
      (∀ t f fl, PyDict.get? d (t, f) = some fl → fl.length = (db t).length ∧
        ∀ (i : Nat) r, (db t)[i]? = some r → (fl[i]? = some true ↔ PanBad parses s dts t f r)) := by
  refine ⟨_, panTypeLoop_none _ (panCols hs hd hdb) 0, (panTypeAll_keys _ _ _).nodup (trueTypes_nodup hs hd), ?_, ?_⟩
  · intro t f
    constructor
    · intro h
      obtain ⟨⟨tf, fl⟩, hm, rfl⟩ := List.mem_map.1 h
      obtain ⟨td, h1, rfl, h3⟩ := (mem_panTypeAll _ _ _ _ _ _).1 hm
      obtain ⟨b, hb, hbt⟩ := List.any_eq_true.1 h3
      obtain ⟨r, hr, rfl⟩ := List.mem_map.1 hb
      exact ⟨r, hr, (bad_any_iff ((mem_trueTypes hs hd _ _ _).1 h1) r).1 hbt⟩
    · rintro ⟨r, hr, hb⟩
      obtain ⟨v, hv, hbc⟩ := id hb
      obtain ⟨td, htd, _⟩ := effType_bad.2 hbc
      refine List.mem_map.2 ⟨((t, f), _), (mem_panTypeAll _ _ _ _ _ _).2 ⟨td, (mem_trueTypes hs hd _ _ _).2 htd, rfl, ?_⟩, rfl⟩
      rw [List.any_eq_true]
      exact ⟨_, List.mem_map.2 ⟨r, hr, rfl⟩, (bad_any_iff htd r).2 hb⟩
  · intro t f fl hg
    obtain ⟨td, h1, rfl, _⟩ := (mem_panTypeAll _ _ _ _ _ _).1 (PyDict.get?_mem hg)
    refine ⟨by simp, fun i r hr => ?_⟩
    rw [List.getElem?_map, hr]
    simp only [Option.map_some, Option.some.injEq]
    exact bad_any_iff ((mem_trueTypes hs hd _ _ _).1 h1) r

/-- **C56, limit.**  With `max_failures = n ≥ 1` exactly the first `n` bad cells are reported, in the order in which the
unlimited call reports them. -/
theorem pan_types_max_failures {parses : Cell → Bool} {s : Schema} (hs : SchemaOK s) {dts : DataTypes} (hd : TypesOK s dts)
    {db : PanDB Cell} (hdb : PanOK s db) (n : Nat) (hpos : 0 < n) :
    ∃ d dAll, panFindTypes parses s dts db (some n) = some d ∧ panFindTypes parses s dts db none = some dAll ∧
      reported d = (reported dAll).take n ∧
      (∀ p ∈ d, p.2.any id = true ∧ p.2.length = (db p.1.1).length) := by
  obtain ⟨d, h1, h2, h3⟩ := panTypeLoop_some (parses := parses) n _ (panCols hs hd hdb) 0 hpos
  exact ⟨d, _, h1, panTypeLoop_none _ (panCols hs hd hdb) 0, by simpa using h2, h3⟩

/-- **C56, agreement.**  On the DataFrames with the same rows, the pandas factory reports the same `(table, field)` pairs as
`TicDatFactory.find_data_type_failures`, and flags a row iff the latter lists its primary key. -/
theorem pan_types_same_as_ticdat {parses : Cell → Bool} {s : Schema} (hs : SchemaOK s) {dts : DataTypes} (hd : TypesOK s dts)
    {db : DB Cell} (hdb : DBOK s db) :
    ∃ d p, findTypes parses s dts db none = some d ∧ panFindTypes parses s dts (toPan s db) none = some p ∧
      (∀ t f, (t, f) ∈ PyDict.keys d ↔ (t, f) ∈ PyDict.keys p) ∧
      ∀ t f vs pks fl, PyDict.get? d (t, f) = some (vs, pks) → PyDict.get? p (t, f) = some fl →
        ∀ (i : Nat) pk r, (rows (tableOf s t) (db t))[i]? = some (pk, r) → (fl[i]? = some true ↔ pk ∈ pks) := by
  have hpan : PanOK s (toPan s db) := by
    intro t ht r hr f hf
    simp only [toPan, ht, if_true] at hr
    obtain ⟨⟨pk, r'⟩, hm, rfl⟩ := List.mem_map.1 hr
    rw [rows_eq_items] at hm
    obtain ⟨q, hq, e⟩ := List.mem_map.1 hm
    have hrow := rowOK_of_items (tableOK_of_mem hs hdb ht) hq
    simp only [Prod.mk.injEq] at e
    obtain ⟨_, rfl⟩ := e
    exact Option.isSome_iff_exists.1 (recOf_isSome hrow hf)
  obtain ⟨d, h1, h2, h3, h4⟩ := find_types_exact (parses := parses) hs hd hdb
  obtain ⟨p, g1, g2, g3, g4⟩ := pan_types_exact (parses := parses) hs hd hpan
  refine ⟨d, p, h1, g1, ?_, ?_⟩
  · intro t f
    rw [h3, g3]
    constructor
    · rintro ⟨q, hq, v, hv, hb⟩
      obtain ⟨td, he, _⟩ := effType_bad.2 hb
      have ht := (effType_fields hd he).1
      exact ⟨q.2, by simp only [toPan, ht, if_true]; exact List.mem_map.2 ⟨q, hq, rfl⟩, v, hv, hb⟩
    · rintro ⟨r, hr, v, hv, hb⟩
      simp only [toPan] at hr
      split at hr
      · obtain ⟨q, hq, rfl⟩ := List.mem_map.1 hr
        exact ⟨q, hq, v, hv, hb⟩
      · simp at hr
  · intro t f vs pks fl hg hp i pk r hi
    obtain ⟨_, k1, _⟩ := h4 t f vs pks hg
    have ht : t ∈ PyDict.keys s := by
      obtain ⟨r0, hr0, _⟩ := (g3 t f).1 (List.mem_map.2 ⟨_, PyDict.get?_mem hp, rfl⟩)
      simp only [toPan] at hr0
      split at hr0
      · rename_i ht; exact ht
      · simp at hr0
    have hi' : (toPan s db t)[i]? = some r := by
      simp only [toPan, ht, if_true, List.getElem?_map, hi, Option.map_some]
    rw [(g4 t f fl hp).2 i r hi', k1]
    constructor
    · rintro ⟨v, hv, hb⟩
      exact ⟨r, v, List.mem_of_getElem? hi, hv, hb⟩
    · rintro ⟨r', v, hm, hv, hb⟩
      have hr := List.mem_of_getElem? hi
      rw [rows_eq_items] at hr hm
      obtain ⟨p1, hp1, e1⟩ := List.mem_map.1 hr
      obtain ⟨p2, hp2, e2⟩ := List.mem_map.1 hm
      have hpp : p1 = p2 := by
        have hknd := items_keys_nodup (tableOK_of_mem hs hdb ht)
        have a1 := PyDict.get?_of_mem (d := (db t).items) hknd (k := p1.1) (v := p1.2) hp1
        have a2 := PyDict.get?_of_mem (d := (db t).items) hknd (k := p2.1) (v := p2.2) hp2
        simp only [Prod.mk.injEq] at e1 e2
        have : p1.1 = p2.1 := e1.1.trans e2.1.symm
        rw [this, a2] at a1
        exact Prod.ext this (Option.some.inj a1).symm
      subst hpp
      rw [e1] at e2
      rw [(Prod.mk.inj e2).2]
      exact ⟨v, hv, hb⟩

end Ticdat

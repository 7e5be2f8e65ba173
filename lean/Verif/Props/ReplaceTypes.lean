import Verif.Props.DataType
/-!
# C12: `replace_data_type_failures` repairs exactly the bad data cells
-/
set_option linter.unusedSimpArgs false
set_option linter.unusedSectionVars false
namespace Ticdat
open Spec

section mapItems
variable {V : Type} [DecidableEq V]

theorem items_mapItems (g : PKey V → List V → List V) (td : TableData V) :
    (td.mapItems g).items = td.items.map (fun p => (p.1, g p.1 p.2)) := by
  cases td with
  | dict rs => rfl
  | list rs =>
    simp only [TableData.mapItems, TableData.items, List.map_map]
    apply List.ext_getElem
    · simp
    · intro i h1 h2
      simp

theorem mapItems_congr {g h : PKey V → List V → List V} {td : TableData V}
    (he : ∀ p ∈ td.items, g p.1 p.2 = h p.1 p.2) : td.mapItems g = td.mapItems h := by
  cases td with
  | dict rs =>
    simp only [TableData.mapItems, TableData.dict.injEq]
    apply List.map_congr_left
    intro p hp
    rw [he p hp]
  | list rs =>
    simp only [TableData.mapItems, TableData.list.injEq]
    apply List.ext_getElem
    · simp
    · intro i h1 h2
      simp only [List.getElem_mapIdx]
      have hi : i < rs.length := by simpa using h1
      apply he (.idx i, rs[i])
      simp only [TableData.items, List.mem_map]
      exact ⟨(rs[i], i), List.mem_zipIdx_iff_getElem?.2 (by simp [List.getElem?_eq_getElem hi]), rfl⟩

theorem mapItems_comp (g h : PKey V → List V → List V) (td : TableData V) :
    (td.mapItems g).mapItems h = td.mapItems (fun k r => h k (g k r)) := by
  cases td with
  | dict rs => simp [TableData.mapItems]
  | list rs => simp [TableData.mapItems, List.mapIdx_mapIdx, Function.comp_def]

theorem mapItems_id (td : TableData V) : td.mapItems (fun _ r => r) = td := by
  cases td with
  | dict rs => simp [TableData.mapItems]
  | list rs =>
    simp only [TableData.mapItems, TableData.list.injEq]
    apply List.ext_getElem <;> simp

theorem tableOK_mapItems {ts : TSchema} {td : TableData V} (h : TableOK ts td) (g : PKey V → List V → List V)
    (hl : ∀ p ∈ td.items, (g p.1 p.2).length = ts.dfs.length) : TableOK ts (td.mapItems g) := by
  cases td with
  | dict rs =>
    obtain ⟨h1, h2, h3⟩ := h
    refine ⟨h1, ?_, ?_⟩
    · simpa [List.map_map, Function.comp_def] using h2
    · intro p hp
      obtain ⟨q, hq, rfl⟩ := List.mem_map.1 hp
      exact ⟨(h3 q hq).1, hl q hq⟩
  | list rs =>
    refine ⟨h.1, ?_⟩
    intro r hr
    simp only [List.mem_mapIdx] at hr
    obtain ⟨i, hi, rfl⟩ := hr
    apply hl (.idx i, rs[i])
    simp only [TableData.items, List.mem_map]
    exact ⟨(rs[i], i), List.mem_zipIdx_iff_getElem?.2 (by simp [List.getElem?_eq_getElem hi]), rfl⟩

end mapItems

/-- A data object with the cells at the places `S` set by `R`. -/
def updCells (s : Schema) (R : String → String → Cell) (S : List ((String × String) × PKey Cell)) (db : DB Cell) :
    DB Cell :=
  fun t => (db t).mapItems (fun k r => List.zipWith (fun f v => if ((t, f), k) ∈ S then R t f else v) (s.dfs t) r)

theorem zipWith_set {s : Schema} (dfs : List String) (hn : dfs.Nodup) (r : List Cell) (hr : r.length = dfs.length)
    (P Q : String → Prop) [DecidablePred P] [DecidablePred Q] (R : String → Cell) (f : String) (hf : f ∈ dfs)
    (hPQ : ∀ g, Q g ↔ P g ∨ g = f) :
    (List.zipWith (fun g v => if P g then R g else v) dfs r).set (dfs.idxOf f) (R f) =
      List.zipWith (fun g v => if Q g then R g else v) dfs r := by
  apply List.ext_getElem
  · simp
  · intro i h1 h2
    have hi : i < dfs.length := by simp at h2; omega
    rw [List.getElem_set]
    simp only [List.getElem_zipWith]
    by_cases he : dfs.idxOf f = i
    · subst he
      simp [hPQ]
    · have hne : dfs[i] ≠ f := by
        intro e
        apply he
        rw [← e]
        exact hn.idxOf_getElem i hi
      simp [he, hPQ, hne]

theorem setCell_updCells {s : Schema} (hs : SchemaOK s) {db : DB Cell}
    (hlen : ∀ t, ∀ p ∈ (db t).items, p.2.length = (s.dfs t).length)
    {R : String → String → Cell} {S : List ((String × String) × PKey Cell)} {t f : String} {pk : PKey Cell}
    (hf : f ∈ s.dfs t) (hpk : pk ∈ (db t).items.map Prod.fst) :
    setCell s (updCells s R S db) t pk f (R t f) = some (updCells s R (S ++ [((t, f), pk)]) db) := by
  unfold setCell
  have hany : ((updCells s R S db t).items.any (fun p => decide (p.1 = pk))) = true := by
    unfold updCells
    rw [items_mapItems, List.any_eq_true]
    obtain ⟨p, hp, e⟩ := List.mem_map.1 hpk
    exact ⟨_, List.mem_map.2 ⟨p, hp, rfl⟩, by simp [e]⟩
  rw [if_pos ⟨hany, hf⟩]
  congr 1
  funext t'
  by_cases ht : t' = t
  · subst ht
    simp only [if_true]
    unfold updCells
    rw [mapItems_comp]
    apply mapItems_congr
    intro p hp
    have hn := (List.nodup_append.1 (hs.fields_nodup t')).2.1
    by_cases hk : p.1 = pk
    · simp only [hk, if_true]
      exact zipWith_set (s := s) (s.dfs t') hn p.2 (hlen t' p hp) (fun g => ((t', g), pk) ∈ S)
        (fun g => ((t', g), pk) ∈ S ++ [((t', f), pk)]) (fun g => R t' g) f hf (by intro g; simp)
    · simp [hk]
  · simp only [ht, if_false]
    unfold updCells
    apply mapItems_congr
    intro p hp
    simp [ht]

theorem applyAll_updCells {s : Schema} (hs : SchemaOK s) {db : DB Cell}
    (hlen : ∀ t, ∀ p ∈ (db t).items, p.2.length = (s.dfs t).length) {R : String → String → Cell}
    (ops : List ((String × String) × PKey Cell × Cell))
    (hops : ∀ o ∈ ops, o.1.2 ∈ s.dfs o.1.1 ∧ o.2.1 ∈ (db o.1.1).items.map Prod.fst ∧ o.2.2 = R o.1.1 o.1.2)
    (S : List ((String × String) × PKey Cell)) :
    applyAll s ops (updCells s R S db) = some (updCells s R (S ++ ops.map (fun o => (o.1, o.2.1))) db) := by
  induction ops generalizing S with
  | nil => simp [applyAll]
  | cons o ops ih =>
    obtain ⟨⟨t, f⟩, pk, v⟩ := o
    obtain ⟨h1, h2, h3⟩ := hops _ List.mem_cons_self
    simp only at h1 h2 h3
    subst h3
    rw [applyAll, setCell_updCells hs hlen h1 h2]
    simp only [Option.bind_eq_bind, Option.bind_some]
    rw [ih (fun o ho => hops o (List.mem_cons_of_mem _ ho))]
    simp

theorem recOf_updCells {s : Schema} {db : DB Cell} {R : String → String → Cell}
    {S : List ((String × String) × PKey Cell)} {t : String} {pk : PKey Cell} {row : List Cell}
    (hrow : RowOK (tableOf s t) pk row) (f : String) :
    recOf (tableOf s t) pk (List.zipWith (fun f v => if ((t, f), pk) ∈ S then R t f else v) (s.dfs t) row) f =
      if f ∉ s.pks t ∧ f ∈ s.dfs t ∧ ((t, f), pk) ∈ S then some (R t f) else recOf (tableOf s t) pk row f := by
  have hl : row.length = (s.dfs t).length := hrow.2.1
  have hrow' : RowOK (tableOf s t) pk
      (List.zipWith (fun f v => if ((t, f), pk) ∈ S then R t f else v) (s.dfs t) row) := by
    refine ⟨hrow.1, ?_, hrow.2.2⟩
    simp [tableOf, hl]
  by_cases hp : f ∈ s.pks t
  · rw [recOf_pk hrow' hp, recOf_pk hrow hp]
    simp [hp]
  · by_cases hd : f ∈ s.dfs t
    · rw [recOf_df hrow' hp hd, recOf_df hrow hp hd]
      have hi : (s.dfs t).idxOf f < (s.dfs t).length := List.idxOf_lt_length_iff.2 hd
      have hi2 : (s.dfs t).idxOf f < row.length := by rw [hl]; exact hi
      simp only [tableOf, hp, hd, not_false_eq_true, true_and, List.getElem?_zipWith, List.getElem?_eq_getElem hi,
        List.getElem?_eq_getElem hi2, List.getElem_idxOf hi]
      split <;> rfl
    · have : ∀ row', row'.length = (s.dfs t).length → recOf (tableOf s t) pk row' f = none := by
        intro row' h'
        have h1 := hrow.1
        simp only [tableOf] at h1
        simp [recOf, tableOf, lookup_append, lookup_zip (s.pks t) (keyVals pk) f h1.symm, hp,
          lookup_zip (s.dfs t) row' f h'.symm, hd]
      rw [this _ (by simp [hl]), this _ hl]
      simp [hd]

theorem get?_lookup_pair {V : Type} (d : PyDict (String × String) V) (k : String × String) :
    PyDict.get? d k = d.lookup k := by
  induction d with
  | nil => rfl
  | cons p d ih =>
    obtain ⟨a, b⟩ := p
    by_cases h : a = k
    · subst h; simp [PyDict.get?]
    · have : (k == a) = false := by
        rw [beq_eq_false_iff_ne]; exact Ne.symm h
      simp [PyDict.get?, h, List.lookup_cons, this, ih]

theorem replacementFor_eq (defaults : PyDict String (PyDict String Cell)) (repl : PyDict (String × String) Cell)
    (t f : String) : replacementFor defaults repl t f = replacement defaults repl t f := by
  unfold replacementFor replacement
  rw [get?_lookup_pair, get?_eq_lookup]
  cases repl.lookup (t, f) with
  | some v => rfl
  | none =>
    cases h : defaults.lookup t with
    | none => rfl
    | some r => simp [get?_eq_lookup]; cases r.lookup f <;> rfl

theorem realReplacements_get {s : Schema} {dts : DataTypes} (hd : TypesOK s dts)
    (defaults : PyDict String (PyDict String Cell)) (repl : PyDict (String × String) Cell) (t f : String) (v : Cell) :
    PyDict.get? (realReplacements s dts defaults repl) (t, f) = some v ↔
      (typeOf dts t f).isSome ∧ f ∉ s.pks t ∧ v = replacement defaults repl t f := by
  have hmem : ∀ t f v, ((t, f), v) ∈ realReplacements s dts defaults repl ↔
      (typeOf dts t f).isSome ∧ f ∉ s.pks t ∧ v = replacement defaults repl t f := by
    intro t f v
    rw [← at_eq_typeOf]
    simp only [realReplacements, List.mem_flatMap, List.mem_map, List.mem_filter, decide_eq_true_eq, Prod.mk.injEq,
      replacementFor_eq]
    constructor
    · rintro ⟨⟨t', r⟩, h1, ⟨f', td⟩, ⟨h2, h3⟩, ⟨rfl, rfl⟩, rfl⟩
      refine ⟨?_, h3, rfl⟩
      rw [(mem_types_iff hd t' f' td).1 ⟨r, h1, h2⟩]
      rfl
    · rintro ⟨h1, h2, rfl⟩
      obtain ⟨td, htd⟩ := Option.isSome_iff_exists.1 h1
      obtain ⟨r, g1, g2⟩ := (mem_types_iff hd t f td).2 htd
      exact ⟨(t, r), g1, (f, td), ⟨g2, h2⟩, ⟨rfl, rfl⟩, rfl⟩
  constructor
  · intro h
    exact (hmem t f v).1 (PyDict.get?_mem h)
  · intro h
    have hm := (hmem t f v).2 h
    cases hg : PyDict.get? (realReplacements s dts defaults repl) (t, f) with
    | none => exact absurd (List.mem_map.2 ⟨_, hm, rfl⟩) ((PyDict.get?_eq_none _ _).1 hg)
    | some w =>
      rw [((hmem t f w).1 (PyDict.get?_mem hg)).2.2, h.2.2]

/-- The call is refused: a replacement is given for something that is not a data field of the schema, or a field with a
bad cell has an invalid replacement. -/
def Refusal (parses : Cell → Bool) (s : Schema) (dts : DataTypes) (defaults : PyDict String (PyDict String Cell))
    (repl : PyDict (String × String) Cell) (db : DB Cell) : Prop :=
  (∃ p ∈ repl, ¬ (p.1.1 ∈ PyDict.keys s ∧ p.1.2 ∈ s.dfs p.1.1)) ∨
  (∃ t f td, typeOf dts t f = some td ∧ f ∈ s.dfs t ∧
    (∃ p ∈ rows (tableOf s t) (db t), ∃ v, p.2 f = some v ∧ ¬ Valid parses td v) ∧
    ¬ Valid parses td (replacement defaults repl t f))

/-- The assignments `replaceTypes` makes. -/
def replOps (rr : PyDict (String × String) Cell) (d : PyDict (String × String) (List Cell × List (PKey Cell))) :
    List ((String × String) × PKey Cell × Cell) :=
  d.flatMap (fun n => match PyDict.get? rr n.1 with
    | some v => n.2.2.map (fun pk => (n.1, pk, v))
    | none => [])

theorem replaceTypes_unfold {parses : Cell → Bool} {s : Schema} {dts : DataTypes}
    {defaults : PyDict String (PyDict String Cell)} {repl : PyDict (String × String) Cell} {db : DB Cell}
    (h0 : ¬ repl.any (fun p => !(decide (p.1.1 ∈ PyDict.keys s) && decide (p.1.2 ∈ s.dfs p.1.1))) = true)
    {d : PyDict (String × String) (List Cell × List (PKey Cell))}
    (hfd : findTypes parses s dts db none = some d) (hdne : d ≠ []) :
    replaceTypes parses s dts defaults repl db =
      if (realReplacements s dts defaults repl).any (fun p => (PyDict.get? d p.1).isSome &&
        !(match DataTypes.at dts p.1.1 p.1.2 with
          | some td => td.validData parses p.2
          | none => true)) = true then .refused
      else
        match applyAll s (replOps (realReplacements s dts defaults repl) d) db with
        | none => .crashed
        | some db' =>
          match findTypes parses s dts db' none with
          | none => .crashed
          | some left =>
            if left.any (fun n => (PyDict.get? (realReplacements s dts defaults repl) n.1).isSome) = true then .crashed
            else .done db' := by
  unfold replaceTypes
  rw [if_neg h0, hfd]
  cases d with
  | nil => exact absurd rfl hdne
  | cons n d => rfl

/-- **C12.**  `replace_data_type_failures` never crashes on a good data object.  It refuses exactly when an irrelevant
replacement is given or a replacement that is needed is itself invalid.  Otherwise every table has the same rows (keys,
in the same order) as before; in each row, each repairable cell holds the replacement and every other cell (so every valid
cell and every primary key field) is unchanged; no data field with a type has a bad value any more; and applying it again
changes nothing. -/
theorem replace_types_spec {parses : Cell → Bool} {s : Schema} (hs : SchemaOK s) {dts : DataTypes} (hd : TypesOK s dts)
    (defaults : PyDict String (PyDict String Cell)) (repl : PyDict (String × String) Cell) {db : DB Cell}
    (hdb : DBOK s db) (hdom : ∀ t, t ∉ PyDict.keys s → (db t).items = []) :
    (replaceTypes parses s dts defaults repl db = .refused ∧ Refusal parses s dts defaults repl db) ∨
    (¬ Refusal parses s dts defaults repl db ∧
      ∃ db', replaceTypes parses s dts defaults repl db = .done db' ∧ DBOK s db' ∧
        (∀ t, (rows (tableOf s t) (db' t)).map Prod.fst = (rows (tableOf s t) (db t)).map Prod.fst) ∧
        (∀ t pk r r', (pk, r) ∈ rows (tableOf s t) (db t) → (pk, r') ∈ rows (tableOf s t) (db' t) → ∀ f v,
          r f = some v →
            (Repairable parses s dts t f v → r' f = some (replacement defaults repl t f)) ∧
            (¬ Repairable parses s dts t f v → r' f = some v)) ∧
        (∀ t, ∀ p ∈ rows (tableOf s t) (db' t), ∀ f v, p.2 f = some v → ¬ Repairable parses s dts t f v) ∧
        replaceTypes parses s dts defaults repl db' = .done db') := by
  have hlen : ∀ (db : DB Cell), DBOK s db → (∀ t, t ∉ PyDict.keys s → (db t).items = []) →
      ∀ t, ∀ p ∈ (db t).items, RowOK (tableOf s t) p.1 p.2 := by
    intro db hdb hdom t p hp
    by_cases ht : t ∈ PyDict.keys s
    · exact rowOK_of_items (tableOK_of_mem hs hdb ht) hp
    · rw [hdom t ht] at hp; simp at hp
  have hdj : ∀ t f, f ∈ s.dfs t → f ∉ s.pks t := by
    intro t f h1 h2
    exact (List.nodup_append.1 (hs.fields_nodup t)).2.2 f h2 f h1 rfl
  have hfields : ∀ t f td, typeOf dts t f = some td → f ∉ s.pks t → f ∈ s.dfs t := by
    intro t f td h1 h2
    have := (effType_fields hd (t := t) (f := f) (td := td) (by unfold effType; rw [at_eq_typeOf, h1])).2
    rcases List.mem_append.1 this with h | h
    · exact absurd h h2
    · exact h
  by_cases h0 : repl.any (fun p => !(decide (p.1.1 ∈ PyDict.keys s) && decide (p.1.2 ∈ s.dfs p.1.1))) = true
  · left
    constructor
    · unfold replaceTypes
      rw [if_pos h0]
    · left
      obtain ⟨p, hp, h⟩ := List.any_eq_true.1 h0
      refine ⟨p, hp, ?_⟩
      rintro ⟨a, b⟩
      simp [a, b] at h
  have h0' : ¬ ∃ p ∈ repl, ¬ (p.1.1 ∈ PyDict.keys s ∧ p.1.2 ∈ s.dfs p.1.1) := by
    rintro ⟨p, hp, h⟩
    apply h0
    rw [List.any_eq_true]
    refine ⟨p, hp, ?_⟩
    by_cases a : p.1.1 ∈ PyDict.keys s <;> by_cases b : p.1.2 ∈ s.dfs p.1.1 <;> simp [a, b] at h ⊢
  -- a data object with no repairable cell is returned as it is
  have hclean : ∀ (db : DB Cell), DBOK s db → (∀ t, t ∉ PyDict.keys s → (db t).items = []) →
      (∀ t, ∀ p ∈ rows (tableOf s t) (db t), ∀ f v, p.2 f = some v → ¬ Repairable parses s dts t f v) →
      replaceTypes parses s dts defaults repl db = .done db := by
    intro db hdb hdom hno
    obtain ⟨d, hfd, hnd, hk, _⟩ := find_types_exact (parses := parses) hs hd hdb
    have hnone : ∀ n ∈ d, PyDict.get? (realReplacements s dts defaults repl) n.1 = none := by
      rintro ⟨⟨t, f⟩, w⟩ hn
      cases hg : PyDict.get? (realReplacements s dts defaults repl) (t, f) with
      | none => rfl
      | some v =>
        obtain ⟨h1, h2, _⟩ := (realReplacements_get hd _ _ _ _ _).1 hg
        obtain ⟨td, htd⟩ := Option.isSome_iff_exists.1 h1
        obtain ⟨p, hp, v', hv, hb⟩ := (hk t f).1 (List.mem_map.2 ⟨_, hn, rfl⟩)
        rcases hb with ⟨td', e, hv'⟩ | ⟨e, _, _⟩
        · exact absurd ⟨hfields t f td htd h2, td', e, hv'⟩ (hno t p hp f v' hv)
        · rw [htd] at e; simp at e
    cases d with
    | nil =>
      unfold replaceTypes
      rw [if_neg h0, hfd]
    | cons n d =>
      rw [replaceTypes_unfold h0 hfd (by simp), if_neg]
      · have hops : replOps (realReplacements s dts defaults repl) (n :: d) = [] := by
          unfold replOps
          rw [List.flatMap_eq_nil_iff]
          intro m hm
          simp only [hnone m hm]
        rw [hops]
        simp only [applyAll, hfd]
        rw [if_neg]
        intro hany
        obtain ⟨m, hm, h⟩ := List.any_eq_true.1 hany
        rw [hnone m hm] at h
        simp at h
      · intro hany
        obtain ⟨⟨⟨t, f⟩, v⟩, hm, h⟩ := List.any_eq_true.1 hany
        simp only [Bool.and_eq_true] at h
        obtain ⟨w, hw⟩ := Option.isSome_iff_exists.1 h.1
        have h1 := hnone ((t, f), w) (PyDict.get?_mem hw)
        have := (PyDict.get?_eq_none _ _).1 h1
        exact this (List.mem_map.2 ⟨_, hm, rfl⟩)
  obtain ⟨d, hfd, hnd, hk, hent⟩ := find_types_exact (parses := parses) hs hd hdb
  by_cases hsome : ∃ t, ∃ p ∈ rows (tableOf s t) (db t), ∃ f v, p.2 f = some v ∧ Repairable parses s dts t f v
  rotate_left
  · -- nothing to repair
    right
    have hno : ∀ t, ∀ p ∈ rows (tableOf s t) (db t), ∀ f v, p.2 f = some v → ¬ Repairable parses s dts t f v := by
      intro t p hp f v hv hr
      exact hsome ⟨t, p, hp, f, v, hv, hr⟩
    have hrun := hclean db hdb hdom hno
    refine ⟨?_, db, hrun, hdb, fun _ => rfl, ?_, hno, hrun⟩
    · rintro (h | ⟨t, f, td, e, hf, ⟨p, hp, v, hv, hb⟩, _⟩)
      · exact h0' h
      · exact hno t p hp f v hv ⟨hf, td, e, hb⟩
    · intro t pk r r' h1 h2 f v hv
      rw [rows_eq_items] at h1 h2
      obtain ⟨p1, hp1, e1⟩ := List.mem_map.1 h1
      obtain ⟨p2, hp2, e2⟩ := List.mem_map.1 h2
      have ht : t ∈ PyDict.keys s := by
        apply Classical.byContradiction
        intro ht; rw [hdom t ht] at hp1; simp at hp1
      have hpp : p1 = p2 := by
        have hknd := items_keys_nodup (tableOK_of_mem hs hdb ht)
        have a1 := PyDict.get?_of_mem (d := (db t).items) hknd (k := p1.1) (v := p1.2) hp1
        have a2 := PyDict.get?_of_mem (d := (db t).items) hknd (k := p2.1) (v := p2.2) hp2
        simp only [Prod.mk.injEq] at e1 e2
        have : p1.1 = p2.1 := e1.1.trans e2.1.symm
        rw [this, a2] at a1
        exact Prod.ext this (Option.some.inj a1).symm
      subst hpp
      have hrr : r = r' := by rw [e1] at e2; exact (Prod.mk.inj e2).2
      subst hrr
      refine ⟨fun h => absurd h (hno t (pk, r) (by rw [rows_eq_items]; exact h1) f v hv), fun _ => hv⟩
  -- something to repair
  obtain ⟨t0, p0, hp0, f0, v0, hv0, hr0⟩ := hsome
  have hdne : d ≠ [] := by
    rintro rfl
    have : (t0, f0) ∈ PyDict.keys ([] : PyDict (String × String) (List Cell × List (PKey Cell))) := by
      rw [hk]
      obtain ⟨_, td, e, hb⟩ := hr0
      exact ⟨p0, hp0, v0, hv0, Or.inl ⟨td, e, hb⟩⟩
    simp [PyDict.keys] at this
  have hval : ∀ t f td v, DataTypes.at dts t f = some td → (td.validData parses v = true ↔ Valid parses td v) :=
    fun _ _ td v _ => valid_data_iff parses td v
  have hkeyrow : ∀ t f, (t, f) ∈ PyDict.keys d → (typeOf dts t f).isSome →
      ∃ p ∈ rows (tableOf s t) (db t), ∃ v, p.2 f = some v ∧ ∃ td, typeOf dts t f = some td ∧ ¬ Valid parses td v := by
    intro t f h1 h2
    obtain ⟨p, hp, v, hv, hb⟩ := (hk t f).1 h1
    rcases hb with ⟨td, e, hb⟩ | ⟨e, _, _⟩
    · exact ⟨p, hp, v, hv, td, e, hb⟩
    · rw [e] at h2; simp at h2
  have hunfold := replaceTypes_unfold (repl := repl) (defaults := defaults) h0 hfd hdne
  by_cases hbad : (realReplacements s dts defaults repl).any (fun p => (PyDict.get? d p.1).isSome &&
        !(match DataTypes.at dts p.1.1 p.1.2 with
          | some td => td.validData parses p.2
          | none => true)) = true
  · left
    refine ⟨by rw [hunfold, if_pos hbad], ?_⟩
    right
    obtain ⟨⟨⟨t, f⟩, v⟩, hm, h⟩ := List.any_eq_true.1 hbad
    simp only [Bool.and_eq_true] at h
    have hin : ∃ w, PyDict.get? (realReplacements s dts defaults repl) (t, f) = some w := by
      cases hg : PyDict.get? (realReplacements s dts defaults repl) (t, f) with
      | some w => exact ⟨w, rfl⟩
      | none => exact absurd (List.mem_map.2 ⟨_, hm, rfl⟩) ((PyDict.get?_eq_none _ _).1 hg)
    obtain ⟨w, hw⟩ := hin
    obtain ⟨g1, g2, g3⟩ := (realReplacements_get hd _ _ _ _ _).1 hw
    obtain ⟨td, htd⟩ := Option.isSome_iff_exists.1 g1
    obtain ⟨e, he⟩ := Option.isSome_iff_exists.1 h.1
    have hv : v = replacement defaults repl t f := by
      have : ((t, f), v) ∈ realReplacements s dts defaults repl := hm
      simp only [realReplacements, List.mem_flatMap, List.mem_map, List.mem_filter, decide_eq_true_eq, Prod.mk.injEq,
        replacementFor_eq] at this
      obtain ⟨_, _, _, _, ⟨rfl, rfl⟩, rfl⟩ := this
      rfl
    refine ⟨t, f, td, htd, hfields t f td htd g2, ?_, ?_⟩
    · obtain ⟨p, hp, v', hv', td', e', hb⟩ := hkeyrow t f (List.mem_map.2 ⟨_, PyDict.get?_mem he, rfl⟩) g1
      rw [htd] at e'; cases e'
      exact ⟨p, hp, v', hv', hb⟩
    · rw [← valid_data_iff, ← hv]
      have h2 := h.2
      rw [at_eq_typeOf, htd] at h2
      simpa using h2
  · right
    have hgood : ∀ t f td, typeOf dts t f = some td → f ∈ s.dfs t →
        (∃ p ∈ rows (tableOf s t) (db t), ∃ v, p.2 f = some v ∧ ¬ Valid parses td v) →
        Valid parses td (replacement defaults repl t f) := by
      intro t f td htd hf hex
      apply Classical.byContradiction
      intro hnv
      apply hbad
      rw [List.any_eq_true]
      have hg := (realReplacements_get hd defaults repl t f _).2
        ⟨by rw [htd]; rfl, hdj t f hf, rfl⟩
      refine ⟨_, PyDict.get?_mem hg, ?_⟩
      simp only [Bool.and_eq_true]
      constructor
      · obtain ⟨p, hp, v, hv, hb⟩ := hex
        have : (t, f) ∈ PyDict.keys d := (hk t f).2 ⟨p, hp, v, hv, Or.inl ⟨td, htd, hb⟩⟩
        cases hgd : PyDict.get? d (t, f) with
        | none => exact absurd this ((PyDict.get?_eq_none _ _).1 hgd)
        | some _ => rfl
      · rw [at_eq_typeOf, htd]
        simp only [Bool.not_eq_true']
        rw [← valid_data_iff] at hnv
        simpa using hnv
    refine ⟨?_, ?_⟩
    · rintro (h | ⟨t, f, td, e, hf, hex, hnv⟩)
      · exact h0' h
      · exact hnv (hgood t f td e hf hex)
    -- the assignments
    generalize hops : replOps (realReplacements s dts defaults repl) d = ops at hunfold
    have hopsmem : ∀ t f pk v, ((t, f), pk, v) ∈ ops ↔ v = replacement defaults repl t f ∧
        ∃ r w, (pk, r) ∈ rows (tableOf s t) (db t) ∧ r f = some w ∧ Repairable parses s dts t f w := by
      intro t f pk v
      rw [← hops]
      unfold replOps
      simp only [List.mem_flatMap]
      constructor
      · rintro ⟨⟨⟨t', f'⟩, vs, pks⟩, hn, hm⟩
        cases hg : PyDict.get? (realReplacements s dts defaults repl) (t', f') with
        | none => simp only [hg] at hm; simp at hm
        | some w =>
          simp only [hg, List.mem_map, Prod.mk.injEq] at hm
          obtain ⟨pk', hpk', ⟨rfl, rfl⟩, rfl, rfl⟩ := hm
          obtain ⟨g1, g2, g3⟩ := (realReplacements_get hd _ _ _ _ _).1 hg
          obtain ⟨td, htd⟩ := Option.isSome_iff_exists.1 g1
          refine ⟨g3, ?_⟩
          have hgd := PyDict.get?_of_mem hnd hn
          obtain ⟨_, e2, _⟩ := hent t' f' vs pks hgd
          obtain ⟨r, w', a, b, c⟩ := (e2 pk').1 hpk'
          refine ⟨r, w', a, b, hfields t' f' td htd g2, td, htd, ?_⟩
          rcases c with ⟨td', e, hb⟩ | ⟨e, _, _⟩
          · rw [htd] at e; cases e; exact hb
          · rw [htd] at e; simp at e
      · rintro ⟨rfl, r, w, a, b, hf, td, htd, hb⟩
        have hkey : (t, f) ∈ PyDict.keys d := (hk t f).2 ⟨(pk, r), a, w, b, Or.inl ⟨td, htd, hb⟩⟩
        cases hgd : PyDict.get? d (t, f) with
        | none => exact absurd hkey ((PyDict.get?_eq_none _ _).1 hgd)
        | some e =>
          obtain ⟨vs, pks⟩ := e
          refine ⟨((t, f), vs, pks), PyDict.get?_mem hgd, ?_⟩
          have hg := (realReplacements_get hd defaults repl t f _).2
            ⟨by rw [htd]; rfl, hdj t f hf, rfl⟩
          simp only [hg]
          obtain ⟨_, e2, _⟩ := hent t f vs pks hgd
          exact List.mem_map.2 ⟨pk, (e2 pk).2 ⟨r, w, a, b, Or.inl ⟨td, htd, hb⟩⟩, rfl⟩
    have hL : ∀ t, ∀ p ∈ (db t).items, p.2.length = (s.dfs t).length :=
      fun t p hp => (hlen db hdb hdom t p hp).2.1
    have hid : updCells s (replacement defaults repl) [] db = db := by
      funext t
      unfold updCells
      rw [mapItems_congr (h := fun _ r => r), mapItems_id]
      intro p hp
      have := hL t p hp
      apply List.ext_getElem
      · simp [this]
      · intro i h1 h2
        simp
    have happ : applyAll s ops db = some (updCells s (replacement defaults repl) (ops.map (fun o => (o.1, o.2.1))) db) := by
      have := applyAll_updCells hs hL (R := replacement defaults repl) ops (by
        rintro ⟨⟨t, f⟩, pk, v⟩ ho
        obtain ⟨h1, r, w, a, b, hf, _⟩ := (hopsmem t f pk v).1 ho
        refine ⟨hf, ?_, h1⟩
        rw [rows_eq_items] at a
        obtain ⟨p, hp, e⟩ := List.mem_map.1 a
        exact List.mem_map.2 ⟨p, hp, (Prod.mk.inj e).1⟩) []
      rw [hid] at this
      simpa using this
    generalize hdb' : updCells s (replacement defaults repl) (ops.map (fun o => (o.1, o.2.1))) db = db' at happ
    have hS : ∀ t f pk, ((t, f), pk) ∈ ops.map (fun o => (o.1, o.2.1)) ↔
        ∃ r w, (pk, r) ∈ rows (tableOf s t) (db t) ∧ r f = some w ∧ Repairable parses s dts t f w := by
      intro t f pk
      rw [List.mem_map]
      constructor
      · rintro ⟨⟨⟨t', f'⟩, pk', v⟩, ho, e⟩
        simp only [Prod.mk.injEq] at e
        obtain ⟨⟨rfl, rfl⟩, rfl⟩ := e
        exact ((hopsmem _ _ _ _).1 ho).2
      · intro h
        exact ⟨((t, f), pk, _), (hopsmem t f pk _).2 ⟨rfl, h⟩, rfl⟩
    have hitems : ∀ t, (db' t).items = (db t).items.map (fun p => (p.1, List.zipWith (fun f v =>
        if ((t, f), p.1) ∈ ops.map (fun o => (o.1, o.2.1)) then replacement defaults repl t f else v) (s.dfs t) p.2)) := by
      intro t
      rw [← hdb']
      exact items_mapItems _ _
    have hdom' : ∀ t, t ∉ PyDict.keys s → (db' t).items = [] := by
      intro t ht
      rw [hitems, hdom t ht]; rfl
    have hdbok' : DBOK s db' := by
      intro t ts hm
      have hts : tableOf s t = ts := by
        simp [tableOf, Schema.pks, Schema.dfs, PyDict.get?_of_mem hs.tables_nodup hm]
      rw [← hdb', ← hts]
      apply tableOK_mapItems
      · rw [hts]; exact hdb t ts hm
      · intro p hp
        simp [tableOf, hL t p hp]
    have huniq : ∀ t pk r1 r2, (pk, r1) ∈ rows (tableOf s t) (db t) → (pk, r2) ∈ rows (tableOf s t) (db t) → r1 = r2 := by
      intro t pk r1 r2 h1 h2
      rw [rows_eq_items] at h1 h2
      obtain ⟨p1, hp1, e1⟩ := List.mem_map.1 h1
      obtain ⟨p2, hp2, e2⟩ := List.mem_map.1 h2
      have ht : t ∈ PyDict.keys s := by
        apply Classical.byContradiction
        intro ht; rw [hdom t ht] at hp1; simp at hp1
      have hknd := items_keys_nodup (tableOK_of_mem hs hdb ht)
      have a1 := PyDict.get?_of_mem (d := (db t).items) hknd (k := p1.1) (v := p1.2) hp1
      have a2 := PyDict.get?_of_mem (d := (db t).items) hknd (k := p2.1) (v := p2.2) hp2
      simp only [Prod.mk.injEq] at e1 e2
      have : p1.1 = p2.1 := e1.1.trans e2.1.symm
      rw [this, a2] at a1
      have : p1 = p2 := Prod.ext this (Option.some.inj a1).symm
      subst this
      exact e1.2.symm.trans e2.2
    -- the record of a row after the call
    have hrec : ∀ t pk r', (pk, r') ∈ rows (tableOf s t) (db' t) → ∃ r, (pk, r) ∈ rows (tableOf s t) (db t) ∧
        ∀ f, r' f = if f ∉ s.pks t ∧ f ∈ s.dfs t ∧ ((t, f), pk) ∈ ops.map (fun o => (o.1, o.2.1))
          then some (replacement defaults repl t f) else r f := by
      intro t pk r' h
      rw [rows_eq_items, hitems, List.map_map] at h
      obtain ⟨p, hp, e⟩ := List.mem_map.1 h
      simp only [Function.comp, Prod.mk.injEq] at e
      obtain ⟨rfl, rfl⟩ := e
      refine ⟨recOf (tableOf s t) p.1 p.2, by rw [rows_eq_items]; exact List.mem_map.2 ⟨p, hp, rfl⟩, ?_⟩
      intro f
      exact recOf_updCells (db := db) (hlen db hdb hdom t p hp) f
    have hcell : ∀ t pk r r', (pk, r) ∈ rows (tableOf s t) (db t) → (pk, r') ∈ rows (tableOf s t) (db' t) → ∀ f v,
          r f = some v →
            (Repairable parses s dts t f v → r' f = some (replacement defaults repl t f)) ∧
            (¬ Repairable parses s dts t f v → r' f = some v) := by
      intro t pk r r' h1 h2 f v hv
      obtain ⟨r2, h3, h4⟩ := hrec t pk r' h2
      have := huniq t pk r r2 h1 h3
      subst this
      constructor
      · intro hr
        rw [h4, if_pos ⟨hdj t f hr.1, hr.1, (hS t f pk).2 ⟨r, v, h1, hv, hr⟩⟩]
      · intro hr
        rw [h4, if_neg, hv]
        rintro ⟨_, _, hm⟩
        obtain ⟨r3, w, a, b, c⟩ := (hS t f pk).1 hm
        have := huniq t pk r r3 h1 a
        subst this
        rw [hv] at b; cases b
        exact hr c
    have hnomore : ∀ t, ∀ p ∈ rows (tableOf s t) (db' t), ∀ f v, p.2 f = some v → ¬ Repairable parses s dts t f v := by
      rintro t ⟨pk, r'⟩ hp f v hv ⟨hf, td, htd, hb⟩
      obtain ⟨r, h3, h4⟩ := hrec t pk r' hp
      -- the field is present in the old record
      have ht : t ∈ PyDict.keys s := by
        apply Classical.byContradiction
        intro ht
        rw [rows_eq_items, hdom t ht] at h3; simp at h3
      have hex : ∃ w, r f = some w := by
        rw [rows_eq_items] at h3
        obtain ⟨p, hp', e⟩ := List.mem_map.1 h3
        simp only [Prod.mk.injEq] at e
        obtain ⟨rfl, rfl⟩ := e
        exact Option.isSome_iff_exists.1 (recOf_isSome (hlen db hdb hdom t p hp') (List.mem_append_right _ hf))
      obtain ⟨w, hw⟩ := hex
      obtain ⟨c1, c2⟩ := hcell t pk r r' h3 hp f w hw
      by_cases hr : Repairable parses s dts t f w
      · have e := c1 hr
        simp only at hv
        rw [hv] at e
        cases e
        obtain ⟨_, td', htd', hb'⟩ := hr
        rw [htd] at htd'; cases htd'
        exact hb (hgood t f td htd hf ⟨(pk, r), h3, w, hw, hb'⟩)
      · have e := c2 hr
        simp only at hv
        rw [hv] at e
        cases e
        exact hr ⟨hf, td, htd, hb⟩
    refine ⟨db', ?_, hdbok', ?_, hcell, hnomore, hclean db' hdbok' hdom' hnomore⟩
    · rw [hunfold, if_neg hbad, happ]
      simp only
      obtain ⟨d2, hfd2, hnd2, hk2, _⟩ := find_types_exact (parses := parses) hs hd hdbok'
      rw [hfd2]
      simp only
      rw [if_neg]
      intro hany
      obtain ⟨⟨⟨t, f⟩, w⟩, hm, h⟩ := List.any_eq_true.1 hany
      obtain ⟨v, hv⟩ := Option.isSome_iff_exists.1 h
      obtain ⟨g1, g2, _⟩ := (realReplacements_get hd _ _ _ _ _).1 hv
      obtain ⟨td, htd⟩ := Option.isSome_iff_exists.1 g1
      obtain ⟨p, hp, v', hv', hb⟩ := (hk2 t f).1 (List.mem_map.2 ⟨_, hm, rfl⟩)
      rcases hb with ⟨td', e, hb⟩ | ⟨e, _, _⟩
      · exact hnomore t p hp f v' hv' ⟨hfields t f td htd g2, td', e, hb⟩
      · rw [htd] at e; simp at e
    · intro t
      rw [rows_eq_items, rows_eq_items, hitems]
      simp [List.map_map, Function.comp]

/-! ### Non-vacuity -/

def typedSchema : Schema := [("t", ⟨["k"], ["a", "b"]⟩), ("u", ⟨[], ["c"]⟩)]

def typedTypes : DataTypes :=
  [("t", [("a", ⟨true, true, false, .fin 0, .pinf, false, .oneOf [], false, false⟩)]),
   ("u", [("c", ⟨false, true, true, .fin 0, .pinf, false, .oneOf ["x"], true, false⟩)])]

def typedDB : DB Cell := fun t =>
  if t = "t" then .dict [(.one (.str "p"), [.num (.fin 3), .str "free"]), (.one (.none), [.str "bad", .none])]
  else if t = "u" then .list [[.str "x"], [.str "y"], [.none]] else .list []

example : SchemaOK typedSchema ∧ TypesOK typedSchema typedTypes ∧ DBOK typedSchema typedDB ∧
    ∀ t, t ∉ PyDict.keys typedSchema → (typedDB t).items = [] := by
  refine ⟨schemaOK_of_mem (by decide) (by decide), ⟨by decide, ?_, by decide, ?_⟩, ?_, ?_⟩
  · intro t r h
    simp only [typedTypes, List.mem_cons, Prod.mk.injEq, List.not_mem_nil, or_false] at h
    rcases h with ⟨rfl, rfl⟩ | ⟨rfl, rfl⟩ <;> decide
  · intro t r h
    simp only [typedTypes, List.mem_cons, Prod.mk.injEq, List.not_mem_nil, or_false] at h
    rcases h with ⟨rfl, rfl⟩ | ⟨rfl, rfl⟩ <;> decide
  · intro t ts h
    simp only [typedSchema, List.mem_cons, Prod.mk.injEq, List.not_mem_nil, or_false] at h
    rcases h with ⟨rfl, rfl⟩ | ⟨rfl, rfl⟩ <;> simp [typedDB, TableOK, KeyOK]
  · intro t ht
    simp only [typedSchema, PyDict.keys, List.map_cons, List.map_nil, List.mem_cons, List.not_mem_nil, or_false, not_or] at ht
    simp [typedDB, ht.1, ht.2, TableData.items]

/-- Bad cells in both kinds of tables are replaced; the null primary key is reported but never replaced. -/
example : (findTypes (fun _ => false) typedSchema typedTypes typedDB none).map (fun d => d.map (fun p => (p.1, p.2.2))) =
      some [(("t", "a"), [.one .none]), (("t", "k"), [.one .none]), (("u", "c"), [.idx 1])] ∧
    (match replaceTypes (fun _ => false) typedSchema typedTypes [("u", [("c", .str "x")])] [] typedDB with
      | .done db => some ((db "t").items, (db "u").items)
      | _ => none) =
      some ([(.one (.str "p"), [.num (.fin 3), .str "free"]), (.one (.none), [.num (.fin 0), .none])],
        [(.idx 0, [.str "x"]), (.idx 1, [.str "x"]), (.idx 2, [.none])]) := by
  constructor <;> decide +kernel

/-- A needed replacement that is invalid is refused: the default default 0 is not allowed in `u.c`. -/
example : (match replaceTypes (fun _ => false) typedSchema typedTypes [] [] typedDB with
      | .refused => true
      | _ => false) = true := by decide +kernel

end Ticdat

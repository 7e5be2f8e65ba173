import Verif.Model.FindDups
import Verif.Spec.FindDups
import Verif.Lemmas.Dups
import Verif.Props.Duplicates
import Verif.Props.ReadLocal
/-!
# C67: `find_duplicates` of a file agrees with what the reader makes of the file (common part)
-/
namespace Ticdat
open Spec
set_option linter.unusedSimpArgs false

/-! ### Keys of records -/

theorem zip_cells (pks rest : List String) (hn : (pks ++ rest).Nodup) (r : List Cell) (hl : pks.length ≤ r.length) :
    (∀ f ∈ pks, ∃ v, PyDict.get? ((pks ++ rest).zip r) f = some v) ∧
    pks.map (fun f => (PyDict.get? ((pks ++ rest).zip r) f).getD .none) = r.take pks.length := by
  induction pks generalizing r with
  | nil => simp
  | cons f pks ih =>
    cases r with
    | nil => simp at hl
    | cons v r =>
      rw [List.cons_append, List.nodup_cons] at hn
      obtain ⟨h1, h2⟩ := ih hn.2 r (by simpa using hl)
      have hne : ∀ g ∈ pks, PyDict.get? ((f :: (pks ++ rest)).zip (v :: r)) g = PyDict.get? ((pks ++ rest).zip r) g := by
        intro g hg
        have : ¬ f = g := fun e => hn.1 (List.mem_append_left _ (e ▸ hg))
        simp only [List.zip_cons_cons, PyDict.get?, if_neg this]
      constructor
      · intro g hg
        rcases List.mem_cons.mp hg with rfl | hg
        · exact ⟨v, by simp [PyDict.get?]⟩
        · rw [List.cons_append, hne g hg]; exact h1 g hg
      · rw [List.map_cons, List.length_cons, List.take_succ_cons, List.cons_append]
        congr 1
        · simp [PyDict.get?]
        · rw [← h2]
          apply List.map_congr_left
          intro g hg
          rw [hne g hg]

/-- A record as a function of the field. -/
def recFun (flds : List String) (r : List Cell) : String → Cell := fun f => (PyDict.get? (flds.zip r) f).getD .none

theorem recFun_key (pks rest : List String) (hn : (pks ++ rest).Nodup) (r : List Cell) (hl : pks.length ≤ r.length) :
    HasCells pks ((pks ++ rest).zip r) (recFun (pks ++ rest) r) ∧
      keyValue pks (recFun (pks ++ rest) r) = recordKey pks.length r := by
  obtain ⟨h1, h2⟩ := zip_cells pks rest hn r hl
  constructor
  · intro f hf
    obtain ⟨v, hv⟩ := h1 f hf
    unfold recFun
    rw [hv]
    rfl
  · have h3 : pks.map (recFun (pks ++ rest) r) = r.take pks.length := h2
    unfold recordKey
    rw [← h3]
    match pks with
    | [] => rfl
    | [f] => rfl
    | f :: g :: l => rfl

theorem occurrences_records (pks rest : List String) (hn : (pks ++ rest).Nodup) (rows : List (List Cell))
    (hl : ∀ r ∈ rows, pks.length ≤ r.length) (k : PKey Cell) :
    occurrences pks (rows.map (recFun (pks ++ rest))) k = keyCount pks.length rows k := by
  unfold occurrences keyCount
  rw [List.countP_map]
  apply List.countP_congr
  intro r hr
  simp only [Function.comp_apply, (recFun_key pks rest hn r (hl r hr)).2]

theorem records_have_cells (pks rest : List String) (hn : (pks ++ rest).Nodup) (rows : List (List Cell))
    (hl : ∀ r ∈ rows, pks.length ≤ r.length) :
    (rows.map (fun r => (pks ++ rest).zip r)).length = (rows.map (recFun (pks ++ rest))).length ∧
    ∀ q ∈ (rows.map (fun r => (pks ++ rest).zip r)).zip (rows.map (recFun (pks ++ rest))), HasCells pks q.1 q.2 := by
  refine ⟨by simp, ?_⟩
  intro q hq
  rw [List.zip_map'] at hq
  obtain ⟨r, hr, rfl⟩ := List.mem_map.mp hq
  exact (recFun_key pks rest hn r (hl r hr)).1

/-- What an exact report says about one table. -/
theorem reports_of_exact (pkF : List (String × List String)) (recs : String → List (String → Cell))
    (rtn : PyDict String (PyDict (PKey Cell) Nat)) (h : ExactReport pkF recs rtn) (t : String) (flds : List String)
    (hm : (t, flds) ∈ pkF) (n : Nat) (rows : List (List Cell))
    (hocc : ∀ k, occurrences flds (recs t) k = keyCount n rows k) : ReportsTable n rows (PyDict.get? rtn t) := by
  have h2 := h.2.1 t flds hm
  constructor
  · constructor
    · intro hnone k
      by_cases hk : keyCount n rows k ≤ 1
      · exact hk
      · have := (h2 k (keyCount n rows k)).2 ⟨by omega, (hocc k).symm⟩
        rw [hnone] at this
        cases this
    · intro hall
      cases hd : PyDict.get? rtn t with
      | none => rfl
      | some d =>
        obtain ⟨_, hne, hnd⟩ := h.2.2 t d hd
        cases hdd : d with
        | nil => exact absurd hdd hne
        | cons p l =>
          have hg : PyDict.get? d p.1 = some p.2 := PyDict.get?_of_mem hnd (by rw [hdd]; simp)
          have := (h2 p.1 p.2).1 (by rw [hd]; exact hg)
          rw [hocc] at this
          have := hall p.1
          omega
  · intro d hd
    refine ⟨(h.2.2 t d hd).2.2, fun k m => ?_⟩
    have := h2 k m
    rw [hd, Option.bind_some, hocc] at this
    rw [this]
    constructor
    · rintro ⟨a, b⟩; exact ⟨a, b.symm⟩
    · rintro ⟨a, b⟩; exact ⟨a, b.symm⟩

theorem reports_nothing (pkF : List (String × List String)) (recs : String → List (String → Cell))
    (rtn : PyDict String (PyDict (PKey Cell) Nat)) (h : ExactReport pkF recs rtn) (t : String)
    (hm : t ∉ pkF.map Prod.fst) (n : Nat) : ReportsTable n [] (PyDict.get? rtn t) := by
  have hnone : PyDict.get? rtn t = none := by
    cases hd : PyDict.get? rtn t with
    | none => rfl
    | some d => exact absurd (h.2.2 t d hd).1 hm
  rw [hnone]
  exact ⟨⟨fun _ k => by simp [keyCount], fun _ => rfl⟩, fun d hd => by cases hd⟩

/-! ### The loop over the tables -/

theorem collect_get (flds : TabClass → List String) (rd : String × TabClass → Option (Option (List (List Cell))))
    (s : List (String × TabClass)) (hn : (s.map Prod.fst).Nodup) (recs : PyDict String (List (PyDict String Cell)))
    (h : collectRecords flds rd s = some recs) :
    (∀ t ∈ PyDict.keys recs, t ∈ s.map Prod.fst) ∧
    ∀ tc ∈ s, ∃ x, rd tc = some x ∧ PyDict.get? recs tc.1 = x.map (fun rows => rows.map (fun r => (flds tc.2).zip r)) := by
  induction s generalizing recs with
  | nil =>
    cases h
    exact ⟨by simp [PyDict.keys], by simp⟩
  | cons tc rest ih =>
    rw [List.map_cons, List.nodup_cons] at hn
    unfold collectRecords at h
    simp only [Option.bind_eq_some_iff, Option.map_eq_some_iff] at h
    obtain ⟨x, hx, r, hr, he⟩ := h
    obtain ⟨h1, h2⟩ := ih hn.2 r hr
    have hnot : tc.1 ∉ PyDict.keys r := fun hh => hn.1 (h1 _ hh)
    cases x with
    | none =>
      subst he
      refine ⟨fun t ht => List.mem_cons_of_mem _ (h1 t ht), ?_⟩
      intro tc' htc'
      rcases List.mem_cons.mp htc' with rfl | htc'
      · exact ⟨none, hx, (PyDict.get?_eq_none _ _).mpr hnot⟩
      · exact h2 tc' htc'
    | some rows =>
      subst he
      refine ⟨?_, ?_⟩
      · intro t ht
        simp only [PyDict.keys, List.map_cons, List.mem_cons] at ht ⊢
        exact ht.imp id (h1 t)
      · intro tc' htc'
        rcases List.mem_cons.mp htc' with rfl | htc'
        · exact ⟨some rows, hx, by simp [PyDict.get?]⟩
        · have hne : ¬ tc.1 = tc'.1 := fun e => hn.1 (List.mem_map.mpr ⟨tc', htc', e.symm⟩)
          obtain ⟨y, hy, hg⟩ := h2 tc' htc'
          exact ⟨y, hy, by simpa [PyDict.get?, hne] using hg⟩

theorem keyedOnly_names (schema : List (String × TabClass)) (hn : (schema.map Prod.fst).Nodup) :
    ((keyedOnly schema).map Prod.fst).Nodup := hn.sublist (List.filter_sublist.map _)

theorem pkFieldsOf_names (schema : List (String × TabClass)) :
    (pkFieldsOf schema).map Prod.fst = (keyedOnly schema).map Prod.fst := by
  simp [pkFieldsOf, Function.comp_def]

theorem mem_keyedOnly (schema : List (String × TabClass)) (tc : String × TabClass) :
    tc ∈ keyedOnly schema ↔ tc ∈ schema ∧ tc.2.pks ≠ [] := by
  unfold keyedOnly
  rw [List.mem_filter, decide_eq_true_eq]

theorem class_unique (schema : List (String × TabClass)) (hn : (schema.map Prod.fst).Nodup) (tc tc' : String × TabClass)
    (h : tc ∈ schema) (h' : tc' ∈ schema) (e : tc.1 = tc'.1) : tc = tc' := by
  have h1 := PyDict.get?_of_mem (d := schema) hn h
  have h2 := PyDict.get?_of_mem (d := schema) hn h'
  rw [e, h2] at h1
  exact Prod.ext e (Option.some.inj h1).symm

/-- The rows of the tables by name. -/
theorem recs_by_name (schema : List (String × TabClass)) (hn : (schema.map Prod.fst).Nodup)
    (f : String × TabClass → List (String → Cell)) :
    ∃ recs : String → List (String → Cell), ∀ tc ∈ schema, recs tc.1 = f tc := by
  refine ⟨fun t => match PyDict.get? schema t with
    | none => []
    | some c => f (t, c), fun tc htc => ?_⟩
  have := PyDict.get?_of_mem (d := schema) hn htc
  simp only [this]

/-- The csv and Excel versions report on each table exactly what its records are. -/
theorem collected_reports (schema : List (String × TabClass)) (hn : (schema.map Prod.fst).Nodup)
    (rest : TabClass → List String) (hf : ∀ tc ∈ schema, (tc.2.pks ++ rest tc.2).Nodup)
    (rd : String × TabClass → Option (Option (List (List Cell))))
    (hl : ∀ tc ∈ keyedOnly schema, ∀ rows, rd tc = some (some rows) → ∀ r ∈ rows, tc.2.pks.length ≤ r.length)
    (recs : PyDict String (List (PyDict String Cell)))
    (hrecs : collectRecords (fun c => c.pks ++ rest c) rd (keyedOnly schema) = some recs)
    (files : String → Bool) (hfiles : ∀ t, files t = false → PyDict.get? recs t = none) :
    ∃ rtn, csvFindDuplicates (pkFieldsOf schema) files (fun t => (PyDict.get? recs t).getD []) = some rtn ∧
      ∀ tc ∈ keyedOnly schema, ∃ x, rd tc = some x ∧ ReportsTable tc.2.pks.length (x.getD []) (PyDict.get? rtn tc.1) := by
  have hkn := keyedOnly_names schema hn
  have hget := (collect_get _ rd _ hkn recs hrecs).2
  have hrow : ∀ tc : String × TabClass, tc ∈ keyedOnly schema → ∃ rows, rd tc = some rows ∧
      (PyDict.get? recs tc.1).getD [] = (rows.getD []).map (fun r => (tc.2.pks ++ rest tc.2).zip r) ∧
      ∀ r ∈ rows.getD [], tc.2.pks.length ≤ r.length := by
    intro tc htc
    obtain ⟨x, hx, hg⟩ := hget tc htc
    refine ⟨x, hx, by rw [hg]; cases x <;> rfl, ?_⟩
    cases x with
    | none => intro r hr; simp at hr
    | some rows => exact hl tc htc rows hx
  obtain ⟨rf, hrf⟩ := recs_by_name (keyedOnly schema) hkn
    (fun tc => (((rd tc).getD none).getD []).map (recFun (tc.2.pks ++ rest tc.2)))
  obtain ⟨rtn, h1, h2⟩ := csv_find_duplicates_exact (pkFieldsOf schema) (by rw [pkFieldsOf_names]; exact hkn) files
    (fun t => (PyDict.get? recs t).getD []) rf (by
      intro p hp _
      obtain ⟨tc, htc, rfl⟩ := List.mem_map.mp hp
      obtain ⟨rows, hx, hg, hlr⟩ := hrow tc htc
      simp only
      rw [hrf tc htc, hx, hg]
      exact records_have_cells _ _ (hf tc ((mem_keyedOnly schema tc).1 htc).1) _ hlr)
  refine ⟨rtn, h1, fun tc htc => ?_⟩
  obtain ⟨rows, hx, hg, hlr⟩ := hrow tc htc
  refine ⟨rows, hx, ?_⟩
  have hmem : (tc.1, tc.2.pks) ∈ pkFieldsOf schema := List.mem_map.mpr ⟨tc, htc, rfl⟩
  cases hfl : files tc.1 with
  | true =>
    refine reports_of_exact _ rf rtn h2 tc.1 tc.2.pks (List.mem_filter.mpr ⟨hmem, hfl⟩) _ _ (fun k => ?_)
    rw [hrf tc htc, hx]
    exact occurrences_records _ _ (hf tc ((mem_keyedOnly schema tc).1 htc).1) _ hlr k
  | false =>
    have hz := hfiles tc.1 hfl
    rw [hz] at hg
    have hnil : rows.getD [] = [] := by
      have := hg.symm
      simpa using this
    rw [hnil]
    refine reports_nothing _ rf rtn h2 tc.1 (fun hm => ?_) _
    obtain ⟨p, hp, e⟩ := List.mem_map.mp hm
    have := (List.mem_filter.mp hp).2
    rw [e, hfl] at this
    cases this

/-! ### The reader -/

/-- A key value of a table as a reported key. -/
def argKey : KeyArg → PKey Cell
  | .one v => .one v
  | .tup vs => .many vs

theorem argKey_inj {a b : KeyArg} (h : argKey a = argKey b) : a = b := by
  cases a <;> cases b <;> simp [argKey] at h <;> simp [h]

theorem take_of_shape (n : Nat) (k : KeyArg) (h : KeyShape n k) (r : List Cell) (hl : n ≤ r.length) :
    (r.take n = keyCells k ↔ splitKey n (.seq r) = k) ∧ (splitKey n (.seq r) = k ↔ recordKey n r = argKey k) := by
  cases k with
  | one v =>
    have : n = 1 := h
    subst this
    cases r with
    | nil => simp at hl
    | cons a r => simp [splitKey, recordKey, keyCells, argKey]
  | tup vs =>
    have hn : n = vs.length ∧ n ≠ 1 := h
    have hl' : (r.take n).length = n := by rw [List.length_take]; omega
    have hne1 : ¬ n = 1 := hn.2
    simp only [splitKey, if_neg hne1, keyCells, KeyArg.tup.injEq, true_and, recordKey]
    match hr : r.take n with
    | [] => simp [argKey]
    | [a] => rw [hr] at hl'; simp at hl'; omega
    | a :: b :: l => simp [argKey]

theorem shape_of_record (n : Nat) (hn : 0 < n) (r : List Cell) (hl : n ≤ r.length) : KeyShape n (splitKey n (.seq r)) := by
  simp only [splitKey]
  by_cases h : n = 1
  · rw [if_pos h]; exact h
  · rw [if_neg h]
    refine ⟨?_, h⟩
    rw [List.length_take]; omega

/-- The keys of a table that holds the last record of each key are the keys of the records. -/
theorem holds_keys (c : TabClass) (hpk : c.pks ≠ []) (rows : List (List Cell))
    (hl : ∀ r ∈ rows, c.pks.length ≤ r.length) (tab : TabVal) (ht : HoldsLast c rows tab) :
    ∃ D : List (PKey Cell), D.Nodup ∧ D.length = tab.size ∧ ∀ k, k ∈ D ↔ k ∈ rows.map (recordKey c.pks.length) := by
  obtain ⟨d, rfl, hnd, hshape, hget⟩ := ht
  have hpos : 0 < c.pks.length := List.length_pos_iff.mpr hpk
  refine ⟨(PyDict.keys d).map argKey, ?_, by simp [TabVal.size, PyDict.keys], ?_⟩
  · have : ∀ l : List KeyArg, l.Nodup → (l.map argKey).Nodup := by
      intro l
      induction l with
      | nil => simp
      | cons a l ih =>
        intro h
        rw [List.nodup_cons] at h
        rw [List.map_cons, List.nodup_cons]
        refine ⟨fun hm => ?_, ih h.2⟩
        obtain ⟨b, hb, e⟩ := List.mem_map.mp hm
        exact h.1 (argKey_inj e ▸ hb)
    exact this _ hnd
  · intro k
    rw [List.mem_map, List.mem_map]
    constructor
    · rintro ⟨a, ha, rfl⟩
      have hs := hshape a ha
      have hg := hget a hs
      cases hlr : lastRecord c.pks.length rows (keyCells a) with
      | none =>
        rw [hlr] at hg
        exact absurd ha ((PyDict.get?_eq_none _ _).mp hg)
      | some r =>
        unfold lastRecord at hlr
        have hr := List.mem_of_find?_eq_some hlr
        have he := List.find?_some hlr
        have he := of_decide_eq_true he
        rw [List.mem_reverse] at hr
        have ht := take_of_shape _ a hs r (hl r hr)
        exact ⟨r, hr, ht.2.1 (ht.1.1 he)⟩
    · rintro ⟨r, hr, rfl⟩
      have hs := shape_of_record _ hpos r (hl r hr)
      have ht := take_of_shape _ _ hs r (hl r hr)
      refine ⟨splitKey c.pks.length (.seq r), ?_, (ht.2.1 rfl).symm⟩
      by_cases hin : splitKey c.pks.length (.seq r) ∈ PyDict.keys d
      · exact hin
      · have hg := hget _ hs
        rw [(PyDict.get?_eq_none _ _).mpr hin] at hg
        have hnone := Option.map_eq_none_iff.mp hg.symm
        unfold lastRecord at hnone
        rw [List.find?_eq_none] at hnone
        exact absurd (decide_eq_true (ht.1.2 rfl)) (hnone r (List.mem_reverse.mpr hr))

theorem report_surplus (n : Nat) (rows : List (List Cell)) (rep : Option (PyDict (PKey Cell) Nat))
    (hrep : ReportsTable n rows rep) (D : List (PKey Cell)) (hD : D.Nodup)
    (hmem : ∀ k, k ∈ D ↔ k ∈ rows.map (recordKey n)) : D.length + surplus rep = rows.length := by
  have h0 : ∀ k, (rows.map (recordKey n)).countP (fun x => decide (x = k)) = keyCount n rows k := by
    intro k
    rw [List.countP_map]
    rfl
  have := distinct_add_surplus (rows.map (recordKey n)) D hD hmem (rep.getD [])
    (by cases hr : rep with
        | none => simp [PyDict.keys]
        | some e => exact (hrep.2 e hr).1)
    (by
      intro k m
      rw [h0]
      cases hr : rep with
      | none =>
        have := hrep.1.1 hr k
        simp only [Option.getD_none, PyDict.get?_nil]
        constructor
        · intro h; cases h
        · rintro ⟨a, b⟩; omega
      | some e => exact (hrep.2 e hr).2 k m)
  rw [List.length_map] at this
  exact this

/-- **C67, the surplus.**  A table that has for each key its last record has as many rows fewer than there are records as
the exact report says that there are surplus records. -/
theorem size_add_surplus (c : TabClass) (hpk : c.pks ≠ []) (rows : List (List Cell))
    (hl : ∀ r ∈ rows, c.pks.length ≤ r.length) (rep : Option (PyDict (PKey Cell) Nat))
    (hrep : ReportsTable c.pks.length rows rep) (tab : TabVal) (ht : HoldsLast c rows tab) :
    tab.size + surplus rep = rows.length := by
  obtain ⟨D, hD, hlen, hmem⟩ := holds_keys c hpk rows hl tab ht
  rw [← hlen]
  exact report_surplus _ rows rep hrep D hD hmem

/-- What the readers pass for a table with primary key: `g` makes the value of the data cells. -/
theorem reader_dict (c : TabClass) (hpk : c.pks ≠ []) (hn : c.fields.Nodup) (g : List Cell → RowIn)
    (hg : ∀ vs, vs.length = c.dfs.length → RowGives c (g vs) (c.dfs.zip vs)) (hd : ∀ vs, DictRow (g vs))
    (rows : List (List Cell)) (hl : ∀ r ∈ rows, r.length = c.fields.length) :
    ∃ tab, initTable c (.dict (PyDict.ofList (rows.map (fun r =>
      (splitKey c.pks.length (.seq r), g (r.drop c.pks.length)))))) = some tab ∧ HoldsLast c rows tab := by
  have hdn : c.dfs.Nodup := (List.nodup_append.mp hn).2.1
  have hpos : 0 < c.pks.length := List.length_pos_iff.mpr hpk
  have hfl : c.fields.length = c.pks.length + c.dfs.length := by simp [TabClass.fields]
  have hl1 : ∀ r ∈ rows, c.pks.length ≤ r.length := fun r hr => by rw [hl r hr, hfl]; omega
  have hE : PyDict.ofList (rows.map (fun r => (splitKey c.pks.length (.seq r), g (r.drop c.pks.length)))) =
      (PyDict.ofList (rows.map (fun r => (splitKey c.pks.length (.seq r), r.drop c.pks.length)))).map
        (fun p => (p.1, g p.2)) := by
    rw [← ofList_map_val, List.map_map]
    rfl
  rw [hE]
  generalize hEd : PyDict.ofList (rows.map (fun r => (splitKey c.pks.length (.seq r), r.drop c.pks.length))) = E
  have hEn : (PyDict.keys E).Nodup := by rw [← hEd]; exact PyDict.ofList_keys_nodup _
  have hget : ∀ k, PyDict.get? E k = (rows.reverse.find? (fun r => decide (splitKey c.pks.length (.seq r) = k))).map
      (fun r => r.drop c.pks.length) := by
    intro k
    rw [← hEd, get?_ofList_reverse, ← List.map_reverse, List.find?_map, Option.map_map]
    rfl
  have hcase : ∀ k v, PyDict.get? E k = some v → ∃ r ∈ rows, splitKey c.pks.length (.seq r) = k ∧ v = r.drop c.pks.length := by
    intro k v h
    rw [hget, Option.map_eq_some_iff] at h
    obtain ⟨r, hr, rfl⟩ := h
    have h1 := List.mem_of_find?_eq_some hr
    have h2 := List.find?_some hr
    exact ⟨r, List.mem_reverse.mp h1, of_decide_eq_true h2, rfl⟩
  have hshape : ∀ k ∈ PyDict.keys E, KeyShape c.pks.length k := by
    intro k hk
    obtain ⟨v, hv⟩ := Option.isSome_iff_exists.mp (Option.isSome_iff_ne_none.mpr
        (fun e => (PyDict.get?_eq_none E k).mp e hk))
    obtain ⟨r, hr, rfl, _⟩ := hcase k v hv
    exact shape_of_record _ hpos r (hl1 r hr)
  refine ⟨.keyed (E.map (fun p => (p.1, c.dfs.zip p.2))), ?_, ?_⟩
  · rw [init_from_dict c hpk hdn _ (by rw [keys_mapVal]; exact hEn)]
    · refine ⟨?_, _, rfl, by rw [keys_mapVal, keys_mapVal], ?_⟩
      · intro k hk
        rw [keys_mapVal] at hk
        have := hshape k hk
        cases k with
        | one v => exact (show c.pks.length = 1 from this).symm
        | tup vs => exact this.1.symm
      · intro k x hx
        rw [get?_mapVal, Option.map_eq_some_iff] at hx
        obtain ⟨v, hv, rfl⟩ := hx
        refine ⟨c.dfs.zip v, by rw [get?_mapVal, hv]; rfl, hg v ?_⟩
        obtain ⟨r, hr, _, rfl⟩ := hcase k v hv
        rw [List.length_drop, hl r hr, hfl]; omega
    · intro p hp
      obtain ⟨q, _, rfl⟩ := List.mem_map.mp hp
      exact hd _
  · refine ⟨_, rfl, by rw [keys_mapVal]; exact hEn, ?_, ?_⟩
    · intro k hk
      rw [keys_mapVal] at hk
      exact hshape k hk
    · intro k hk
      rw [get?_mapVal, hget, Option.map_map]
      unfold lastRecord
      have : rows.reverse.find? (fun r => decide (splitKey c.pks.length (.seq r) = k)) =
          rows.reverse.find? (fun r => decide (r.take c.pks.length = keyCells k)) := by
        have hgen : ∀ l : List (List Cell), (∀ r ∈ l, r ∈ rows) →
            l.find? (fun r => decide (splitKey c.pks.length (.seq r) = k)) =
            l.find? (fun r => decide (r.take c.pks.length = keyCells k)) := by
          intro l
          induction l with
          | nil => intro _; rfl
          | cons r l ih =>
            intro h
            have ht := (take_of_shape _ k hk r (hl1 r (h r List.mem_cons_self))).1
            rw [List.find?_cons, List.find?_cons, ih (fun x hx => h x (List.mem_cons_of_mem _ hx))]
            have : decide (splitKey c.pks.length (.seq r) = k) = decide (r.take c.pks.length = keyCells k) := by
              rw [decide_eq_decide]; exact ht.symm
            rw [this]
        exact hgen _ (fun r hr => List.mem_reverse.mp hr)
      rw [this]
      rfl

theorem reader_holds (c : TabClass) (hpk : c.pks ≠ []) (hn : c.fields.Nodup) (rows : List (List Cell))
    (hl : ∀ r ∈ rows, r.length = c.fields.length) :
    ∃ tab, initTable c (readerTable c rows) = some tab ∧ HoldsLast c rows tab := by
  unfold readerTable
  rw [if_pos hpk]
  exact reader_dict c hpk hn RowIn.seq (fun vs h => ⟨h, rfl⟩) (fun _ => trivial) rows hl

theorem readerX_holds (c : TabClass) (hpk : c.pks ≠ []) (hn : c.fields.Nodup) (rows : List (List Cell))
    (hl : ∀ r ∈ rows, r.length = c.fields.length) :
    ∃ tab, initTable c (readerTableX c rows) = some tab ∧ HoldsLast c rows tab := by
  unfold readerTableX
  rw [if_pos hpk]
  refine reader_dict c hpk hn (xlData c) (fun vs h => ?_) (fun vs => ?_) rows hl
  · match vs with
    | [] => exact ⟨h, rfl⟩
    | [v] =>
      have h1 : c.dfs.length = 1 := h.symm
      simp only [xlData, if_pos h1]
      obtain ⟨f, hf⟩ := List.length_eq_one_iff.mp h1
      exact ⟨f, hf, by rw [hf]; rfl⟩
    | a :: b :: l => exact ⟨h, rfl⟩
  · match vs with
    | [] => trivial
    | [v] => simp only [xlData]; split <;> trivial
    | a :: b :: l => trivial

theorem empty_holds (c : TabClass) (hpk : c.pks ≠ []) : HoldsLast c [] (emptyTable c) := by
  refine ⟨[], by simp [emptyTable, hpk], by simp [PyDict.keys], by simp [PyDict.keys], fun k _ => rfl⟩

theorem postReadTab_size (env : TextEnv) (params : Params) (t : String) (tab : TabVal) :
    (postReadTab env params t tab).size = tab.size := by
  unfold postReadTab
  split
  · rfl
  · split
    · cases tab <;> simp [TabVal.size]
    · rfl

theorem readAs_of (env : TextEnv) (params : Params) (tc : String × TabClass) (hpk : tc.2.pks ≠ []) (rows : List (List Cell))
    (hl : ∀ r ∈ rows, tc.2.pks.length ≤ r.length) (rep : Option (PyDict (PKey Cell) Nat))
    (hrep : ReportsTable tc.2.pks.length rows rep) (tab : TabVal) (ht : HoldsLast tc.2 rows tab) (dat : PyDict String TabVal)
    (hdat : PyDict.get? dat tc.1 = some (postReadTab env params tc.1 tab)) : ReadAs params tc rows rep dat := by
  refine ⟨_, hdat, ?_, ?_⟩
  · rw [postReadTab_size]
    exact size_add_surplus tc.2 hpk rows hl rep hrep tab ht
  · intro h
    have : postReadTab env params tc.1 tab = tab := by
      unfold postReadTab
      by_cases hp : params = []
      · rw [if_pos hp]
      · rw [if_neg hp, if_neg (h.resolve_left hp)]
    rw [this]
    exact ht

end Ticdat

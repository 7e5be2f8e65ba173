import Verif.Props.RowFactory
import Verif.Spec.Init
import Verif.Lemmas.FindFK
/-!
# C45: building a data object from rows
-/
namespace Ticdat
open Spec
set_option linter.unusedSimpArgs false

theorem mapM_eq_map {A B : Type} {g : A → Option B} {k : A → B} {l : List A} (h : ∀ a ∈ l, g a = some (k a)) :
    l.mapM g = some (l.map k) := by
  rw [mapM_eq_some_iff, List.map_map]
  exact List.map_congr_left h

theorem mapM_none_of {A B : Type} {g : A → Option B} {l : List A} {a : A} (ha : a ∈ l) (h : g a = none) :
    l.mapM g = none := by
  cases hm : l.mapM g with
  | none => rfl
  | some r =>
    rw [mapM_eq_some_iff] at hm
    have : none ∈ l.map g := List.mem_map.mpr ⟨a, ha, h⟩
    rw [hm] at this
    simp at this

theorem mapM_option_map {A B C : Type} (g : A → Option B) (k : A → B → C) (l : List A) (r : List B)
    (h : l.mapM g = some r) : l.mapM (fun a => (g a).map (k a)) = some ((l.zip r).map (fun p => k p.1 p.2)) := by
  induction l generalizing r with
  | nil => simp at h; simp
  | cons a l ih =>
    rw [mapM_eq_some_iff] at h
    cases r with
    | nil => simp at h
    | cons b r =>
      simp only [List.map_cons, List.cons.injEq] at h
      have hl : l.mapM g = some r := (mapM_eq_some_iff g l r).mpr h.2
      have := ih r hl
      rw [List.mapM_cons, this, h.1]
      rfl

/-- The row factory accepts exactly the rows that the check accepts. -/
theorem goodRow_iff (c : TabClass) (x : RowIn) : goodRow c.dfs x = true ↔ ∃ row, initRow c x = some row := by
  unfold initRow
  by_cases hc : c.dfs = []
  · cases x with
    | dict d =>
      cases d with
      | nil => simp [goodRow, rowFactory, hc, PyDict.keys]
      | cons p rest => simp [goodRow, rowFactory, hc, PyDict.keys]
    | seq vs =>
      cases vs with
      | nil => simp [goodRow, rowFactory, hc]
      | cons p rest => simp [goodRow, rowFactory, hc]
    | scalar v => simp [goodRow, rowFactory, hc]
  · cases x with
    | dict d =>
      have : d.all (fun p => decide (p.1 ∈ c.dfs)) = (PyDict.keys d).all (fun f => decide (f ∈ c.dfs)) := by
        simp [PyDict.keys, List.all_map, Function.comp_def]
      simp only [goodRow, rowFactory, hc, if_false, this]
      by_cases h : (PyDict.keys d).all (fun f => decide (f ∈ c.dfs)) = true
      · simp [h]
      · simp [h]
    | seq vs =>
      simp only [goodRow, rowFactory, hc, if_false, decide_eq_true_eq]
      by_cases h : vs.length = c.dfs.length <;> simp [h]
    | scalar v =>
      simp only [goodRow, rowFactory, hc, if_false, decide_eq_true_eq]
      by_cases h : c.dfs.length = 1 <;> simp [h]

/-- What is stored for a row. -/
theorem initRow_iff (c : TabClass) (hn : c.dfs.Nodup) (x : RowIn) (hx : DictRow x) (row : RowVal) :
    initRow c x = some row ↔ RowGives c x row := by
  unfold initRow
  rw [Option.map_eq_some_iff]
  cases x with
  | dict d => exact assign_dict_iff c d hn hx row
  | seq vs => exact assign_seq_iff c vs row
  | scalar v => exact assign_scalar_iff c v row

theorem rowGives_keys (c : TabClass) (x : RowIn) (row : RowVal) (h : RowGives c x row) : PyDict.keys row = c.dfs := by
  unfold PyDict.keys
  cases x with
  | dict d => rw [h.2]; simp [filledRow, Function.comp_def]
  | seq vs => rw [h.2, List.map_fst_zip (by rw [h.1]; exact Nat.le_refl _)]
  | scalar v => obtain ⟨f, hf, rfl⟩ := h; simp [hf]

theorem goodRow_iff_fits (fields : List String) (x : RowIn) : goodRow fields x = true ↔ RowFits fields x := by
  cases x <;> simp [goodRow, RowFits]

/-! ### Dictionaries -/

/-- **C45, dictionaries.**  A dictionary passed for a table with primary key fields is accepted exactly if its keys have
as many entries as there are key fields and each row is acceptable; the table then has the same keys in the same order,
and each row is what its input row stands for. -/
theorem init_from_dict (c : TabClass) (hpk : c.pks ≠ []) (hn : c.dfs.Nodup) (d : PyDict KeyArg RowIn)
    (hd : (PyDict.keys d).Nodup) (hr : ∀ p ∈ d, DictRow p.2) (tab : TabVal) :
    initTable c (.dict d) = some tab ↔ (∀ k ∈ PyDict.keys d, keyLen k = c.pks.length) ∧
      ∃ d', tab = .keyed d' ∧ PyDict.keys d' = PyDict.keys d ∧
        ∀ k x, PyDict.get? d k = some x → ∃ row, PyDict.get? d' k = some row ∧ RowGives c x row := by
  have hv : (∀ k ∈ PyDict.keys d, keyLen k = c.pks.length) →
      (PyDict.keys d).all (keyVerify c.pks.length) = true := by
    intro h
    rw [List.all_eq_true]
    intro k hk
    have := h k hk
    have hpos : 0 < c.pks.length := List.length_pos_iff.mpr hpk
    cases k with
    | one v => simp [keyVerify]; simp [keyLen] at this; omega
    | tup vs =>
      simp [keyVerify, keyLen] at this ⊢
      omega
  have hgood : goodTableForInit c (.dict d) = true ↔
      (∀ k ∈ PyDict.keys d, keyLen k = c.pks.length) ∧ ∀ p ∈ d, goodRow c.dfs p.2 = true := by
    unfold goodTableForInit
    rw [if_pos hpk]
    cases d with
    | nil => simp [PyDict.keys]
    | cons p rest => simp [List.all_eq_true]
  constructor
  · intro h
    unfold initTable at h
    by_cases hg : goodTableForInit c (.dict d) = true
    · rw [if_pos hg, if_pos hpk] at h
      obtain ⟨h1, h2⟩ := hgood.mp hg
      simp only [hv h1, if_true] at h
      refine ⟨h1, ?_⟩
      rw [Option.map_eq_some_iff] at h
      obtain ⟨l, hl, rfl⟩ := h
      rw [mapM_eq_some_iff] at hl
      have hkeys : PyDict.keys l = PyDict.keys d := by
        have h3 := congrArg (List.map (fun o : Option (KeyArg × RowVal) => o.map Prod.fst)) hl
        have hleft : (List.map (fun o : Option (KeyArg × RowVal) => o.map Prod.fst)
            (d.map (fun p => (initRow c p.2).map (fun row => (p.1, row))))) = (PyDict.keys d).map some := by
          unfold PyDict.keys
          rw [List.map_map, List.map_map]
          apply List.map_congr_left
          intro p hp
          obtain ⟨row, hrow⟩ := (goodRow_iff c p.2).mp (h2 p hp)
          simp [hrow]
        rw [hleft, List.map_map] at h3
        have h4 : (PyDict.keys d).map some = (PyDict.keys l).map some := by
          rw [h3]; simp [PyDict.keys, Function.comp_def]
        exact ((List.map_inj_right (fun _ _ => Option.some.inj)).mp h4).symm
      have hln : (PyDict.keys l).Nodup := by rw [hkeys]; exact hd
      rw [PyDict.ofList_of_nodup l hln]
      refine ⟨l, rfl, hkeys, fun k x hx => ?_⟩
      have hm := PyDict.get?_mem hx
      have h5 : (initRow c x).map (fun row => (k, row)) ∈ l.map some := by
        rw [← hl]
        exact List.mem_map.mpr ⟨(k, x), hm, rfl⟩
      obtain ⟨q, hq, he⟩ := List.mem_map.mp h5
      cases hrow : initRow c x with
      | none => rw [hrow] at he; cases he
      | some row =>
        rw [hrow] at he
        cases he
        exact ⟨row, PyDict.get?_of_mem hln hq, (initRow_iff c hn x (hr _ hm) row).mp hrow⟩
    · rw [if_neg hg] at h; cases h
  · rintro ⟨h1, d', rfl, hk, hrow⟩
    have h2 : ∀ p ∈ d, goodRow c.dfs p.2 = true := by
      intro p hp
      obtain ⟨row, _, hg⟩ := hrow p.1 p.2 (PyDict.get?_of_mem hd hp)
      exact (goodRow_iff c p.2).mpr ⟨row, (initRow_iff c hn p.2 (hr p hp) row).mpr hg⟩
    unfold initTable
    rw [if_pos (hgood.mpr ⟨h1, h2⟩), if_pos hpk]
    simp only [hv h1, if_true]
    have hd' : (PyDict.keys d').Nodup := by rw [hk]; exact hd
    have hm : d.mapM (fun p => (initRow c p.2).map (fun row => (p.1, row))) = some d' := by
      rw [mapM_eq_some_iff]
      apply List.ext_getElem?
      intro i
      rw [List.getElem?_map, List.getElem?_map]
      have hki := congrArg (fun l => l[i]?) hk
      simp only [PyDict.keys, List.getElem?_map] at hki
      cases hdi : d[i]? with
      | none =>
        rw [hdi] at hki
        cases hdi' : d'[i]? with
        | none => rfl
        | some q => rw [hdi'] at hki; cases hki
      | some p =>
        rw [hdi] at hki
        cases hdi' : d'[i]? with
        | none => rw [hdi'] at hki; cases hki
        | some q =>
          rw [hdi'] at hki
          simp only [Option.map_some, Option.some.injEq] at hki ⊢
          obtain ⟨row, hget, hg⟩ := hrow p.1 p.2 (PyDict.get?_of_mem hd (List.mem_of_getElem? hdi))
          rw [(initRow_iff c hn p.2 (hr p (List.mem_of_getElem? hdi)) row).mpr hg]
          have hq := PyDict.get?_of_mem hd' (List.mem_of_getElem? hdi')
          rw [hki, hget] at hq
          simp only [Option.map_some, Option.some.injEq] at hq ⊢
          rw [hq, ← hki]
    rw [hm, Option.map_some, PyDict.ofList_of_nodup d' hd']

/-! ### Lists of rows -/

theorem handle_fits (fields : List String) (hn : fields.Nodup) (r : RowIn) (h : RowFits fields r) :
    (∃ v, r = .scalar v ∧ fields.length = 1 ∧ handleRowDict fields r = .scalar v) ∨
      handleRowDict fields r = .seq (fields.map (cellOf fields r)) := by
  cases r with
  | dict d => exact .inr rfl
  | scalar v => exact .inl ⟨v, rfl, h, rfl⟩
  | seq vs =>
    right
    simp only [handleRowDict, RowIn.seq.injEq]
    have hl : vs.length = fields.length := h
    apply List.ext_getElem
    · simp [hl]
    · intro i h1 h2
      have hi : i < fields.length := by omega
      rw [List.getElem_map]
      simp [cellOf, hn.idxOf_getElem i hi, h1]

theorem initListRow_fits (c : TabClass) (hpk : c.pks ≠ []) (hn : (c.pks ++ c.dfs).Nodup) (r : RowIn)
    (h : RowFits (c.pks ++ c.dfs) r) : initListRow c r = some (keyOf c r, dataOf c r) := by
  have hnd : c.dfs.Nodup := (List.nodup_append.mp hn).2.1
  rcases handle_fits _ hn r h with ⟨v, rfl, hlen, hh⟩ | hh
  · have hl : c.pks.length + c.dfs.length = 1 := by simpa using hlen
    have hpos : 0 < c.pks.length := List.length_pos_iff.mpr hpk
    have hdfs : c.dfs = [] := List.length_eq_zero_iff.mp (by omega)
    obtain ⟨p, hp⟩ := List.length_eq_one_iff.mp (show c.pks.length = 1 by omega)
    unfold initListRow
    rw [hh]
    simp [splitData, splitKey, initRow, rowFactory, hdfs, RowObj.fields, keyOf, hp, cellOf, dataOf]
  · unfold initListRow
    rw [hh]
    have hdrop : ((c.pks ++ c.dfs).map (cellOf (c.pks ++ c.dfs) r)).drop c.pks.length =
        c.dfs.map (cellOf (c.pks ++ c.dfs) r) := by
      rw [← List.map_drop, List.drop_left]
    have htake : ((c.pks ++ c.dfs).map (cellOf (c.pks ++ c.dfs) r)).take c.pks.length =
        c.pks.map (cellOf (c.pks ++ c.dfs) r) := by
      rw [← List.map_take, List.take_left]
    have hrow : initRow c (.seq (c.dfs.map (cellOf (c.pks ++ c.dfs) r))) = some (dataOf c r) := by
      rw [initRow_iff c hnd _ (show DictRow (.seq _) from trivial)]
      refine ⟨by simp, ?_⟩
      unfold dataOf
      rw [List.zip_map_right]
      rw [show c.dfs.zip c.dfs = c.dfs.map (fun f => (f, f)) from by
        rw [List.zip_eq_zipWith, List.zipWith_self]]
      simp [Function.comp_def]
    simp only [splitData, hdrop, hrow, Option.map_some, Option.some.injEq, Prod.mk.injEq, and_true]
    simp only [splitKey, htake]
    by_cases hone : c.pks.length = 1
    · obtain ⟨p, hp⟩ := List.length_eq_one_iff.mp hone
      simp [keyOf, hp]
    · rw [if_neg hone]
      unfold keyOf
      split
      · rename_i p hp
        exact absurd (by rw [hp]; rfl) hone
      · rfl

theorem get?_ofList_last {K V : Type} [DecidableEq K] (l : List (K × V)) (k : K) :
    PyDict.get? (PyDict.ofList l) k = ((l.filter (fun p => decide (p.1 = k))).getLast?).map Prod.snd := by
  unfold PyDict.ofList
  rw [PyDict.get?_foldl_set]
  have : l.reverse.find? (fun p => decide (p.1 = k)) = (l.filter (fun p => decide (p.1 = k))).getLast? := by
    rw [← List.head?_filter, List.filter_reverse, List.head?_reverse]
  rw [this]
  cases (l.filter (fun p => decide (p.1 = k))).getLast? with
  | none => rfl
  | some p => rfl

/-- **C45, lists of rows for a table with primary key.**  Accepted exactly if each row has the right fields; the table
then has a row for exactly the keys that occur, namely the data fields of the *last* row with that key; and if the keys
are distinct, the rows of the table are the given ones in the given order. -/
theorem init_from_rows_partial (c : TabClass) (hpk : c.pks ≠ []) (hn : (c.pks ++ c.dfs).Nodup) (rows : List RowIn) :
    (initTable c (.seq rows) ≠ none ↔ ∀ r ∈ rows, RowFits (c.pks ++ c.dfs) r) ∧
    ∀ tab, initTable c (.seq rows) = some tab → ∃ d, tab = .keyed d ∧ (PyDict.keys d).Nodup ∧
      (∀ k, PyDict.get? d k = ((rows.filter (fun r => decide (keyOf c r = k))).getLast?).map (dataOf c)) ∧
      ((rows.map (keyOf c)).Nodup → d = rows.map (fun r => (keyOf c r, dataOf c r))) := by
  have hgood : goodTableForInit c (.seq rows) = true ↔ ∀ r ∈ rows, RowFits (c.pks ++ c.dfs) r := by
    unfold goodTableForInit
    rw [if_pos hpk]
    simp [List.all_eq_true, goodRow_iff_fits]
  have hval : (∀ r ∈ rows, RowFits (c.pks ++ c.dfs) r) → initTable c (.seq rows) =
      some (.keyed (PyDict.ofList (rows.map (fun r => (keyOf c r, dataOf c r))))) := by
    intro h
    unfold initTable
    rw [if_pos (hgood.mpr h), if_pos hpk]
    simp only
    rw [mapM_eq_map (k := fun r => (keyOf c r, dataOf c r)) (fun r hr => initListRow_fits c hpk hn r (h r hr))]
    rfl
  constructor
  · constructor
    · intro h
      refine Classical.byContradiction (fun hc => h ?_)
      unfold initTable
      rw [if_neg (fun hg => hc (hgood.mp hg))]
    · intro h; rw [hval h]; simp
  · intro tab htab
    have hfit : ∀ r ∈ rows, RowFits (c.pks ++ c.dfs) r := by
      refine Classical.byContradiction (fun hc => ?_)
      unfold initTable at htab
      rw [if_neg (fun hg => hc (hgood.mp hg))] at htab
      cases htab
    rw [hval hfit] at htab
    cases htab
    refine ⟨_, rfl, PyDict.ofList_keys_nodup _, fun k => ?_, fun hnd => ?_⟩
    · rw [get?_ofList_last, List.filter_map, List.getLast?_map, Option.map_map]
      rfl
    · apply PyDict.ofList_of_nodup
      unfold PyDict.keys
      rw [List.map_map]
      exact hnd

/-- **C45, tables without primary key.**  Accepted exactly if every row is acceptable; the table has the rows in order. -/
theorem init_plain (c : TabClass) (hpk : c.pks = []) (hn : c.dfs.Nodup) (rows : List RowIn)
    (hr : ∀ r ∈ rows, DictRow r) (tab : TabVal) :
    initTable c (.seq rows) = some tab ↔
      ∃ out, tab = .plain out ∧ out.length = rows.length ∧
        ∀ (i : Nat) x row, rows[i]? = some x → out[i]? = some row → RowGives c x row := by
  unfold initTable goodTableForInit
  simp only [hpk, ne_eq, not_true_eq_false, if_false]
  constructor
  · intro h
    split at h
    · rw [Option.map_eq_some_iff] at h
      obtain ⟨out, hout, rfl⟩ := h
      rw [mapM_eq_some_iff] at hout
      refine ⟨out, rfl, by simpa using (congrArg List.length hout).symm, fun i x row hx hrow => ?_⟩
      have := congrArg (fun l => l[i]?) hout
      simp only [List.getElem?_map, hx, hrow, Option.map_some, Option.some.injEq] at this
      exact (initRow_iff c hn x (hr x (List.mem_of_getElem? hx)) row).mp this
    · cases h
  · rintro ⟨out, rfl, hlen, hrow⟩
    have hpt : ∀ (i : Nat) (h : i < rows.length), initRow c rows[i] = some (out[i]'(by omega)) := by
      intro i h
      rw [initRow_iff c hn _ (hr _ (List.getElem_mem h))]
      exact hrow i _ _ (List.getElem?_eq_getElem h) (List.getElem?_eq_getElem (by omega))
    have hall : rows.all (goodRow c.dfs) = true := by
      rw [List.all_eq_true]
      intro r hr'
      obtain ⟨i, hi, rfl⟩ := List.mem_iff_getElem.mp hr'
      exact (goodRow_iff c _).mpr ⟨_, hpt i hi⟩
    rw [if_pos hall]
    have : rows.mapM (initRow c) = some out := by
      rw [mapM_eq_some_iff]
      apply List.ext_getElem
      · simp [hlen]
      · intro i h1 h2
        rw [List.getElem_map, List.getElem_map]
        exact hpt i (by simpa using h1)
    rw [this]
    rfl

/-! ### Duplicates and whole objects -/

theorem length_set {K V : Type} [DecidableEq K] (d : PyDict K V) (k : K) (v : V) :
    List.length (PyDict.set d k v) = if k ∈ PyDict.keys d then List.length d else List.length d + 1 := by
  induction d with
  | nil => simp [PyDict.set, PyDict.keys]
  | cons p rest ih =>
    obtain ⟨a, b⟩ := p
    by_cases h : a = k
    · simp [PyDict.set, PyDict.keys, h]
    · have h' : ¬ k = a := fun e => h e.symm
      have hm : k ∈ PyDict.keys ((a, b) :: rest) ↔ k ∈ PyDict.keys rest := by simp [PyDict.keys, h']
      rw [show PyDict.set ((a, b) :: rest) k v = (a, b) :: PyDict.set rest k v from by simp [PyDict.set, h]]
      rw [List.length_cons, ih]
      simp only [hm, List.length_cons]
      split <;> rfl

theorem ofList_length {K V : Type} [DecidableEq K] (l : List (K × V)) :
    List.length (PyDict.ofList l) ≤ l.length ∧
      (List.length (PyDict.ofList l) = l.length ↔ (l.map Prod.fst).Nodup) := by
  have : ∀ (l : List (K × V)) (d : PyDict K V), (PyDict.keys d).Nodup →
      List.length (l.foldl (fun d p => PyDict.set d p.1 p.2) d) ≤ List.length d + l.length ∧
      (List.length (l.foldl (fun d p => PyDict.set d p.1 p.2) d) = List.length d + l.length ↔
        (PyDict.keys d ++ l.map Prod.fst).Nodup) := by
    intro l
    induction l with
    | nil => intro d hd; simp [hd]
    | cons p rest ih =>
      intro d hd
      obtain ⟨h1, h2⟩ := ih (PyDict.set d p.1 p.2) (PyDict.keys_set_nodup _ _ _ hd)
      rw [List.foldl_cons]
      rw [length_set] at h1 h2
      by_cases hk : p.1 ∈ PyDict.keys d
      · rw [if_pos hk] at h1 h2
        refine ⟨by simp only [List.length_cons]; omega, ⟨fun h => ?_, fun h => ?_⟩⟩
        · simp only [List.length_cons] at h; omega
        · rw [List.nodup_append] at h
          exact absurd rfl (h.2.2 _ hk _ (by simp))
      · rw [if_neg hk] at h1 h2
        have hset : PyDict.keys (PyDict.set d p.1 p.2) = PyDict.keys d ++ [p.1] := by
          rw [PyDict.set_of_not_mem d p.1 p.2 hk]
          simp [PyDict.keys]
        rw [hset] at h2
        refine ⟨by simp only [List.length_cons]; omega, ?_⟩
        rw [show List.length d + (p :: rest).length = List.length d + 1 + rest.length from by
          simp only [List.length_cons]; omega, h2]
        simp
  have h := this l [] (by simp [PyDict.keys])
  simpa [PyDict.ofList, PyDict.keys] using h

/-- **C45, whole objects.**  A successful construction gives every table of the schema and no other; a table that was not
passed is empty, one that was passed is what its rows stand for. -/
theorem init_object (policy : DupPolicy) (schema : List (String × TabClass)) (hs : (schema.map Prod.fst).Nodup)
    (input : PyDict String TableIn) (tabs : PyDict String TabVal) (h : initDat policy schema input = some tabs) :
    PyDict.keys tabs = schema.map Prod.fst ∧ (∀ t ∈ PyDict.keys input, t ∈ schema.map Prod.fst) ∧
      ∀ tc ∈ schema, ∃ tab, PyDict.get? tabs tc.1 = some tab ∧
        ((PyDict.get? input tc.1 = none ∧ tab = emptyTable tc.2) ∨
          ∃ x, PyDict.get? input tc.1 = some x ∧ initTable tc.2 x = some tab) := by
  unfold initDat at h
  split at h
  · rename_i hin
    split at h
    · cases h
    · rename_i tabs' htabs
      have htt : tabs' = tabs := by
        split at h
        · cases h
        · exact Option.some.inj h
      subst htt
      rw [mapM_eq_some_iff] at htabs
      have hpt : ∀ tc ∈ schema, ∃ tab, (tc.1, tab) ∈ tabs' ∧
          ((PyDict.get? input tc.1 = none ∧ tab = emptyTable tc.2) ∨
            ∃ x, PyDict.get? input tc.1 = some x ∧ initTable tc.2 x = some tab) := by
        intro tc htc
        have := List.mem_map_of_mem (f := initEntry input) htc
        rw [htabs] at this
        unfold initEntry at this
        obtain ⟨q, hq, he⟩ := List.mem_map.mp this
        cases hg : PyDict.get? input tc.1 with
        | none =>
          rw [hg] at he
          cases he
          exact ⟨_, hq, .inl ⟨rfl, rfl⟩⟩
        | some x =>
          rw [hg] at he
          simp only at he
          cases hi : initTable tc.2 x with
          | none => rw [hi] at he; cases he
          | some tab =>
            rw [hi] at he
            cases he
            exact ⟨tab, hq, .inr ⟨x, rfl, hi⟩⟩
      have hkeys : PyDict.keys tabs' = schema.map Prod.fst := by
        have h3 := congrArg (List.map (fun o : Option (String × TabVal) => o.map Prod.fst)) htabs
        rw [List.map_map, List.map_map] at h3
        have h4 : (schema.map Prod.fst).map some = (PyDict.keys tabs').map some := by
          unfold PyDict.keys
          rw [List.map_map, List.map_map]
          refine Eq.trans ?_ h3
          apply List.map_congr_left
          intro tc htc
          obtain ⟨tab, _, h5⟩ := hpt tc htc
          rcases h5 with ⟨hg, _⟩ | ⟨x, hg, hi⟩
          · simp [initEntry, hg]
          · simp [initEntry, hg, hi]
        exact ((List.map_inj_right (fun _ _ => Option.some.inj)).mp h4).symm
      have hnd : (PyDict.keys tabs').Nodup := by rw [hkeys]; exact hs
      refine ⟨hkeys, ?_, ?_⟩
      · intro t ht
        obtain ⟨p, hp, rfl⟩ := List.mem_map.mp ht
        have := List.all_eq_true.mp hin p hp
        exact of_decide_eq_true this
      · intro tc htc
        obtain ⟨tab, hm, h5⟩ := hpt tc htc
        exact ⟨tab, PyDict.get?_of_mem hnd hm, h5⟩
  · cases h

theorem initTable_size (c : TabClass) (x : TableIn) (tab : TabVal) (hn : (c.pks ++ c.dfs).Nodup)
    (hx : ∀ d, x = .dict d → (PyDict.keys d).Nodup) (h : initTable c x = some tab) :
    x.size > tab.size ↔ c.pks ≠ [] ∧ ∃ rows, x = .seq rows ∧ ¬ (rows.map (keyOf c)).Nodup := by
  by_cases hpk : c.pks = []
  · simp only [hpk, ne_eq, not_true_eq_false, false_and, iff_false]
    unfold initTable at h
    simp only [hpk, ne_eq, not_true_eq_false, if_false] at h
    split at h
    · cases x with
      | seq rows =>
        simp only [Option.map_eq_some_iff] at h
        obtain ⟨out, ho, rfl⟩ := h
        have := congrArg List.length ((mapM_eq_some_iff _ _ _).mp ho)
        simp at this
        simp [TableIn.size, TabVal.size, this]
      | dict d =>
        simp only [Option.map_eq_some_iff] at h
        obtain ⟨out, ho, rfl⟩ := h
        have := congrArg List.length ((mapM_eq_some_iff _ _ _).mp ho)
        simp [PyDict.keys] at this
        simp [TableIn.size, TabVal.size, this]
    · cases h
  · cases x with
    | seq rows =>
      obtain ⟨hok, _⟩ := init_from_rows_partial c hpk hn rows
      have hfit := hok.mp (by rw [h]; simp)
      have hgood : goodTableForInit c (.seq rows) = true := by
        unfold goodTableForInit
        rw [if_pos hpk]
        simp [List.all_eq_true, goodRow_iff_fits]
        exact hfit
      unfold initTable at h
      rw [if_pos hgood, if_pos hpk] at h
      simp only at h
      rw [mapM_eq_map (k := fun r => (keyOf c r, dataOf c r)) (fun r hr => initListRow_fits c hpk hn r (hfit r hr))] at h
      cases h
      obtain ⟨h1, h2⟩ := ofList_length (rows.map (fun r => (keyOf c r, dataOf c r)))
      rw [List.map_map] at h2
      simp only [List.length_map] at h1 h2
      simp only [TableIn.size, TabVal.size, ne_eq, hpk, not_false_eq_true, true_and, TableIn.seq.injEq, exists_eq_left']
      have h2' : List.length (PyDict.ofList (rows.map (fun r => (keyOf c r, dataOf c r)))) = rows.length ↔
        (rows.map (keyOf c)).Nodup := h2
      rw [← h2']
      omega
    | dict d =>
      have hnone : ¬ ∃ rows, TableIn.dict d = .seq rows ∧ ¬ (rows.map (keyOf c)).Nodup := by
        rintro ⟨rows, e, _⟩; cases e
      simp only [hnone, and_false, iff_false]
      unfold initTable at h
      simp only [ne_eq, hpk, not_false_eq_true, if_true] at h
      split at h
      · split at h
        · simp only [Option.map_eq_some_iff] at h
          obtain ⟨l, hl, rfl⟩ := h
          rw [mapM_eq_some_iff] at hl
          have hlen : d.length = l.length := by simpa using congrArg List.length hl
          have hkeys : (l.map Prod.fst).Nodup := by
            have hsub : (PyDict.keys d).map some = (l.map Prod.fst).map some := by
              have h3 := congrArg (List.map (fun o : Option (KeyArg × RowVal) => o.map Prod.fst)) hl
              rw [List.map_map, List.map_map] at h3
              rw [List.map_map]
              refine Eq.trans ?_ h3
              unfold PyDict.keys
              rw [List.map_map]
              apply List.map_congr_left
              intro p hp
              cases hi : initRow c p.2 with
              | none =>
                have : none ∈ l.map some := by rw [← hl]; exact List.mem_map.mpr ⟨p, hp, by simp [hi]⟩
                simp at this
              | some row => simp [hi]
            rw [← (List.map_inj_right (fun _ _ => Option.some.inj)).mp hsub]
            exact hx d rfl
          have := (ofList_length l).2.mpr hkeys
          simp only [TableIn.size, TabVal.size]
          omega
        · cases h
      · cases h

/-- **C45, duplicates.**  With the default policy, a construction whose tables are all acceptable raises exactly if some
table with primary key was given as a list in which two rows have the same key; with the other policies it succeeds. -/
theorem init_duplicates (policy : DupPolicy) (schema : List (String × TabClass)) (hs : (schema.map Prod.fst).Nodup)
    (hn : ∀ tc ∈ schema, (tc.2.pks ++ tc.2.dfs).Nodup) (input : PyDict String TableIn)
    (hi : (PyDict.keys input).Nodup) (hin : ∀ t ∈ PyDict.keys input, t ∈ schema.map Prod.fst)
    (hx : ∀ t d, PyDict.get? input t = some (.dict d) → (PyDict.keys d).Nodup)
    (hgood : ∀ tc ∈ schema, ∀ x, PyDict.get? input tc.1 = some x → initTable tc.2 x ≠ none) :
    initDat policy schema input = none ↔ policy = .assert ∧
      ∃ tc ∈ schema, tc.2.pks ≠ [] ∧ ∃ rows, PyDict.get? input tc.1 = some (.seq rows) ∧
        ¬ (rows.map (keyOf tc.2)).Nodup := by
  have hall : input.all (fun p => decide (p.1 ∈ schema.map Prod.fst)) = true := by
    rw [List.all_eq_true]
    intro p hp
    exact decide_eq_true (hin p.1 (List.mem_map.mpr ⟨p, hp, rfl⟩))
  obtain ⟨tabs, htabs⟩ : ∃ tabs, schema.mapM (initEntry input) = some tabs := by
    apply mapM_some_of_forall
    intro tc htc
    unfold initEntry
    cases hg : PyDict.get? input tc.1 with
    | none => simp
    | some x =>
      cases hi' : initTable tc.2 x with
      | none => exact absurd hi' (hgood tc htc x hg)
      | some tab => simp [hi']
  have hkeep : initDat .ignore schema input = some tabs := by
    unfold initDat
    rw [if_pos hall, htabs]
    rfl
  obtain ⟨hk, _, hpt⟩ := init_object .ignore schema hs input tabs hkeep
  have hany : (input.any (fun p => decide (p.2.size > ((PyDict.get? tabs p.1).map TabVal.size).getD 0))) = true ↔
      ∃ tc ∈ schema, tc.2.pks ≠ [] ∧ ∃ rows, PyDict.get? input tc.1 = some (.seq rows) ∧
        ¬ (rows.map (keyOf tc.2)).Nodup := by
    rw [List.any_eq_true]
    constructor
    · rintro ⟨p, hp, hsz⟩
      have hsz := of_decide_eq_true hsz
      obtain ⟨tc, htc, he⟩ := List.mem_map.mp (hin p.1 (List.mem_map.mpr ⟨p, hp, rfl⟩))
      have hg : PyDict.get? input tc.1 = some p.2 := by rw [he]; exact PyDict.get?_of_mem hi hp
      obtain ⟨tab, ht, hcase⟩ := hpt tc htc
      rcases hcase with ⟨hnone, _⟩ | ⟨x, hx', hinit⟩
      · rw [hnone] at hg; cases hg
      · rw [hx'] at hg
        cases hg
        rw [he] at ht
        rw [ht] at hsz
        obtain ⟨hpk, rows, hrows, hdup⟩ := (initTable_size tc.2 p.2 tab (hn tc htc)
          (fun d hd => hx tc.1 d (by rw [hx', hd])) hinit).mp hsz
        exact ⟨tc, htc, hpk, rows, by rw [hx', hrows], hdup⟩
    · rintro ⟨tc, htc, hpk, rows, hg, hdup⟩
      refine ⟨(tc.1, .seq rows), PyDict.get?_mem hg, decide_eq_true ?_⟩
      obtain ⟨tab, ht, hcase⟩ := hpt tc htc
      rcases hcase with ⟨hnone, _⟩ | ⟨x, hx', hinit⟩
      · rw [hnone] at hg; cases hg
      · rw [hx'] at hg
        cases hg
        rw [ht]
        exact (initTable_size tc.2 (.seq rows) tab (hn tc htc) (fun d hd => by cases hd) hinit).mpr
          ⟨hpk, rows, rfl, hdup⟩
  unfold initDat
  rw [if_pos hall, htabs]
  simp only
  split
  · rename_i h
    rw [Bool.and_eq_true, decide_eq_true_eq, hany] at h
    exact iff_of_true rfl h
  · rename_i h
    rw [Bool.and_eq_true, decide_eq_true_eq, hany] at h
    exact iff_of_false (by simp) h

example : initDat .assert [("t", ⟨["a"], ["q"], []⟩)] [("t", .seq [.seq [.str "x", .num (.fin 3)],
    .dict [("a", .str "x")]])] = none :=
  (init_duplicates .assert _ (by decide) (by simp) _ (by decide) (by decide)
    (by intro t d h; simp only [PyDict.get?] at h; split at h <;> cases h)
    (by intro tc htc x hx; simp at htc; subst htc; simp [PyDict.get?] at hx; subst hx; decide)).mpr
    ⟨rfl, _, List.mem_singleton.mpr rfl, by decide, _, rfl, by decide⟩

/-- The table that results is well shaped, if keys of dictionaries are (a tuple of one entry is accepted as a key of a
table with one key field, ticdatfactory.py:829-832). -/
theorem init_well_shaped (c : TabClass) (hn : (c.pks ++ c.dfs).Nodup) (rows : List RowIn) (hr : ∀ r ∈ rows, DictRow r)
    (tab : TabVal) (h : initTable c (.seq rows) = some tab) : WellShaped c tab := by
  by_cases hpk : c.pks = []
  · obtain ⟨out, rfl, hlen, hrow⟩ := (init_plain c hpk (List.nodup_append.mp hn).2.1 rows hr tab).mp h
    refine ⟨hpk, fun r hr' => ?_⟩
    obtain ⟨i, hi⟩ := List.mem_iff_getElem?.mp hr'
    have hlt : i < rows.length := by
      have := (List.getElem?_eq_some_iff.mp hi).1
      omega
    exact rowGives_keys c _ r (hrow i _ r (List.getElem?_eq_getElem hlt) hi)
  · obtain ⟨d, rfl, hd, hget, _⟩ := (init_from_rows_partial c hpk hn rows).2 tab h
    refine ⟨hpk, hd, fun p hp => ?_⟩
    have := PyDict.get?_of_mem hd hp
    rw [hget, Option.map_eq_some_iff] at this
    obtain ⟨r, hr', he⟩ := this
    have hm := List.mem_of_getLast? hr'
    rw [List.mem_filter] at hm
    have hk := of_decide_eq_true hm.2
    constructor
    · rw [← hk]
      unfold keyOf
      split
      · rename_i q hq; simp [KeyShape, hq]
      · rename_i hne
        refine ⟨by simp, ?_⟩
        intro e
        obtain ⟨q, hq⟩ := List.length_eq_one_iff.mp e
        exact hne q hq
    · rw [← he]
      simp [dataOf, PyDict.keys, Function.comp_def]

/-- Rows given as dictionaries in a list do not get the default values of missing fields: with default 5, `{"name": 1}`
in a list gets 0, the same row in a dictionary of rows gets 5. -/
theorem list_rows_ignore_defaults :
    let c : TabClass := ⟨["name"], ["qty"], [("qty", .num (.fin 5))]⟩
    initTable c (.seq [.dict [("name", .num (.fin 1))]]) =
        some (.keyed [(.one (.num (.fin 1)), [("qty", .num (.fin 0))])]) ∧
      initTable c (.dict [(.one (.num (.fin 1)), .dict [])]) =
        some (.keyed [(.one (.num (.fin 1)), [("qty", .num (.fin 5))])]) := by
  constructor <;> rfl

/-- A row in a list that has not even got the key field is accepted, under the key 0. -/
theorem list_rows_ignore_missing_key :
    initTable ⟨["name"], ["qty"], []⟩ (.seq [.dict [("qty", .num (.fin 1))]]) =
      some (.keyed [(.one (.num (.fin 0)), [("qty", .num (.fin 1))])]) := by rfl

/-- A tuple of one entry is accepted as a key, although assigning under it is refused. -/
theorem one_tuple_key_accepted :
    initTable ⟨["name"], ["qty"], []⟩ (.dict [(.tup [.str "a"], .scalar (.num (.fin 1)))]) =
      some (.keyed [(.tup [.str "a"], [("qty", .num (.fin 1))])]) ∧ keyOK 1 (.tup [.str "a"]) = false := by
  constructor <;> rfl

example : initTable ⟨["a", "b"], ["q"], []⟩ (.seq [.seq [.str "x", .str "y", .num (.fin 3)],
    .dict [("q", .num (.fin 4)), ("a", .str "x"), ("b", .str "z")], .seq [.str "x", .str "y", .num (.fin 7)]]) =
    some (.keyed [(.tup [.str "x", .str "y"], [("q", .num (.fin 7))]), (.tup [.str "x", .str "z"], [("q", .num (.fin 4))])])
  := by rfl

example : initDat .assert [("t", ⟨["a"], ["q"], []⟩)] [("t", .seq [.seq [.str "x", .num (.fin 3)],
    .seq [.str "x", .num (.fin 3)]])] = none := by rfl

end Ticdat

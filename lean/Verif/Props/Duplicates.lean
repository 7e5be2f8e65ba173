import Verif.Model.Utils
import Verif.Spec.Utils
import Verif.Lemmas.Dict
/-!
# C26: `find_duplicates` counts are exact
-/
namespace Ticdat
open Spec

variable {V : Type} [DecidableEq V]

/-- The row holds a cell for each field, namely `rec f`. -/
def HasCells (flds : List String) (row : PyDict String V) (rec : String → V) : Prop :=
  ∀ f ∈ flds, PyDict.get? row f = some (rec f)

theorem mapM_get?_of_cells (row : PyDict String V) (rec : String → V) (flds : List String) (h : HasCells flds row rec) :
    flds.mapM (fun f => PyDict.get? row f) = some (flds.map rec) := by
  induction flds with
  | nil => rfl
  | cons f fs ih =>
    have := ih (fun g hg => h g (by simp [hg]))
    simp [List.mapM_cons, h f (by simp), this]

theorem dupKey_of_cells (row : PyDict String V) (rec : String → V) (flds : List String) (h : HasCells flds row rec) :
    dupKey flds row = some (keyValue flds rec) := by
  unfold dupKey
  rw [mapM_get?_of_cells row rec flds h]
  match flds with
  | [] => rfl
  | [f] => rfl
  | f :: g :: rest => rfl

theorem countKeys_spec (flds : List String) : ∀ (rows : List (PyDict String V)) (recs : List (String → V))
    (_ : rows.length = recs.length) (_ : ∀ p ∈ rows.zip recs, HasCells flds p.1 p.2) (d : PyDict (PKey V) Nat),
    (PyDict.keys d).Nodup →
    ∃ d', countKeys flds rows d = some d' ∧ (PyDict.keys d').Nodup ∧
      ∀ k, (PyDict.get? d' k).getD 0 = (PyDict.get? d k).getD 0 + occurrences flds recs k := by
  intro rows
  induction rows with
  | nil =>
    intro recs hl _ d hn
    have : recs = [] := List.length_eq_zero_iff.mp (by simpa using hl.symm)
    subst this
    exact ⟨d, rfl, hn, by simp [occurrences]⟩
  | cons row rest ih =>
    intro recs hl hc d hn
    cases recs with
    | nil => simp at hl
    | cons rec recs =>
      have h1 := hc (row, rec) (by simp)
      obtain ⟨d', hd, hn', hg⟩ := ih recs (by simpa using hl) (fun p hp => hc p (by simp [hp]))
        (PyDict.set d (keyValue flds rec) ((PyDict.get? d (keyValue flds rec)).getD 0 + 1))
        (PyDict.keys_set_nodup _ _ _ hn)
      refine ⟨d', ?_, hn', fun k => ?_⟩
      · simp only [countKeys, dupKey_of_cells row rec flds h1]
        exact hd
      · rw [hg, PyDict.get?_set, occurrences, occurrences, List.countP_cons]
        by_cases hk : keyValue flds rec = k
        · subst hk
          simp only [if_true, Option.getD_some, decide_true]
          omega
        · simp [hk]

theorem get?_filter_val {K B : Type} [DecidableEq K] (d : PyDict K B) (q : B → Bool) (hn : (PyDict.keys d).Nodup)
    (k : K) : PyDict.get? (d.filter (fun p => q p.2)) k = (PyDict.get? d k).filter q := by
  have hsub : (PyDict.keys (d.filter (fun p => q p.2))).Nodup :=
    hn.sublist ((List.filter_sublist).map Prod.fst)
  cases h : PyDict.get? d k with
  | none =>
    rw [PyDict.get?_eq_none] at h
    simp only [Option.filter_none]
    rw [PyDict.get?_eq_none]
    intro hk
    exact h (((List.filter_sublist).map Prod.fst).subset hk)
  | some v =>
    have hm := PyDict.get?_mem h
    cases hq : q v with
    | true =>
      simp only [Option.filter_some, hq, if_true]
      exact PyDict.get?_of_mem hsub (List.mem_filter.mpr ⟨hm, hq⟩)
    | false =>
      simp only [Option.filter_some, hq]
      rw [if_neg (by simp)]
      rw [PyDict.get?_eq_none]
      intro hk
      simp only [PyDict.keys, List.mem_map, List.mem_filter] at hk
      obtain ⟨⟨k', v'⟩, ⟨hm', hq'⟩, rfl⟩ := hk
      have := PyDict.get?_of_mem hn hm'
      rw [this] at h
      cases h
      simp only at hq'
      rw [hq'] at hq
      cases hq

/-- The counted dictionary of one table, pruned of the keys that occur once. -/
theorem pruned_spec (flds : List String) (rows : List (PyDict String V)) (recs : List (String → V))
    (hl : rows.length = recs.length) (hc : ∀ p ∈ rows.zip recs, HasCells flds p.1 p.2) :
    ∃ d, countKeys flds rows [] = some d ∧ (PyDict.keys (d.filter (fun p => decide (p.2 > 1)))).Nodup ∧
      ∀ k n, PyDict.get? (d.filter (fun p => decide (p.2 > 1))) k = some n ↔
        2 ≤ n ∧ n = occurrences flds recs k := by
  obtain ⟨d, hd, hn, hg⟩ := countKeys_spec flds rows recs hl hc [] (by simp [PyDict.keys])
  refine ⟨d, hd, hn.sublist ((List.filter_sublist).map Prod.fst), fun k n => ?_⟩
  have h0 := hg k
  simp only [PyDict.get?_nil, Option.getD_none, Nat.zero_add] at h0
  have := get?_filter_val d (fun v => decide (v > 1)) hn k
  rw [this]
  cases hk : PyDict.get? d k with
  | none =>
    rw [hk] at h0
    simp only [Option.getD_none] at h0
    simp only [Option.filter_none]
    constructor
    · intro h; cases h
    · rintro ⟨h1, h2⟩; omega
  | some v =>
    rw [hk] at h0
    simp only [Option.getD_some] at h0
    rw [Option.filter_some]
    by_cases hv : v > 1
    · simp only [hv, decide_true, if_true, Option.some.injEq]
      constructor
      · rintro rfl; exact ⟨hv, h0⟩
      · rintro ⟨_, h2⟩; omega
    · simp only [hv, decide_false]
      constructor
      · intro h; simp at h
      · rintro ⟨h1, h2⟩; omega

/-- The report is exact: it has an entry `n` for key `k` of table `t` iff `t` is one of the tables, `k` occurs `n` times
among its records and `n ≥ 2`; and a table is reported only if it has an entry. -/
def ExactReport (pkFields : List (String × List String)) (recs : String → List (String → V))
    (rtn : PyDict String (PyDict (PKey V) Nat)) : Prop :=
  (PyDict.keys rtn).Nodup ∧
  (∀ t flds, (t, flds) ∈ pkFields → ∀ k n, ((PyDict.get? rtn t).bind (fun d => PyDict.get? d k) = some n ↔
    2 ≤ n ∧ n = occurrences flds (recs t) k)) ∧
  ∀ t d, PyDict.get? rtn t = some d → t ∈ pkFields.map Prod.fst ∧ d ≠ [] ∧ (PyDict.keys d).Nodup

theorem erase_keys_nodup_mem {K B : Type} [DecidableEq K] (d : PyDict K B) (k k' : K) (hn : (PyDict.keys d).Nodup) :
    PyDict.get? (PyDict.erase d k) k' = if k' = k then none else PyDict.get? d k' := by
  rw [PyDict.get?_erase d k k' hn]
  by_cases h : k = k'
  · subst h; simp
  · have : ¬ k' = k := fun e => h e.symm
    simp [h, this]

theorem findDupsLoop_spec (td : String → List (PyDict String V)) (recs : String → List (String → V)) :
    ∀ (ts : List (String × List String)), (ts.map Prod.fst).Nodup →
    (∀ p ∈ ts, (td p.1).length = (recs p.1).length ∧ ∀ q ∈ (td p.1).zip (recs p.1), HasCells p.2 q.1 q.2) →
    ∀ rtn : PyDict String (PyDict (PKey V) Nat), (PyDict.keys rtn).Nodup →
    ∃ rtn', findDupsLoop td ts rtn = some rtn' ∧ (PyDict.keys rtn').Nodup ∧
      (∀ t, t ∉ ts.map Prod.fst → PyDict.get? rtn' t = PyDict.get? rtn t) ∧
      (∀ t flds, (t, flds) ∈ ts → ∀ k n, ((PyDict.get? rtn' t).bind (fun d => PyDict.get? d k) = some n ↔
        2 ≤ n ∧ n = occurrences flds (recs t) k)) ∧
      ∀ t flds, (t, flds) ∈ ts → ∀ d, PyDict.get? rtn' t = some d → d ≠ [] ∧ (PyDict.keys d).Nodup := by
  intro ts
  induction ts with
  | nil => intro _ _ rtn hn; exact ⟨rtn, rfl, hn, by simp⟩
  | cons p rest ih =>
    obtain ⟨t, flds⟩ := p
    intro hts hrows rtn hn
    rw [List.map_cons, List.nodup_cons] at hts
    obtain ⟨hl, hc⟩ := hrows (t, flds) (by simp)
    obtain ⟨d, hd, hdn, hdk⟩ := pruned_spec flds (td t) (recs t) hl hc
    generalize hd' : d.filter (fun p => decide (p.2 > 1)) = d' at hdn hdk
    have hn1 : (PyDict.keys (if d' = [] then PyDict.erase rtn t else PyDict.set rtn t d')).Nodup := by
      split
      · exact PyDict.keys_erase_nodup _ _ hn
      · exact PyDict.keys_set_nodup _ _ _ hn
    have hg1 : ∀ t', PyDict.get? (if d' = [] then PyDict.erase rtn t else PyDict.set rtn t d') t' =
        if t' = t then (if d' = [] then none else some d') else PyDict.get? rtn t' := by
      intro t'
      split
      · rw [erase_keys_nodup_mem _ _ _ hn]
      · rw [PyDict.get?_set]
        by_cases e : t = t'
        · subst e; simp
        · have : ¬ t' = t := fun h => e h.symm
          simp [e, this]
    obtain ⟨rtn', h1, h2, h3, h4, h5⟩ := ih hts.2 (fun p hp => hrows p (by simp [hp])) _ hn1
    have hat : PyDict.get? rtn' t = if d' = [] then none else some d' := by
      rw [h3 t hts.1, hg1, if_pos rfl]
    refine ⟨rtn', ?_, h2, ?_, ?_, ?_⟩
    · simp only [findDupsLoop, hd, hd']
      exact h1
    · intro t' ht'
      simp only [List.map_cons, List.mem_cons, not_or] at ht'
      rw [h3 t' ht'.2, hg1, if_neg ht'.1]
    · intro t' flds' hm k n
      rcases List.mem_cons.mp hm with hm | hm
      · cases hm
        rw [hat, ← hdk]
        by_cases e : d' = []
        · simp [e]
        · simp [e]
      · exact h4 t' flds' hm k n
    · intro t' flds' hm dd hdd
      rcases List.mem_cons.mp hm with hm | hm
      · cases hm
        rw [hat] at hdd
        split at hdd
        · cases hdd
        · cases hdd
          rename_i hne
          exact ⟨hne, hdn⟩
      · exact h5 t' flds' hm dd hdd

/-- **C26.**  `find_duplicates` succeeds on rows that hold the key fields, and its report is exact. -/
theorem find_duplicates_exact (pkFields : List (String × List String)) (hts : (pkFields.map Prod.fst).Nodup)
    (td : String → List (PyDict String V)) (recs : String → List (String → V))
    (hrows : ∀ p ∈ pkFields, (td p.1).length = (recs p.1).length ∧
      ∀ q ∈ (td p.1).zip (recs p.1), HasCells p.2 q.1 q.2) :
    ∃ rtn, findDuplicates pkFields td = some rtn ∧ ExactReport pkFields recs rtn := by
  have hkeys : PyDict.keys (pkFields.map (fun p => (p.1, ([] : PyDict (PKey V) Nat)))) = pkFields.map Prod.fst := by
    simp [PyDict.keys, List.map_map, Function.comp_def]
  obtain ⟨rtn, h1, h2, h3, h4, h5⟩ := findDupsLoop_spec td recs pkFields hts hrows
    (pkFields.map (fun p => (p.1, []))) (by rw [hkeys]; exact hts)
  refine ⟨rtn, h1, h2, h4, fun t d hd => ?_⟩
  by_cases ht : t ∈ pkFields.map Prod.fst
  · obtain ⟨⟨t', flds⟩, hm, rfl⟩ := List.mem_map.mp ht
    exact ⟨ht, h5 t' flds hm d hd⟩
  · rw [h3 t ht] at hd
    have := (PyDict.get?_eq_none (pkFields.map (fun p => (p.1, ([] : PyDict (PKey V) Nat)))) t).mpr (by rw [hkeys]; exact ht)
    rw [this] at hd
    cases hd

theorem csvCounts_spec (td : String → List (PyDict String V)) (recs : String → List (String → V)) :
    ∀ (ts : List (String × List String)),
    (∀ p ∈ ts, (td p.1).length = (recs p.1).length ∧ ∀ q ∈ (td p.1).zip (recs p.1), HasCells p.2 q.1 q.2) →
    ∃ ds, csvCounts td ts = some ds ∧ ds.map Prod.fst = ts.map Prod.fst ∧
      ∀ q ∈ ts.zip ds, (PyDict.keys (q.2.2.filter (fun p => decide (p.2 > 1)))).Nodup ∧
        ∀ k n, PyDict.get? (q.2.2.filter (fun p => decide (p.2 > 1))) k = some n ↔
          2 ≤ n ∧ n = occurrences q.1.2 (recs q.1.1) k := by
  intro ts
  induction ts with
  | nil => intro _; exact ⟨[], rfl, rfl, by simp⟩
  | cons p rest ih =>
    obtain ⟨t, flds⟩ := p
    intro hrows
    obtain ⟨hl, hc⟩ := hrows (t, flds) (by simp)
    obtain ⟨d, hd, hdn, hdk⟩ := pruned_spec flds (td t) (recs t) hl hc
    obtain ⟨ds, h1, h2, h3⟩ := ih (fun p hp => hrows p (by simp [hp]))
    refine ⟨(t, d) :: ds, by simp [csvCounts, hd, h1], by simp [h2], ?_⟩
    intro q hq
    rw [List.zip_cons_cons] at hq
    rcases List.mem_cons.mp hq with rfl | hq
    · exact ⟨hdn, hdk⟩
    · exact h3 q hq

theorem mem_zip_of_fst {K B C : Type} : ∀ (ts : List (K × B)) (ds : List (K × C)),
    ds.map Prod.fst = ts.map Prod.fst → ∀ d ∈ ds, ∃ p ∈ ts, p.1 = d.1 ∧ (p, d) ∈ ts.zip ds := by
  intro ts
  induction ts with
  | nil =>
    intro ds h d hd
    have : ds = [] := by simpa using h
    subst this
    simp at hd
  | cons p rest ih =>
    intro ds h d hd
    cases ds with
    | nil => simp at hd
    | cons d0 ds =>
      simp only [List.map_cons, List.cons.injEq] at h
      rcases List.mem_cons.mp hd with rfl | hd
      · exact ⟨p, by simp, h.1.symm, by simp⟩
      · obtain ⟨p', h1, h2, h3⟩ := ih ds h.2 d hd
        exact ⟨p', by simp [h1], h2, by simp [h3]⟩

theorem mem_zip_of_snd {K B C : Type} : ∀ (ts : List (K × B)) (ds : List (K × C)),
    ds.map Prod.fst = ts.map Prod.fst → ∀ p ∈ ts, ∃ d ∈ ds, p.1 = d.1 ∧ (p, d) ∈ ts.zip ds := by
  intro ts
  induction ts with
  | nil => intro ds _ p hp; simp at hp
  | cons p0 rest ih =>
    intro ds h p hp
    cases ds with
    | nil => simp at h
    | cons d0 ds =>
      simp only [List.map_cons, List.cons.injEq] at h
      rcases List.mem_cons.mp hp with rfl | hp
      · exact ⟨d0, by simp, h.1.symm, by simp⟩
      · obtain ⟨p', h1, h2, h3⟩ := ih ds h.2 p hp
        exact ⟨p', by simp [h1], h2, by simp [h3]⟩

/-- **C26, csv.**  The csv version is exact for the tables that have a file. -/
theorem csv_find_duplicates_exact (pkFields : List (String × List String)) (hts : (pkFields.map Prod.fst).Nodup)
    (files : String → Bool) (td : String → List (PyDict String V)) (recs : String → List (String → V))
    (hrows : ∀ p ∈ pkFields, files p.1 = true → (td p.1).length = (recs p.1).length ∧
      ∀ q ∈ (td p.1).zip (recs p.1), HasCells p.2 q.1 q.2) :
    ∃ rtn, csvFindDuplicates pkFields files td = some rtn ∧
      ExactReport (pkFields.filter (fun p => files p.1)) recs rtn := by
  have hts' : ((pkFields.filter (fun p => files p.1)).map Prod.fst).Nodup :=
    hts.sublist ((List.filter_sublist).map Prod.fst)
  obtain ⟨ds, h1, h2, h3⟩ := csvCounts_spec td recs (pkFields.filter (fun p => files p.1))
    (fun p hp => hrows p (List.mem_filter.mp hp).1 (List.mem_filter.mp hp).2)
  refine ⟨_, by simp only [csvFindDuplicates, h1]; rfl, ?_⟩
  generalize pkFields.filter (fun p => files p.1) = ts at hts' h2 h3
  have hmapk : (PyDict.keys (ds.map (fun p => (p.1, p.2.filter (fun q => decide (q.2 > 1)))))).Nodup := by
    have : PyDict.keys (ds.map (fun p => (p.1, p.2.filter (fun q => decide (q.2 > 1))))) = ds.map Prod.fst := by
      simp [PyDict.keys, List.map_map, Function.comp_def]
    rw [this, h2]
    exact hts'
  have hgetf := fun t => get?_filter_val (ds.map (fun p => (p.1, p.2.filter (fun q => decide (q.2 > 1)))))
    (fun d => !d.isEmpty) hmapk t
  have hmem : ∀ t d, PyDict.get? (ds.map (fun p => (p.1, p.2.filter (fun q => decide (q.2 > 1))))) t = some d →
      ∃ flds, (t, flds) ∈ ts ∧ (PyDict.keys d).Nodup ∧
        ∀ k n, PyDict.get? d k = some n ↔ 2 ≤ n ∧ n = occurrences flds (recs t) k := by
    intro t d hd
    have hm := PyDict.get?_mem hd
    rw [List.mem_map] at hm
    obtain ⟨q, hq, e⟩ := hm
    cases e
    obtain ⟨p, hp, hpq, hz⟩ := mem_zip_of_fst ts ds h2 q hq
    obtain ⟨h4, h5⟩ := h3 (p, q) hz
    refine ⟨p.2, by rw [← hpq]; exact hp, h4, ?_⟩
    rw [← hpq]
    exact h5
  refine ⟨hmapk.sublist ((List.filter_sublist).map Prod.fst), ?_, ?_⟩
  · intro t flds ht k n
    obtain ⟨q, hq, hpq, hz⟩ := mem_zip_of_snd ts ds h2 (t, flds) ht
    obtain ⟨h4, h5⟩ := h3 _ hz
    have hg : PyDict.get? (ds.map (fun p => (p.1, p.2.filter (fun q => decide (q.2 > 1))))) t =
        some (q.2.filter (fun q => decide (q.2 > 1))) :=
      PyDict.get?_of_mem hmapk (List.mem_map.mpr ⟨q, hq, by simp only [Prod.mk.injEq, and_true]; exact hpq.symm⟩)
    rw [hgetf, hg, ← h5]
    simp only [Option.filter_some]
    cases he : q.2.filter (fun q => decide (q.2 > 1)) with
    | nil => simp
    | cons a b => simp
  · intro t d hd
    rw [hgetf] at hd
    rw [Option.filter_eq_some_iff] at hd
    obtain ⟨flds, h4, h5, h6⟩ := hmem t d hd.1
    refine ⟨List.mem_map.mpr ⟨_, h4, rfl⟩, ?_, h5⟩
    rintro rfl
    simp at hd

/-! ### Non-vacuity -/

example : findDuplicates [("t", ["a"]), ("u", ["a", "b"]), ("v", ["x"])]
    (fun t => if t = "t" then [[("a", 1)], [("a", 2)], [("a", 1)]]
      else if t = "u" then [[("a", 1), ("b", 2)], [("a", 1), ("b", 2)], [("a", 1), ("b", 2)], [("a", 1), ("b", 3)]]
      else [[("x", 1)], [("x", 2)]]) =
    some [("t", [(.one 1, 2)]), ("u", [(.many [1, 2], 3)])] := by decide +kernel

example : csvFindDuplicates [("t", ["a"]), ("w", ["a"])] (fun t => t = "t")
    (fun _ => [[("a", 1), ("b", 2)], [("b", 2), ("a", 1)], [("a", 7), ("b", 2)]]) =
    some [("t", [(PKey.one 1, 2)])] := by decide +kernel

end Ticdat

import Verif.Lemmas.Rows
import Verif.Spec.Rows
/-!
# C30: what assigning a row to a table stores

`rowFactory c x` is the row object that `tbl[key] = x` (or `tbl.append(x)`) stores for a table of class `c`.
-/
namespace Ticdat
open Spec
set_option linter.unusedSimpArgs false

theorem rowFactory_dict_data (c : TabClass) (d : PyDict String Cell) (hc : c.dfs ≠ []) (hn : c.dfs.Nodup)
    (hd : (PyDict.keys d).Nodup) (hk : ∀ p ∈ d, p.1 ∈ c.dfs) :
    ∃ data, rowFactory c (.dict d) = some (.td c.dfs data false) ∧ data.length = c.dfs.length ∧
      c.dfs.zip data = filledRow c d := by
  have hall : d.all (fun p => decide (p.1 ∈ c.dfs)) = true := by simpa using hk
  refine ⟨d.foldl (fun acc p => setField c.dfs acc p.1 p.2)
      (c.dfs.foldl (defaultStep c) (List.replicate c.dfs.length Cell.zero)), ?_, ?_, ?_⟩
  · simp only [rowFactory, hc, if_false, hall, if_true]
    rfl
  · rw [length_foldl_setField, foldl_defaultStep_length]; simp
  · rw [zip_eq_map hn (by rw [length_foldl_setField, foldl_defaultStep_length]; simp)]
    unfold filledRow
    apply List.map_congr_left
    intro f hf
    rw [foldl_setField_get? d hk hd _ (by rw [foldl_defaultStep_length]; simp)]
    cases PyDict.get? d f with
    | some v => rfl
    | none =>
      simp only
      rw [foldl_defaultStep_get? c c.dfs (fun _ h => h) _ (by simp)]
      cases hdf : PyDict.get? c.defaults f with
      | some v => simp [hf]
      | none =>
        have : c.dfs.idxOf f < c.dfs.length := List.idxOf_lt_length_iff.mpr hf
        simp [List.getElem?_replicate, this, Cell.zero]

/-- **C30, dictionaries.**  Assigning a `dict` to a table is accepted exactly if all its keys are data fields of the
table; the stored row then has exactly the data fields, with the supplied values, and the default of the field (zero if
it has none) where no value was supplied. -/
theorem assign_dict_iff (c : TabClass) (d : PyDict String Cell) (hn : c.dfs.Nodup) (hd : (PyDict.keys d).Nodup)
    (fields : PyDict String Cell) :
    (∃ r, rowFactory c (.dict d) = some r ∧ r.fields = fields) ↔
      (∀ f ∈ PyDict.keys d, f ∈ c.dfs) ∧ fields = filledRow c d := by
  by_cases hc : c.dfs = []
  · cases d with
    | nil => simp [rowFactory, hc, RowObj.fields, filledRow, PyDict.keys, eq_comm]
    | cons p rest =>
      have : ¬ ∀ f ∈ PyDict.keys (p :: rest), f ∈ c.dfs := by
        intro h
        have := h p.1 (by simp [PyDict.keys])
        rw [hc] at this
        simp at this
      simp only [this, false_and, iff_false]
      simp [rowFactory, hc]
  · by_cases hk : ∀ p ∈ d, p.1 ∈ c.dfs
    · obtain ⟨data, h1, _, h3⟩ := rowFactory_dict_data c d hc hn hd hk
      have hk' : ∀ f ∈ PyDict.keys d, f ∈ c.dfs := by
        intro f hf
        simp only [PyDict.keys, List.mem_map] at hf
        obtain ⟨p, hp, rfl⟩ := hf
        exact hk p hp
      rw [h1]
      simp only [Option.some.injEq, exists_eq_left', RowObj.fields, h3]
      exact ⟨fun h => ⟨hk', h.symm⟩, fun h => h.2.symm⟩
    · have hall : d.all (fun p => decide (p.1 ∈ c.dfs)) = false := by
        rw [Bool.eq_false_iff]
        intro h
        exact hk (by simpa using h)
      have hk' : ¬ ∀ f ∈ PyDict.keys d, f ∈ c.dfs := by
        intro h
        exact hk (fun p hp => h p.1 (List.mem_map.mpr ⟨p, hp, rfl⟩))
      simp [rowFactory, hc, hall, hk']

/-- **C30, sequences.**  Assigning a list or tuple is accepted exactly if it has as many entries as the table has data
fields, and is stored positionally. -/
theorem assign_seq_iff (c : TabClass) (vs : List Cell) (fields : PyDict String Cell) :
    (∃ r, rowFactory c (.seq vs) = some r ∧ r.fields = fields) ↔
      vs.length = c.dfs.length ∧ fields = c.dfs.zip vs := by
  by_cases hc : c.dfs = []
  · cases vs with
    | nil => simp [rowFactory, hc, RowObj.fields, eq_comm]
    | cons p rest => simp [rowFactory, hc]
  · by_cases hl : vs.length = c.dfs.length
    · simp [rowFactory, hc, hl, RowObj.fields, eq_comm]
    · simp [rowFactory, hc, hl]

/-- **C30, scalars.**  A bare value is accepted exactly for tables with one data field. -/
theorem assign_scalar_iff (c : TabClass) (v : Cell) (fields : PyDict String Cell) :
    (∃ r, rowFactory c (.scalar v) = some r ∧ r.fields = fields) ↔
      ∃ f, c.dfs = [f] ∧ fields = [(f, v)] := by
  by_cases hc : c.dfs = []
  · simp [rowFactory, hc]
  · by_cases hl : c.dfs.length = 1
    · obtain ⟨f, hf⟩ := List.length_eq_one_iff.mp hl
      simp [rowFactory, hf, RowObj.fields, eq_comm]
    · have : ∀ f, c.dfs ≠ [f] := fun f h => hl (by rw [h]; rfl)
      simp [rowFactory, hc, hl, this]

/-- The row object is new and unfrozen, and of the table's row class. -/
theorem rowFactory_kind (c : TabClass) (x : RowIn) (r : RowObj) (h : rowFactory c x = some r) :
    r = .opn [] false ∧ c.dfs = [] ∨
      ∃ data, r = .td c.dfs data false ∧ data.length = c.dfs.length ∧ c.dfs ≠ [] := by
  unfold rowFactory at h
  by_cases hc : c.dfs = []
  · simp only [hc, if_true] at h
    left
    split at h <;> simp_all
  · right
    simp only [hc, if_false] at h
    cases x with
    | dict d =>
      simp only at h
      split at h
      · refine ⟨_, (Option.some.inj h).symm, ?_, hc⟩
        rw [length_foldl_setField]
        show (c.dfs.foldl (defaultStep c) _).length = _
        rw [foldl_defaultStep_length]; simp
      · simp at h
    | seq vs =>
      simp only at h
      split at h
      · exact ⟨_, (Option.some.inj h).symm, by assumption, hc⟩
      · simp at h
    | scalar v =>
      simp only at h
      split at h
      · exact ⟨_, (Option.some.inj h).symm, by simp, hc⟩
      · simp at h

/-- **C30, single cells.**  `row[f] = v` on an unfrozen row is refused exactly for an unknown field, and otherwise
changes that field and no other. -/
theorem row_setItem_spec (dfs : List String) (data : List Cell) (hn : dfs.Nodup) (hl : data.length = dfs.length)
    (f : String) (v : Cell) (fields : PyDict String Cell) :
    (∃ r, (RowObj.td dfs data false).setItem f v = some r ∧ r.fields = fields) ↔
      f ∈ dfs ∧ fields = (dfs.zip data).map (fun p => if p.1 = f then (p.1, v) else p) := by
  by_cases hf : f ∈ dfs
  · have key : dfs.zip (setField dfs data f v) = (dfs.zip data).map (fun p => if p.1 = f then (p.1, v) else p) := by
      rw [zip_eq_map hn (by rw [length_setField, hl]), zip_eq_map hn hl, List.map_map]
      apply List.map_congr_left
      intro g hg
      simp only [Function.comp_def]
      rw [setField_get? hl hf]
      by_cases hfg : f = g
      · subst hfg; simp
      · have : g ≠ f := fun h => hfg h.symm
        simp [hfg, this]
    simp only [RowObj.setItem, hf, if_true, Bool.false_eq_true, if_false, Option.some.injEq, exists_eq_left',
      RowObj.fields, key, true_and]
    exact eq_comm
  · simp [RowObj.setItem, hf]

/-! ## Non-vacuity -/

/-- A demonstration class: one primary key field, two data fields, one default. -/
def demoClass : TabClass := ⟨["name"], ["cost", "note"], [("note", .str "?")]⟩

example : demoClass.dfs.Nodup ∧ (PyDict.keys [("cost", Cell.num (.fin 2))]).Nodup ∧
    filledRow demoClass [("cost", .num (.fin 2))] = [("cost", .num (.fin 2)), ("note", .str "?")] ∧
    ((rowFactory demoClass (.dict [("cost", .num (.fin 2))])).map RowObj.fields)
      = some [("cost", .num (.fin 2)), ("note", .str "?")] ∧
    rowFactory demoClass (.dict [("kost", .num (.fin 2))]) = none := by decide +kernel

example : ((rowFactory demoClass (.dict [])).map RowObj.fields)
    = some [("cost", .num (.fin 0)), ("note", .str "?")] := by decide +kernel

example : rowFactory demoClass (.seq [.none]) = none ∧
    (rowFactory demoClass (.seq [.none, .bool true])).map RowObj.fields
      = some [("cost", .none), ("note", .bool true)] := by decide +kernel

example : rowFactory demoClass (.scalar .none) = none ∧
    (rowFactory ⟨["k"], ["v"], []⟩ (.scalar (.str "x"))).map RowObj.fields = some [("v", .str "x")] := by decide +kernel

end Ticdat

import Verif.Props.Names
/-!
# C22: csv columns are found by header
-/
namespace Ticdat
open Spec

/-- `h` is the one header that is `f` up to case, it is the header of column `i`, and `v` is the cell of the line in
that column (`None` if the line is too short). -/
def Spec.CellFor (env : CaseEnv) (header : List (List Char)) (vals : List Cell) (f : List Char) (v : Cell) : Prop :=
  ∃ (i : Nat) (h : List Char), header[i]? = some h ∧ v = (vals[i]?).getD Cell.none ∧ SameUpToCase env h f ∧
    ∀ h' ∈ header, SameUpToCase env h' f → h' = h

theorem mapM_some_iff {A B : Type} (g : A → Option B) (l : List A) (r : List B) :
    l.mapM g = some r ↔ l.map g = r.map some := by
  induction l generalizing r with
  | nil => cases r <;> simp
  | cons a l ih =>
    rw [List.mapM_cons]
    cases h : g a with
    | none => cases r <;> simp [h]
    | some b =>
      cases hl : l.mapM g with
      | none =>
        have : ∀ r' : List B, ¬ l.map g = r'.map some := fun r' e => by rw [(ih r').mpr e] at hl; cases hl
        cases r with
        | nil => simp
        | cons b' r' => simp [h, this]
      | some r'' =>
        have := (ih r'').mp hl
        cases r with
        | nil => simp
        | cons b' r' =>
          have hinj : (r''.map some = r'.map some) ↔ r'' = r' := by
            constructor
            · intro e; exact (List.map_inj_right (fun _ _ => Option.some.inj)).mp e
            · rintro rfl; rfl
          simp [h, this, hinj]

theorem filter_eq_singleton {A : Type} [DecidableEq A] (l : List A) (hn : l.Nodup) (p : A → Bool) (k : A) :
    l.filter p = [k] ↔ k ∈ l ∧ p k = true ∧ ∀ x ∈ l, p x = true → x = k := by
  constructor
  · intro h
    have hk : k ∈ l.filter p := by simp [h]
    rw [List.mem_filter] at hk
    refine ⟨hk.1, hk.2, fun x hx hp => ?_⟩
    have : x ∈ l.filter p := List.mem_filter.mpr ⟨hx, hp⟩
    simpa [h] using this
  · rintro ⟨hk, hp, hu⟩
    have := filter_written l hn id p k hk (fun x hx => ⟨fun h => hu x hx h, fun e => e ▸ hp⟩) [] (by simp)
    simpa using this

theorem dictReaderRow_eq (header : List (List Char)) (vals : List Cell) (hn : header.Nodup)
    (hl : vals.length ≤ header.length) :
    PyDict.keys (dictReaderRow header vals).1 = header ∧ (dictReaderRow header vals).2 = false ∧
      ∀ h v, PyDict.get? (dictReaderRow header vals).1 h = some v ↔
        ∃ i : Nat, header[i]? = some h ∧ v = (vals[i]?).getD Cell.none := by
  have hlen : header.length ≤ (vals ++ List.replicate (header.length - vals.length) Cell.none).length := by
    simp; omega
  have hk : PyDict.keys (header.zip (vals ++ List.replicate (header.length - vals.length) Cell.none)) = header := by
    unfold PyDict.keys
    rw [List.map_fst_zip hlen]
  have hnd : (PyDict.keys (header.zip (vals ++ List.replicate (header.length - vals.length) Cell.none))).Nodup := by
    rw [hk]; exact hn
  refine ⟨?_, by simp [dictReaderRow, hl], ?_⟩
  · simp only [dictReaderRow]
    rw [PyDict.ofList_of_nodup _ hnd, hk]
  · intro h v
    simp only [dictReaderRow]
    rw [PyDict.ofList_of_nodup _ hnd, PyDict.get?_iff_mem hnd, List.mem_iff_getElem?]
    apply exists_congr
    intro i
    rw [List.getElem?_zip_eq_some]
    apply and_congr_right
    intro hi
    have hil : i < header.length := (List.getElem?_eq_some_iff.mp hi).1
    rw [List.getElem?_append]
    split
    · rename_i hlt
      rw [List.getElem?_eq_getElem hlt]
      simp [eq_comm]
    · rename_i hge
      rw [List.getElem?_replicate, if_pos (by omega), List.getElem?_eq_none (by omega)]
      simp [eq_comm]

/-- **C22.**  For a line that is not longer than the header, and a header without exact repetitions, the reader gives
each field the cell of the one column whose header equals the field up to case, and it raises if some field has no such
column or has several. -/
theorem csv_cells_by_header_partial (env : CaseEnv) (fields header : List (List Char)) (vals : List Cell) (hn : header.Nodup)
    (hl : vals.length ≤ header.length) (row : PyDict (List Char) Cell) :
    csvRowByHeader env fields header vals = some row ↔
      PyDict.keys row = fields ∧ ∀ p ∈ row, CellFor env header vals p.1 p.2 := by
  obtain ⟨hk, hlong, hget⟩ := dictReaderRow_eq header vals hn hl
  have step : ∀ f p, (match (PyDict.keys (dictReaderRow header vals).1).filter
      (fun k => decide (env.lower k = env.lower f)) with
      | [k] => (PyDict.get? (dictReaderRow header vals).1 k).map (fun v => (f, v))
      | _ => none) = some p ↔ p.1 = f ∧ CellFor env header vals p.1 p.2 := by
    intro f p
    rw [hk]
    constructor
    · intro h
      split at h
      · rename_i k hf
        rw [filter_eq_singleton header hn] at hf
        obtain ⟨_, hpk, hu⟩ := hf
        cases hg : PyDict.get? (dictReaderRow header vals).1 k with
        | none => rw [hg] at h; cases h
        | some v =>
          rw [hg] at h
          cases h
          obtain ⟨i, hi, hv⟩ := (hget k v).mp hg
          refine ⟨rfl, i, k, hi, hv, by simpa [SameUpToCase] using hpk, fun h' hh' he => hu h' hh' (by simpa [SameUpToCase] using he)⟩
      · cases h
    · rintro ⟨e, i, k, hi, hv, hs, hu⟩
      subst e
      have : header.filter (fun k => decide (env.lower k = env.lower p.1)) = [k] := by
        rw [filter_eq_singleton header hn]
        refine ⟨List.mem_of_getElem? hi, by simpa [SameUpToCase] using hs, fun x hx hp => hu x hx (by simpa [SameUpToCase] using hp)⟩
      rw [this]
      simp only
      rw [(hget k p.2).mpr ⟨i, hi, hv⟩]
      rfl
  unfold csvRowByHeader
  simp only [hlong, Bool.false_eq_true, if_false]
  rw [mapM_some_iff]
  constructor
  · intro h
    have hlen : fields.length = row.length := by simpa using congrArg List.length h
    have hpt : ∀ (i : Nat) p, row[i]? = some p → ∃ f, fields[i]? = some f ∧ p.1 = f ∧ CellFor env header vals p.1 p.2 := by
      intro i p hp
      have h1 := congrArg (fun l => l[i]?) h
      simp only [List.getElem?_map, hp, Option.map_some] at h1
      cases hf : fields[i]? with
      | none => rw [hf] at h1; cases h1
      | some f =>
        rw [hf] at h1
        simp only [Option.map_some, Option.some.injEq] at h1
        exact ⟨f, rfl, (step f p).mp h1⟩
    constructor
    · apply List.ext_getElem?
      intro i
      unfold PyDict.keys
      rw [List.getElem?_map]
      cases hp : row[i]? with
      | none =>
        rw [List.getElem?_eq_none_iff] at hp
        rw [Option.map_none, eq_comm, List.getElem?_eq_none_iff]
        omega
      | some p =>
        obtain ⟨f, hf, he, _⟩ := hpt i p hp
        rw [hf, Option.map_some, he]
    · intro p hp
      obtain ⟨i, hi⟩ := List.mem_iff_getElem?.mp hp
      obtain ⟨_, _, _, hc⟩ := hpt i p hi
      exact hc
  · rintro ⟨hk', hall⟩
    subst hk'
    unfold PyDict.keys
    rw [List.map_map]
    apply List.map_congr_left
    intro p hp
    exact (step p.1 p).mpr ⟨rfl, hall p hp⟩

theorem option_ext_some {A : Type} {a b : Option A} (h : ∀ x, a = some x ↔ b = some x) : a = b := by
  cases a with
  | none =>
    cases b with
    | none => rfl
    | some y => exact (h y).mpr rfl
  | some x => exact ((h x).mp rfl).symm

/-- **C22, column order.**  Permuting the columns (headers and cells together) changes nothing. -/
theorem csv_column_order (env : CaseEnv) (fields : List (List Char)) (cols cols' : List (List Char × Cell))
    (hp : List.Perm cols cols') (hn : (cols.map Prod.fst).Nodup) :
    csvRowByHeader env fields (cols.map Prod.fst) (cols.map Prod.snd) =
      csvRowByHeader env fields (cols'.map Prod.fst) (cols'.map Prod.snd) := by
  have hn' : (cols'.map Prod.fst).Nodup := (hp.map Prod.fst).nodup_iff.mp hn
  have key : ∀ a b : List (List Char × Cell), List.Perm a b → ∀ f v,
      CellFor env (a.map Prod.fst) (a.map Prod.snd) f v → CellFor env (b.map Prod.fst) (b.map Prod.snd) f v := by
    rintro a b hab f v ⟨i, h, hi, hv, hs, hu⟩
    rw [List.getElem?_map] at hi hv
    cases hai : a[i]? with
    | none => rw [hai] at hi; cases hi
    | some c =>
      rw [hai] at hi hv
      simp only [Option.map_some, Option.some.injEq, Option.getD_some] at hi hv
      obtain ⟨j, hj⟩ := List.mem_iff_getElem?.mp (hab.mem_iff.mp (List.mem_of_getElem? hai))
      refine ⟨j, h, by rw [List.getElem?_map, hj]; simp [hi], by rw [List.getElem?_map, hj]; simp [hv], hs, ?_⟩
      intro h' hh'
      exact hu h' ((hab.map Prod.fst).mem_iff.mpr hh')
  apply option_ext_some
  intro row
  rw [csv_cells_by_header_partial env fields _ _ hn (by simp) row, csv_cells_by_header_partial env fields _ _ hn' (by simp) row]
  constructor
  · rintro ⟨h1, h2⟩; exact ⟨h1, fun p hp' => key _ _ hp _ _ (h2 p hp')⟩
  · rintro ⟨h1, h2⟩; exact ⟨h1, fun p hp' => key _ _ hp.symm _ _ (h2 p hp')⟩

/-- **C22, extra columns.**  Columns whose header is no field up to case are ignored. -/
theorem csv_extra_columns (env : CaseEnv) (fields : List (List Char)) (cols extra : List (List Char × Cell))
    (hn : ((cols ++ extra).map Prod.fst).Nodup) (he : ∀ c ∈ extra, ∀ f ∈ fields, ¬ SameUpToCase env c.1 f) :
    csvRowByHeader env fields ((cols ++ extra).map Prod.fst) ((cols ++ extra).map Prod.snd) =
      csvRowByHeader env fields (cols.map Prod.fst) (cols.map Prod.snd) := by
  have hn' : (cols.map Prod.fst).Nodup := by
    rw [List.map_append] at hn
    exact (List.nodup_append.mp hn).1
  apply option_ext_some
  intro row
  rw [csv_cells_by_header_partial env fields _ _ hn (by simp) row, csv_cells_by_header_partial env fields _ _ hn' (by simp) row]
  apply and_congr_right
  intro hk
  have hf : ∀ p ∈ row, p.1 ∈ fields := fun p hp => by rw [← hk]; exact List.mem_map.mpr ⟨p, hp, rfl⟩
  constructor
  · intro h p hp
    obtain ⟨i, hd, hi, hv, hs, hu⟩ := h p hp
    have hlt : i < cols.length := by
      refine Decidable.byContradiction (fun hge => ?_)
      rw [List.map_append, List.getElem?_append, if_neg (by simpa using hge)] at hi
      obtain ⟨c, hc, rfl⟩ := List.mem_map.mp (List.mem_of_getElem? hi)
      exact he c hc p.1 (hf p hp) hs
    rw [List.map_append, List.getElem?_append, if_pos (by simpa using hlt)] at hi hv
    exact ⟨i, hd, hi, hv, hs, fun h' hh' => hu h' (by rw [List.map_append]; exact List.mem_append_left _ hh')⟩
  · intro h p hp
    obtain ⟨i, hd, hi, hv, hs, hu⟩ := h p hp
    have hlt : i < cols.length := by
      have := (List.getElem?_eq_some_iff.mp hi).1
      simpa using this
    refine ⟨i, hd, ?_, ?_, hs, ?_⟩
    · rw [List.map_append, List.getElem?_append, if_pos (by simpa using hlt)]; exact hi
    · rw [List.map_append, List.getElem?_append, if_pos (by simpa using hlt)]; exact hv
    · intro h' hh' hs'
      rw [List.map_append, List.mem_append] at hh'
      rcases hh' with hh' | hh'
      · exact hu h' hh' hs'
      · obtain ⟨c, hc, rfl⟩ := List.mem_map.mp hh'
        exact absurd hs' (he c hc p.1 (hf p hp))

/-- **C22, refusal.**  A data line makes the reader raise if a field has no column, or two. -/
theorem csv_missing_or_ambiguous (env : CaseEnv) (fields header : List (List Char)) (vals : List Cell)
    (hn : header.Nodup) (hl : vals.length ≤ header.length) (f : List Char) (hf : f ∈ fields)
    (hbad : (∀ h ∈ header, ¬ SameUpToCase env h f) ∨
      ∃ h ∈ header, ∃ h' ∈ header, h ≠ h' ∧ SameUpToCase env h f ∧ SameUpToCase env h' f) :
    csvRowByHeader env fields header vals = none := by
  cases h : csvRowByHeader env fields header vals with
  | none => rfl
  | some row =>
    obtain ⟨hk, hall⟩ := (csv_cells_by_header_partial env fields header vals hn hl row).mp h
    rw [← hk] at hf
    obtain ⟨p, hp, rfl⟩ := List.mem_map.mp hf
    obtain ⟨i, hd, hi, _, hs, hu⟩ := hall p hp
    rcases hbad with hb | ⟨h1, hm1, h2, hm2, hne, hs1, hs2⟩
    · exact absurd hs (hb hd (List.mem_of_getElem? hi))
    · exact absurd ((hu h1 hm1 hs1).trans (hu h2 hm2 hs2).symm) hne

/-- A line longer than the header raises. -/
theorem csv_long_line (env : CaseEnv) (fields header : List (List Char)) (vals : List Cell)
    (hl : header.length < vals.length) : csvRowByHeader env fields header vals = none := by
  simp [csvRowByHeader, dictReaderRow, hl]

/-- Without a header the cells go to the fields in order; a line may be short, the rest is `None`. -/
theorem csv_cells_by_position (fields : List (List Char)) (vals : List Cell) (hn : fields.Nodup)
    (hl : vals.length ≤ fields.length) (row : PyDict (List Char) Cell) (h : csvRowNoHeader fields vals = some row)
    (i : Nat) (f : List Char) (hi : fields[i]? = some f) : row[i]? = some (f, (vals[i]?).getD Cell.none) := by
  obtain ⟨_, hlong, hget⟩ := dictReaderRow_eq fields vals hn hl
  unfold csvRowNoHeader at h
  simp only [hlong, Bool.false_eq_true, if_false] at h
  rw [mapM_some_iff] at h
  have h1 := congrArg (fun l => l[i]?) h
  simp only [List.getElem?_map, hi, Option.map_some] at h1
  rw [(hget f ((vals[i]?).getD Cell.none)).mpr ⟨i, hi, rfl⟩] at h1
  cases hr : row[i]? with
  | none => rw [hr] at h1; cases h1
  | some p => rw [hr] at h1; simpa [eq_comm] using h1

/-- What the checks miss: a file with the wrong header and no data lines is accepted; an exactly repeated header is not
seen as ambiguous, and the last of its columns wins. -/
theorem csv_header_unchecked :
    csvRows asciiEnv ["qty".toList] ["zzz".toList] [] = some [] ∧
      csvRowByHeader asciiEnv ["qty".toList] ["Qty".toList, "Qty".toList] [Cell.str "1", Cell.str "2"] =
        some [("qty".toList, Cell.str "2")] := by
  decide +kernel

example : csvRowByHeader asciiEnv ["name".toList, "qty".toList] ["QTY".toList, "note".toList, "Name".toList]
    [Cell.str "3", Cell.str "x", Cell.str "nut"] =
      some [("name".toList, Cell.str "nut"), ("qty".toList, Cell.str "3")] := by decide +kernel

example : csvRowByHeader asciiEnv ["qty".toList] ["Qty".toList, "QTY".toList] [Cell.str "1", Cell.str "2"] = none := by
  decide +kernel

example : csvRowNoHeader ["a".toList, "b".toList] [Cell.str "1"] =
    some [("a".toList, Cell.str "1"), ("b".toList, Cell.none)] := by decide +kernel

end Ticdat

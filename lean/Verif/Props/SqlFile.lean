import Verif.Spec.SqlFile
import Verif.Props.SqliteTable
import Verif.Props.ReadLocal
import Verif.Props.PgPan
/-!
# C77: SQLite databases with a schema of their own
-/
set_option linter.unusedSectionVars false
set_option linter.unusedSimpArgs false
namespace Ticdat
open Spec

/-! ### Finding tables and columns -/

theorem find_of_mem (cenv : CaseEnv) (file : SqlFile) (hn : ((PyDict.keys file).map (fun k => cenv.lower k.toList)).Nodup)
    (k : String) (tab : SqlTab) (hm : (k, tab) ∈ file) (t : String) (hs : SqlSame cenv k t) : file.find cenv t = some tab := by
  unfold SqlFile.find
  induction file with
  | nil => cases hm
  | cons p rest ih =>
    simp only [PyDict.keys, List.map_cons, List.nodup_cons] at hn
    rw [List.find?_cons]
    rcases List.mem_cons.mp hm with e | hm
    · subst e
      have : cenv.lower k.toList = cenv.lower t.toList := hs
      simp [this]
    · by_cases hp : cenv.lower p.1.toList = cenv.lower t.toList
      · exfalso
        refine hn.1 (List.mem_map.mpr ⟨k, List.mem_map.mpr ⟨_, hm, rfl⟩, ?_⟩)
        exact (show cenv.lower k.toList = _ from hs).trans hp.symm
      · simp only [hp, decide_false, Bool.false_eq_true, if_false]
        exact ih hn.2 hm

theorem mem_of_find (cenv : CaseEnv) (file : SqlFile) (t : String) (tab : SqlTab) (h : file.find cenv t = some tab) :
    ∃ k, (k, tab) ∈ file ∧ SqlSame cenv k t := by
  unfold SqlFile.find at h
  simp only [Option.map_eq_some_iff] at h
  obtain ⟨p, h1, rfl⟩ := h
  have h2 := List.find?_some h1
  have h2 := of_decide_eq_true h2
  exact ⟨p.1, List.mem_of_find?_eq_some h1, h2⟩

theorem col_spec (cenv : CaseEnv) (tab : SqlTab) (hn : (tab.cols.map (fun c => cenv.lower c.name.toList)).Nodup) (f : String)
    (i : Nat) : tab.col cenv f = some i ↔ ∃ c, tab.cols[i]? = some c ∧ SqlSame cenv c.name f := by
  unfold SqlTab.col
  rw [List.findIdx?_eq_some_iff_getElem]
  constructor
  · rintro ⟨h, h1, _⟩
    have h1 := of_decide_eq_true h1
    exact ⟨_, List.getElem?_eq_getElem h, h1⟩
  · rintro ⟨c, h1, h2⟩
    obtain ⟨h, rfl⟩ := List.getElem?_eq_some_iff.mp h1
    refine ⟨h, decide_eq_true h2, fun j hj => ?_⟩
    intro h3
    have h3 := of_decide_eq_true h3
    have h4 := hn
    rw [List.nodup_iff_pairwise_ne, List.pairwise_iff_getElem] at h4
    have := h4 j i (by simp; omega) (by simpa using h) hj
    simp only [List.getElem_map] at this
    exact this (h3.trans (show cenv.lower _ = cenv.lower _ from h2).symm)

theorem col_none (cenv : CaseEnv) (tab : SqlTab) (f : String) (h : ∀ c ∈ tab.cols, ¬ SqlSame cenv c.name f) :
    tab.col cenv f = none := by
  unfold SqlTab.col
  rw [List.findIdx?_eq_none_iff]
  intro c hc
  exact decide_eq_false (h c hc)

theorem col_some (cenv : CaseEnv) (tab : SqlTab) (hn : (tab.cols.map (fun c => cenv.lower c.name.toList)).Nodup) (f : String)
    (h : ∃ c ∈ tab.cols, SqlSame cenv c.name f) : ∃ i, tab.col cenv f = some i := by
  obtain ⟨c, hc, h⟩ := h
  obtain ⟨i, hi⟩ := List.getElem?_of_mem hc
  exact ⟨i, (col_spec cenv tab hn f i).mpr ⟨c, hi, h⟩⟩

theorem cols_some (cenv : CaseEnv) (tab : SqlTab) (hn : (tab.cols.map (fun c => cenv.lower c.name.toList)).Nodup)
    (fields : List String) (h : ∀ f ∈ fields, ∃ c ∈ tab.cols, SqlSame cenv c.name f) :
    ∃ ixs, fields.mapM (tab.col cenv) = some ixs :=
  mapM_some_of_forall _ _ (fun f hf => Option.isSome_iff_exists.mpr (col_some cenv tab hn f (h f hf)))

theorem lower_blank (cenv : CaseEnv) (laws : CaseLaws cenv) (s : List Char) : ' ' ∈ cenv.lower s ↔ ' ' ∈ s := by
  unfold CaseEnv.lower
  rw [List.mem_flatMap]
  constructor
  · rintro ⟨c, hc, h⟩
    rw [← laws.lo_no_blank c h]
    exact hc
  · intro h
    exact ⟨' ', h, by rw [laws.lo_blank]; simp⟩

theorem variant_unblank (cenv : CaseEnv) (laws : CaseLaws cenv) (s s' : List Char) (h : BlankedVariant s s') :
    unblank (cenv.lower s') = unblank (cenv.lower s) := by
  induction s generalizing s' with
  | nil =>
    have := ((blankedVariant_iff _ _).mp h).1
    have : s' = [] := List.eq_nil_of_length_eq_zero (by simpa using this)
    rw [this]
  | cons c s ih =>
    obtain ⟨h1, h2⟩ := (blankedVariant_iff _ _).mp h
    cases s' with
    | nil => simp at h1
    | cons c' s' =>
      have h3 : BlankedVariant s s' := by
        rw [blankedVariant_iff]
        refine ⟨by simpa using h1, fun j => ?_⟩
        have := h2 (j + 1)
        simpa using this
      have h4 := h2 0
      simp only [List.getElem?_cons_zero, Option.some.injEq] at h4
      have h5 : unblank (cenv.lo c') = unblank (cenv.lo c) := by
        rcases h4 with h4 | ⟨h4, h5⟩
        · rw [h4]
        · rw [h4, h5, laws.lo_blank, laws.lo_under]
          decide
      have h6 := ih s' h3
      unfold CaseEnv.lower unblank at *
      rw [List.flatMap_cons, List.flatMap_cons, List.map_append, List.map_append, h5, h6]

/-- A name that a variant of `t` finds is `t` up to case and blanks. -/
theorem variant_name (cenv : CaseEnv) (laws : CaseLaws cenv) (t k : String) (n : List Char) (hb : ' ' ∉ t.toList)
    (hn : n ∈ underscoreReplacements t.toList) (he : cenv.lower k.toList = cenv.lower n) :
    unblank (cenv.lower k.toList) = cenv.lower t.toList := by
  rw [he, variant_unblank cenv laws _ _ ((mem_underscoreReplacements _ _).mp hn),
    unblank_of_no_blank _ (fun h => hb ((lower_blank cenv laws _).mp h))]

/-- The name under which a table is found. -/
theorem tableName_found (cenv : CaseEnv) (laws : CaseLaws cenv) (file : SqlFile) (t : String) (hb : ' ' ∉ t.toList)
    (tab : SqlTab) (h : HasTable cenv file t tab) : file.tableName cenv t = some (some t) := by
  obtain ⟨⟨k, hk, hs⟩, ho⟩ := h
  have hself : BlankedVariant t.toList t.toList := by
    rw [blankedVariant_iff]
    exact ⟨rfl, fun j => .inl rfl⟩
  have hfil : (underscoreReplacements t.toList).filter (fun n => (file.map (fun p => (p.1, ([] : List (List Cell))))).any
      (fun p => decide (cenv.lower p.1.toList = cenv.lower n))) = [t.toList] := by
    rw [filter_eq_singleton _ (underscoreReplacements_nodup _)]
    refine ⟨(mem_underscoreReplacements _ _).mpr hself, ?_, ?_⟩
    · rw [List.any_eq_true]
      exact ⟨(k, []), List.mem_map.mpr ⟨_, hk, rfl⟩, decide_eq_true hs⟩
    · intro n hn hany
      rw [List.any_eq_true] at hany
      obtain ⟨p, hp, he⟩ := hany
      have he := of_decide_eq_true he
      obtain ⟨q, hq, rfl⟩ := List.mem_map.mp hp
      have h1 : cenv.lower q.1.toList = cenv.lower t.toList :=
        ho q.1 (List.mem_map.mpr ⟨q, hq, rfl⟩) (variant_name cenv laws t q.1 n hb hn he)
      have hnb : ' ' ∉ n := by
        intro h
        have h2 := (lower_blank cenv laws n).mpr h
        rw [← he] at h2
        have h2 : ' ' ∈ cenv.lower t.toList := h1 ▸ h2
        exact hb ((lower_blank cenv laws _).mp h2)
      obtain ⟨_, h2⟩ := (blankedVariant_iff _ _).mp ((mem_underscoreReplacements _ _).mp hn)
      apply List.ext_getElem?
      intro j
      rcases h2 j with h | ⟨_, h⟩
      · exact h
      · exact absurd (List.mem_of_getElem? h) hnb
  unfold SqlFile.tableName sqlTableName
  rw [hfil]
  simp

theorem tableName_none (cenv : CaseEnv) (laws : CaseLaws cenv) (file : SqlFile) (t : String) (hb : ' ' ∉ t.toList)
    (h : ∀ k ∈ PyDict.keys file, unblank (cenv.lower k.toList) ≠ cenv.lower t.toList) :
    file.tableName cenv t = some none := by
  have hfil : (underscoreReplacements t.toList).filter (fun n => (file.map (fun p => (p.1, ([] : List (List Cell))))).any
      (fun p => decide (cenv.lower p.1.toList = cenv.lower n))) = [] := by
    rw [List.filter_eq_nil_iff]
    intro n hn hany
    rw [List.any_eq_true] at hany
    obtain ⟨p, hp, he⟩ := hany
    obtain ⟨q, hq, rfl⟩ := List.mem_map.mp hp
    exact h q.1 (List.mem_map.mpr ⟨q, hq, rfl⟩) (variant_name cenv laws t q.1 n hb hn (of_decide_eq_true he))
  unfold SqlFile.tableName sqlTableName
  rw [hfil]

/-! ### Updating -/

theorem update_found (cenv : CaseEnv) (t : String) (g : SqlTab → Option SqlTab) (file : SqlFile)
    (hn : ((PyDict.keys file).map (fun k => cenv.lower k.toList)).Nodup) (tab tab' : SqlTab)
    (hf : file.find cenv t = some tab) (hg : g tab = some tab') :
    ∃ file', file.update cenv t g = some file' ∧ PyDict.keys file' = PyDict.keys file ∧
      file'.find cenv t = some tab' ∧ (∀ u, ¬ SqlSame cenv u t → file'.find cenv u = file.find cenv u) := by
  induction file with
  | nil => cases hf
  | cons p rest ih =>
    simp only [PyDict.keys, List.map_cons, List.nodup_cons] at hn
    unfold SqlFile.update
    by_cases hp : cenv.lower p.1.toList = cenv.lower t.toList
    · have e : p.2 = tab := by
        unfold SqlFile.find at hf
        rw [List.find?_cons] at hf
        simpa [hp] using hf
      rw [if_pos hp, e, hg]
      refine ⟨_, rfl, rfl, ?_, ?_⟩
      · unfold SqlFile.find
        rw [List.find?_cons]
        simp [hp]
      · intro u hu
        have hpu : ¬ cenv.lower p.1.toList = cenv.lower u.toList := fun h => hu (h.symm.trans hp)
        unfold SqlFile.find
        rw [List.find?_cons, List.find?_cons]
        simp [hpu]
    · rw [if_neg hp]
      have hf' : SqlFile.find cenv rest t = some tab := by
        unfold SqlFile.find at hf ⊢
        rw [List.find?_cons] at hf
        simpa [hp] using hf
      obtain ⟨file', h1, h2, h3, h4⟩ := ih hn.2 hf'
      refine ⟨p :: file', by rw [h1]; rfl, ?_, ?_, ?_⟩
      · simp only [PyDict.keys, List.map_cons] at h2 ⊢
        rw [h2]
      · unfold SqlFile.find at h3 ⊢
        rw [List.find?_cons]
        simpa [hp] using h3
      · intro u hu
        have := h4 u hu
        unfold SqlFile.find at this ⊢
        rw [List.find?_cons, List.find?_cons]
        by_cases hpu : cenv.lower p.1.toList = cenv.lower u.toList
        · simp [hpu]
        · simpa [hpu] using this

theorem update_keys (cenv : CaseEnv) (t : String) (g : SqlTab → Option SqlTab) (file file' : SqlFile)
    (h : file.update cenv t g = some file') :
    PyDict.keys file' = PyDict.keys file ∧ ∀ u, ¬ SqlSame cenv u t → file'.find cenv u = file.find cenv u := by
  induction file generalizing file' with
  | nil => cases h
  | cons p rest ih =>
    unfold SqlFile.update at h
    by_cases hp : cenv.lower p.1.toList = cenv.lower t.toList
    · rw [if_pos hp, Option.map_eq_some_iff] at h
      obtain ⟨x, _, rfl⟩ := h
      refine ⟨rfl, fun u hu => ?_⟩
      have hpu : ¬ cenv.lower p.1.toList = cenv.lower u.toList := fun h => hu (h.symm.trans hp)
      unfold SqlFile.find
      rw [List.find?_cons, List.find?_cons]
      simp [hpu]
    · rw [if_neg hp, Option.map_eq_some_iff] at h
      obtain ⟨r, h1, rfl⟩ := h
      obtain ⟨h2, h3⟩ := ih r h1
      refine ⟨by simp only [PyDict.keys, List.map_cons] at h2 ⊢; rw [h2], fun u hu => ?_⟩
      have := h3 u hu
      unfold SqlFile.find at this ⊢
      rw [List.find?_cons, List.find?_cons]
      by_cases hpu : cenv.lower p.1.toList = cenv.lower u.toList
      · simp [hpu]
      · simpa [hpu] using this

/-! ### Reading by name -/

theorem cellAt_unique (cenv : CaseEnv) (tab : SqlTab) (hn : (tab.cols.map (fun c => cenv.lower c.name.toList)).Nodup)
    (row : List Cell) (f : String) (x y : Cell) (hx : CellAt cenv tab row f x) (hy : CellAt cenv tab row f y) : x = y := by
  obtain ⟨i, c, h1, h2, h3⟩ := hx
  obtain ⟨j, d, h4, h5, h6⟩ := hy
  have hi := (col_spec cenv tab hn f i).mpr ⟨c, h1, h2⟩
  have hj := (col_spec cenv tab hn f j).mpr ⟨d, h4, h5⟩
  rw [hi] at hj
  cases hj
  rw [h3] at h6
  exact Option.some.inj h6

theorem pick_cells (cenv : CaseEnv) (tab : SqlTab) (hn : (tab.cols.map (fun c => cenv.lower c.name.toList)).Nodup)
    (fields : List String) (ixs : List Nat) (h : fields.mapM (tab.col cenv) = some ixs) (row vs : List Cell)
    (hl : vs.length = fields.length)
    (hc : ∀ (j : Nat) f x, fields[j]? = some f → vs[j]? = some x → CellAt cenv tab row f x) : pick ixs row = vs := by
  have hm := (mapM_eq_some_iff _ _ _).mp h
  apply List.ext_getElem?
  intro j
  have hj := congrArg (fun l => l[j]?) hm
  simp only [List.getElem?_map] at hj
  unfold pick
  rw [List.getElem?_map]
  cases hf : fields[j]? with
  | none =>
    rw [hf] at hj
    have h1 : vs[j]? = none := by
      rw [List.getElem?_eq_none_iff] at hf ⊢
      omega
    cases hi : ixs[j]? with
    | none => rw [h1]; rfl
    | some i => rw [hi] at hj; cases hj
  | some f =>
    rw [hf] at hj
    cases hi : ixs[j]? with
    | none => rw [hi] at hj; cases hj
    | some i =>
      rw [hi] at hj
      simp only [Option.map_some, Option.some.injEq] at hj
      cases hv : vs[j]? with
      | none =>
        rw [List.getElem?_eq_none_iff] at hv
        obtain ⟨h1, _⟩ := List.getElem?_eq_some_iff.mp hf
        omega
      | some x =>
        obtain ⟨i', c, h1, h2, h3⟩ := hc j f x hf hv
        have := (col_spec cenv tab hn f i').mpr ⟨c, h1, h2⟩
        rw [hj] at this
        cases this
        simp [h3]

theorem pick_cellAt (cenv : CaseEnv) (tab : SqlTab) (hn : (tab.cols.map (fun c => cenv.lower c.name.toList)).Nodup)
    (fields : List String) (ixs : List Nat) (h : fields.mapM (tab.col cenv) = some ixs) (row : List Cell)
    (hl : row.length = tab.cols.length) (j : Nat) (f : String) (hf : fields[j]? = some f) :
    ∃ x, (pick ixs row)[j]? = some x ∧ CellAt cenv tab row f x := by
  have hm := (mapM_eq_some_iff _ _ _).mp h
  have hj := congrArg (fun l => l[j]?) hm
  simp only [List.getElem?_map, hf, Option.map_some] at hj
  cases hi : ixs[j]? with
  | none => rw [hi] at hj; cases hj
  | some i =>
    rw [hi] at hj
    simp only [Option.map_some, Option.some.injEq] at hj
    obtain ⟨c, h1, h2⟩ := (col_spec cenv tab hn f i).mp hj
    obtain ⟨h3, _⟩ := List.getElem?_eq_some_iff.mp h1
    have h4 := List.getElem?_eq_getElem (l := row) (i := i) (by omega)
    refine ⟨row[i]'(by omega), ?_, i, c, h1, h2, h4⟩
    unfold pick
    rw [List.getElem?_map, hi]
    simp [h4]

theorem select_same (cenv : CaseEnv) (tab tab' : SqlTab) (hn : (tab.cols.map (fun c => cenv.lower c.name.toList)).Nodup)
    (hn' : (tab'.cols.map (fun c => cenv.lower c.name.toList)).Nodup) (fields : List String)
    (hf : ∀ f ∈ fields, ∃ c ∈ tab.cols, SqlSame cenv c.name f) (hf' : ∀ f ∈ fields, ∃ c ∈ tab'.cols, SqlSame cenv c.name f)
    (hl : ∀ r ∈ tab.rows, r.length = tab.cols.length)
    (hs : SameByName cenv fields tab tab') : tab.select cenv fields = tab'.select cenv fields := by
  obtain ⟨ixs, h1⟩ := cols_some cenv tab hn fields hf
  obtain ⟨ixs', h2⟩ := cols_some cenv tab' hn' fields hf'
  unfold SqlTab.select
  rw [h1, h2, Option.map_some, Option.map_some]
  congr 1
  unfold SameByName at hs
  generalize tab.rows = rows at hs hl
  generalize tab'.rows = rows' at hs
  induction hs with
  | nil => rfl
  | @cons r r' l l' hr _ ih =>
    rw [List.map_cons, List.map_cons, ih (fun x hx => hl x (List.mem_cons_of_mem _ hx))]
    congr 1
    refine (pick_cells cenv tab' hn' fields ixs' h2 r' (pick ixs r) ?_ ?_).symm
    · have := congrArg List.length ((mapM_eq_some_iff _ _ _).mp h1)
      simp only [List.length_map] at this
      simp [pick, this]
    · intro j f x hfj hx
      obtain ⟨y, h3, h4⟩ := pick_cellAt cenv tab hn fields ixs h1 r (hl r List.mem_cons_self) j f hfj
      rw [hx] at h3
      cases h3
      obtain ⟨z, h5, h6⟩ := hr f (List.mem_of_getElem? hfj)
      rw [cellAt_unique cenv tab hn r f x z h4 h5]
      exact h6

/-- One table as it is read. -/
def sqlFileFind (env : TextEnv) (cenv : CaseEnv) (cf : IOConf) (file : SqlFile) (tc : String × TabClass) :
    Option (Option TableIn) :=
  (file.tableName cenv tc.1).bind (fun name =>
    match name with
    | none => some none
    | some n => (sqlTabRows env cenv cf file tc n).map some)

theorem checkFields_spec (cenv : CaseEnv) (file : SqlFile) (s : List (String × TabClass)) (hn : (s.map Prod.fst).Nodup)
    (names : PyDict String String) (h : file.checkFields cenv s = some names) :
    (∀ k, PyDict.get? names k ≠ none → k ∈ s.map Prod.fst) ∧
      ∀ tc ∈ s, file.tableName cenv tc.1 = some (PyDict.get? names tc.1) := by
  induction s generalizing names with
  | nil => cases h; exact ⟨fun k hk => absurd rfl hk, by simp⟩
  | cons a rest ih =>
    rw [List.map_cons, List.nodup_cons] at hn
    unfold SqlFile.checkFields at h
    simp only [Option.bind_eq_some_iff] at h
    obtain ⟨n, h1, r, h2, h3⟩ := h
    obtain ⟨h4, h5⟩ := ih hn.2 r h2
    have hno : PyDict.get? r a.1 = none := Classical.byContradiction (fun h => hn.1 (h4 a.1 h))
    cases n with
    | none =>
      cases h3
      refine ⟨fun k hk => List.mem_cons_of_mem _ (h4 k hk), fun tc htc => ?_⟩
      rcases List.mem_cons.mp htc with e | htc
      · rw [e, h1, hno]
      · exact h5 tc htc
    | some n =>
      simp only [Option.bind_eq_some_iff, Option.map_eq_some_iff] at h3
      obtain ⟨tab, _, ixs, _, rfl⟩ := h3
      constructor
      · intro k hk
        by_cases e : a.1 = k
        · rw [← e]; simp
        · simp only [PyDict.get?, if_neg e] at hk
          exact List.mem_cons_of_mem _ (h4 k hk)
      · intro tc htc
        rcases List.mem_cons.mp htc with e | htc
        · rw [e, h1]
          simp [PyDict.get?]
        · have hne : ¬ a.1 = tc.1 := fun e => hn.1 (List.mem_map.mpr ⟨tc, htc, e.symm⟩)
          simp only [PyDict.get?, if_neg hne]
          exact h5 tc htc

theorem checkFields_none (env : TextEnv) (cenv : CaseEnv) (cf : IOConf) (file : SqlFile) (s : List (String × TabClass))
    (h : file.checkFields cenv s = none) : ∃ tc ∈ s, sqlFileFind env cenv cf file tc = none := by
  induction s with
  | nil => cases h
  | cons a rest ih =>
    unfold SqlFile.checkFields at h
    cases h1 : file.tableName cenv a.1 with
    | none => exact ⟨a, List.mem_cons_self, by unfold sqlFileFind; rw [h1]; rfl⟩
    | some n =>
      cases h2 : file.checkFields cenv rest with
      | none =>
        obtain ⟨tc, htc, h3⟩ := ih h2
        exact ⟨tc, List.mem_cons_of_mem _ htc, h3⟩
      | some r =>
        rw [h1, h2] at h
        simp only [Option.bind_some] at h
        cases n with
        | none => cases h
        | some n =>
          refine ⟨a, List.mem_cons_self, ?_⟩
          unfold sqlFileFind sqlTabRows SqlTab.select
          rw [h1]
          simp only [Option.bind_some]
          cases h4 : file.find cenv n with
          | none => rfl
          | some tab =>
            simp only [h4, Option.bind_some, Option.map_eq_none_iff] at h
            rw [Option.bind_some, h]
            rfl

/-- Checking the fields first makes no difference to what is read. -/
theorem sqlFileCreate_eq (env : TextEnv) (cenv : CaseEnv) (cf : IOConf) (policy : DupPolicy) (schema : List (String × TabClass))
    (hn : (schema.map Prod.fst).Nodup) (file : SqlFile) :
    sqlFileCreate env cenv cf policy schema file = readAll env cf.params policy schema (sqlFileFind env cenv cf file) := by
  unfold sqlFileCreate readAll
  cases h : file.checkFields cenv schema with
  | none =>
    obtain ⟨tc, htc, h1⟩ := checkFields_none env cenv cf file schema h
    rw [gather_raises _ schema tc htc h1]
    rfl
  | some names =>
    rw [Option.bind_some]
    unfold sqlFromCon
    rw [gather_congr _ (sqlFileFind env cenv cf file) schema]
    intro tc htc
    unfold sqlFileFind
    rw [(checkFields_spec cenv file schema hn names h).2 tc htc, Option.bind_some]
    cases PyDict.get? names tc.1 <;> rfl

theorem good_names_nodup (cenv : CaseEnv) (schema : List (String × TabClass))
    (hg : goodTableNames cenv (schema.map (fun tc => tc.1.toList)) = true) : (schema.map Prod.fst).Nodup := by
  have hg' : goodTableNames cenv ((schema.map Prod.fst).map String.toList) = true := by
    rw [List.map_map]; exact hg
  exact nodup_of_map _ (nodup_of_map _ ((goodTableNames_iff cenv _).mp hg').2.2)

/-- **C77, columns by name.**  What is read from a database depends only on the cells its tables have under the names of the
fields: not on the order of the columns and of the tables, on other columns and other tables, on the case of the names. -/
theorem sqlite_reads_by_name (env : TextEnv) (cenv : CaseEnv) (laws : CaseLaws cenv) (cf : IOConf) (policy : DupPolicy)
    (schema : List (String × TabClass)) (hg : goodTableNames cenv (schema.map (fun tc => tc.1.toList)) = true)
    (file file' : SqlFile) (hwf : SqlFileWF cenv file) (hwf' : SqlFileWF cenv file')
    (h : ∀ tc ∈ schema, (NoTable cenv file tc.1 ∧ NoTable cenv file' tc.1) ∨
      ∃ tab tab', HasTable cenv file tc.1 tab ∧ HasTable cenv file' tc.1 tab' ∧
      (∀ f ∈ tc.2.fields, (∃ c ∈ tab.cols, SqlSame cenv c.name f) ∧ ∃ c ∈ tab'.cols, SqlSame cenv c.name f) ∧
      SameByName cenv tc.2.fields tab tab') :
    sqlFileCreate env cenv cf policy schema file = sqlFileCreate env cenv cf policy schema file' := by
  rw [sqlFileCreate_eq env cenv cf policy schema (good_names_nodup cenv schema hg),
    sqlFileCreate_eq env cenv cf policy schema (good_names_nodup cenv schema hg)]
  unfold readAll
  rw [gather_congr _ (sqlFileFind env cenv cf file') schema]
  intro tc htc
  have hb : ' ' ∉ tc.1.toList := ((goodTableNames_iff cenv _).mp hg).2.1 _ (List.mem_map.mpr ⟨tc, htc, rfl⟩)
  rcases h tc htc with ⟨h1, h2⟩ | ⟨tab, tab', h1, h2, h3, h4⟩
  · unfold sqlFileFind
    rw [tableName_none cenv laws file tc.1 hb h1, tableName_none cenv laws file' tc.1 hb h2]
    rfl
  have ⟨⟨k, hk, hs⟩, _⟩ := h1
  have ⟨⟨k', hk', hs'⟩, _⟩ := h2
  unfold sqlFileFind
  rw [tableName_found cenv laws file tc.1 hb tab h1, tableName_found cenv laws file' tc.1 hb tab' h2]
  simp only [Option.bind_some]
  unfold sqlTabRows
  rw [find_of_mem cenv file hwf.names k tab hk tc.1 hs, find_of_mem cenv file' hwf'.names k' tab' hk' tc.1 hs',
    Option.bind_some, Option.bind_some, select_same cenv tab tab' (hwf.cols _ hk) (hwf'.cols _ hk') tc.2.fields
      (fun f hf => (h3 f hf).1) (fun f hf => (h3 f hf).2) (hwf.rows _ hk) h4]

theorem checkFields_raises (cenv : CaseEnv) (file : SqlFile) (schema : List (String × TabClass)) (tc : String × TabClass)
    (htc : tc ∈ schema) (n : String) (hn : file.tableName cenv tc.1 = some (some n)) (tab : SqlTab)
    (hf : file.find cenv n = some tab) (hm : tc.2.fields.mapM (tab.col cenv) = none) : file.checkFields cenv schema = none := by
  induction schema with
  | nil => cases htc
  | cons a rest ih =>
    unfold SqlFile.checkFields
    rcases List.mem_cons.mp htc with e | h
    · subst e
      rw [hn, Option.bind_some]
      cases file.checkFields cenv rest with
      | none => rfl
      | some r => simp [hf, hm]
    · rw [ih h]
      cases file.tableName cenv a.1 <;> rfl

/-- **C77, missing fields.**  A table that is found but lacks a column for a field makes reading raise, and writing too,
which then leaves the database as it was: even if the table has no rows. -/
theorem sqlite_missing_field_raises (env : TextEnv) (senv : SqlEnv) (cenv : CaseEnv) (laws : CaseLaws cenv) (cf : IOConf)
    (policy : DupPolicy) (allowOverwrite : Bool) (schema : List (String × TabClass))
    (hg : goodTableNames cenv (schema.map (fun tc => tc.1.toList)) = true)
    (dat : PyDict String TabVal) (file : SqlFile) (hwf : SqlFileWF cenv file) (tc : String × TabClass) (htc : tc ∈ schema)
    (tab : SqlTab) (h : HasTable cenv file tc.1 tab) (f : String) (hf : f ∈ tc.2.fields)
    (hmiss : ∀ c ∈ tab.cols, ¬ SqlSame cenv c.name f) :
    sqlFileCreate env cenv cf policy schema file = none ∧
      sqlFileWrite env senv cenv cf allowOverwrite schema dat file = (file, true) := by
  have hb : ' ' ∉ tc.1.toList := ((goodTableNames_iff cenv _).mp hg).2.1 _ (List.mem_map.mpr ⟨tc, htc, rfl⟩)
  have hname := tableName_found cenv laws file tc.1 hb tab h
  obtain ⟨⟨k, hk, hs⟩, _⟩ := h
  have hfind := find_of_mem cenv file hwf.names k tab hk tc.1 hs
  have hm : tc.2.fields.mapM (tab.col cenv) = none := mapM_none_of hf (col_none cenv tab f hmiss)
  constructor
  · unfold sqlFileCreate
    rw [checkFields_raises cenv file schema tc htc tc.1 hname tab hfind hm]
    rfl
  · unfold sqlFileWrite
    rw [checkFields_raises cenv file schema tc htc tc.1 hname tab hfind hm]

/-- **C77, missing tables.**  A table of the schema that the database does not have is read as an empty table. -/
theorem sqlite_missing_table_empty (env : TextEnv) (cenv : CaseEnv) (laws : CaseLaws cenv) (cf : IOConf)
    (policy : DupPolicy) (schema : List (String × TabClass))
    (hg : goodTableNames cenv (schema.map (fun tc => tc.1.toList)) = true) (file : SqlFile) (dat : PyDict String TabVal)
    (hr : sqlFileCreate env cenv cf policy schema file = some dat) (tc : String × TabClass) (htc : tc ∈ schema)
    (hmiss : NoTable cenv file tc.1) :
    PyDict.get? dat tc.1 = some (emptyTable tc.2) := by
  have hnames := good_names_nodup cenv schema hg
  have hb : ' ' ∉ tc.1.toList := ((goodTableNames_iff cenv _).mp hg).2.1 _ (List.mem_map.mpr ⟨tc, htc, rfl⟩)
  rw [sqlFileCreate_eq env cenv cf policy schema hnames] at hr
  rcases readAll_table env cf.params policy schema hnames (sqlFileFind env cenv cf file) dat hr tc htc with h | ⟨x, tab, h, _⟩
  · exact h.2
  · unfold sqlFileFind at h
    rw [tableName_none cenv laws file tc.1 hb hmiss] at h
    simp at h

/-- **C77, .sql files.**  A .sql file whose statements do not make a table of the schema cannot be read. -/
theorem sql_text_missing_table_raises (env : TextEnv) (cenv : CaseEnv) (cf : IOConf)
    (policy : DupPolicy) (schema : List (String × TabClass)) (hn : (schema.map Prod.fst).Nodup) (file : SqlFile)
    (tc : String × TabClass) (htc : tc ∈ schema)
    (hmiss : ∀ k ∈ PyDict.keys file, ¬ SqlSame cenv k tc.1) : sqlTextCreate env cenv cf policy schema file = none := by
  unfold sqlTextCreate sqlFromCon
  rw [gather_raises _ schema tc htc]
  · rfl
  · rw [PyDict.get?_of_mem (show (PyDict.keys (schema.map (fun tc => (tc.1, tc.1)))).Nodup by
      simp only [PyDict.keys, List.map_map]
      exact hn) (List.mem_map.mpr ⟨tc, htc, rfl⟩)]
    simp only
    unfold sqlTabRows
    cases hf : file.find cenv tc.1 with
    | none => rfl
    | some tab =>
      obtain ⟨k, h1, h2⟩ := mem_of_find cenv file tc.1 tab hf
      exact absurd h2 (hmiss k (List.mem_map.mpr ⟨_, h1, rfl⟩))

end Ticdat

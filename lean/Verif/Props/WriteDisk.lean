import Verif.Spec.WriteDisk
import Verif.Props.JsonFile
import Verif.Props.ExcelRound
import Verif.Props.SqlFileWrite
import Verif.Props.SqlFileExamples
/-!
# What the writers leave on the disk
-/
set_option linter.unusedSectionVars false
set_option linter.unusedSimpArgs false
namespace Ticdat
open Spec

theorem goodDat_iff (schema : List (String × TabClass)) (dat : PyDict String TabVal) :
    goodDat schema dat = true ↔ GoodObject schema dat := by
  unfold goodDat GoodObject
  rw [decide_eq_true_eq, generous_good_iff]
  constructor
  · intro h tc htc
    obtain ⟨a, ha, _, hg⟩ := h (tc.1, .plain tc.2) (List.mem_map.2 ⟨tc, htc, rfl⟩)
    rw [get?_map_second (fun v : TabVal => AttrVal.tab v.asInput)] at ha
    obtain ⟨tab, ht, rfl⟩ := Option.map_eq_some_iff.1 ha
    exact ⟨tab, ht, hg⟩
  · intro h tk htk
    obtain ⟨tc, htc, rfl⟩ := List.mem_map.1 htk
    obtain ⟨tab, ht, hg⟩ := h tc htc
    refine ⟨.tab tab.asInput, ?_, ?_, hg⟩
    · rw [get?_map_second (fun v : TabVal => AttrVal.tab v.asInput), ht]; rfl
    · simp

/-! ### csv -/

theorem mapM_id_bind {A B : Type} (g : A → Option B) : ∀ l : List (Option A),
    (l.mapM id).bind (fun rows => rows.mapM g) = l.mapM (fun o => o.bind g)
  | [] => rfl
  | o :: l => by
    rw [List.mapM_cons, List.mapM_cons, ← mapM_id_bind g l]
    cases o with
    | none => rfl
    | some a =>
      simp only [id, Option.bind_eq_bind, Option.bind_some, Option.pure_def]
      cases h : l.mapM id with
      | none => cases g a <;> simp
      | some rows => simp [List.mapM_cons]

theorem mapM_map_id {A B : Type} (f : A → Option B) : ∀ l : List A, (l.map f).mapM id = l.mapM f
  | [] => rfl
  | a :: l => by rw [List.map_cons, List.mapM_cons, List.mapM_cons, mapM_map_id f l]; rfl

theorem flatRows_one_by_one (c : TabClass) (tab : TabVal) : flatRows c tab = (rowsOneByOne c tab).mapM id := by
  cases tab <;> simp only [flatRows, rowsOneByOne, mapM_map_id]

theorem csvTable_eq (env : TextEnv) (cf : IOConf) (t : String) (c : TabClass) (header : Bool) (tab : TabVal) :
    csvTable env cf t c header tab =
      ((rowsOneByOne c tab).mapM (csvLine env cf t c)).map (fun lines => if header then c.fields :: lines else lines) := by
  unfold csvTable
  rw [flatRows_one_by_one, mapM_id_bind]
  rfl

theorem rowsOneByOne_first (c : TabClass) (k : Nat) (tab : TabVal) :
    rowsOneByOne c (firstRows k tab) = (rowsOneByOne c tab).take k := by
  cases tab <;> simp [rowsOneByOne, firstRows, List.map_take]

theorem linesUntil_spec {A B : Type} (line : A → Option B) : ∀ l : List A,
    ((linesUntil line l).2 = false → l.mapM line = some (linesUntil line l).1) ∧
    ((linesUntil line l).2 = true → ∃ k, (l.take k).mapM line = some (linesUntil line l).1 ∧ (l.take (k + 1)).mapM line = none)
  | [] => by simp [linesUntil]
  | a :: l => by
    obtain ⟨h1, h2⟩ := linesUntil_spec line l
    unfold linesUntil
    cases ha : line a with
    | none =>
      constructor
      · intro h; cases h
      · intro _
        exact ⟨0, rfl, by simp [List.mapM_cons, ha]⟩
    | some b =>
      constructor
      · intro h
        simp [List.mapM_cons, ha, h1 h]
      · intro h
        obtain ⟨k, h3, h4⟩ := h2 h
        exact ⟨k + 1, by simp [List.mapM_cons, ha, h3], by
          rw [List.take_succ_cons, List.mapM_cons, ha, h4]; rfl⟩

/-- The file of a table after it has been written. -/
theorem csvFileLines_spec (env : TextEnv) (cf : IOConf) (t : String) (c : TabClass) (header : Bool) (tab : TabVal) :
    ((csvFileLines env cf t c header tab).2 = false → csvTable env cf t c header tab = some (csvFileLines env cf t c header tab).1) ∧
    ((csvFileLines env cf t c header tab).2 = true → ∃ k, csvTable env cf t c header (firstRows k tab) =
      some (csvFileLines env cf t c header tab).1 ∧ csvTable env cf t c header (firstRows (k + 1) tab) = none) := by
  obtain ⟨h1, h2⟩ := linesUntil_spec (csvLine env cf t c) (rowsOneByOne c tab)
  unfold csvFileLines
  constructor
  · intro h
    rw [csvTable_eq, h1 h]
    rfl
  · intro h
    obtain ⟨k, h3, h4⟩ := h2 h
    refine ⟨k, ?_, ?_⟩
    · rw [csvTable_eq, rowsOneByOne_first, h3]; rfl
    · rw [csvTable_eq, rowsOneByOne_first, h4]; rfl

/-- The loop over the tables, given that the tables have different paths. -/
theorem csvWriteTables_spec (env : TextEnv) (cf : IOConf) (header : Bool) (pathOf : String → String)
    (dat : PyDict String TabVal) : ∀ (schema : List (String × TabClass)) (disk : FileSys CsvFile),
    (schema.map (fun tc => pathOf tc.1)).Nodup → (∀ tc ∈ schema, ∃ tab, PyDict.get? dat tc.1 = some tab) →
    OnlyAt (schema.map (fun tc => pathOf tc.1)) disk (csvWriteTables env cf header pathOf dat schema disk).1 ∧
    ((csvWriteTables env cf header pathOf dat schema disk).2 = false → ∀ tc ∈ schema, ∃ file,
      CsvWhole env cf header dat tc file ∧
      PyDict.get? (csvWriteTables env cf header pathOf dat schema disk).1 (pathOf tc.1) = some (.file file) ∧
      PyDict.get? disk (pathOf tc.1) ≠ some .dir) ∧
    ((csvWriteTables env cf header pathOf dat schema disk).2 = true →
      CsvBrokenOff env cf header dat pathOf schema disk (csvWriteTables env cf header pathOf dat schema disk).1)
  | [], disk, _, _ => by
    refine ⟨fun q _ => rfl, fun _ tc htc => (List.not_mem_nil htc).elim, fun h => ?_⟩
    cases h
  | tc :: rest, disk, hn, hd => by
    rw [List.map_cons, List.nodup_cons] at hn
    obtain ⟨hnot, hn⟩ := hn
    have hother : ∀ d ∈ rest, pathOf d.1 ≠ pathOf tc.1 := fun d hd' e =>
      hnot (by rw [← e]; exact List.mem_map.2 ⟨d, hd', rfl⟩)
    obtain ⟨tab, ht⟩ := hd tc List.mem_cons_self
    obtain ⟨hw1, hw2⟩ := csvFileLines_spec env cf tc.1 tc.2 header tab
    simp only [csvWriteTables, ht]
    by_cases hdir : disk.isDir (pathOf tc.1) = true
    · have hdir' : PyDict.get? disk (pathOf tc.1) = some .dir := by
        unfold FileSys.isDir at hdir
        split at hdir
        · assumption
        · cases hdir
      rw [if_pos hdir]
      refine ⟨fun q _ => rfl, fun h => (by cases h), fun _ => ?_⟩
      exact ⟨[], tc, rest, rfl, fun d hd' => (List.not_mem_nil hd').elim, .inl ⟨hdir', hdir'⟩, fun _ _ => rfl⟩
    · have hndir : PyDict.get? disk (pathOf tc.1) ≠ some .dir := by
        intro h
        apply hdir
        unfold FileSys.isDir
        rw [h]
      rw [if_neg hdir]
      cases hout : (csvFileLines env cf tc.1 tc.2 header tab).2 with
      | true =>
        rw [if_pos rfl]
        obtain ⟨k, h1, h2⟩ := hw2 hout
        refine ⟨?_, fun h => (by cases h), fun _ => ?_⟩
        · intro q hq
          rw [PyDict.get?_set, if_neg]
          rintro rfl
          exact hq List.mem_cons_self
        · refine ⟨[], tc, rest, rfl, fun d hd' => (List.not_mem_nil hd').elim, .inr ⟨_, ⟨tab, k, ht, h1, h2⟩, ?_⟩, ?_⟩
          · rw [PyDict.get?_set, if_pos rfl]
          · intro d hd'
            rw [PyDict.get?_set, if_neg (fun e => hother d hd' e.symm)]
      | false =>
        rw [if_neg (by simp)]
        have hwhole : CsvWhole env cf header dat tc (csvFileLines env cf tc.1 tc.2 header tab).1 := ⟨tab, ht, hw1 hout⟩
        obtain ⟨h1, h2, h3⟩ := csvWriteTables_spec env cf header pathOf dat rest
          (PyDict.set disk (pathOf tc.1) (.file (csvFileLines env cf tc.1 tc.2 header tab).1)) hn
          (fun d hd' => hd d (List.mem_cons_of_mem _ hd'))
        have hset : ∀ q, q ≠ pathOf tc.1 → PyDict.get? (PyDict.set disk (pathOf tc.1)
            (Node.file (csvFileLines env cf tc.1 tc.2 header tab).1)) q = PyDict.get? disk q := by
          intro q hq
          rw [PyDict.get?_set, if_neg (fun e => hq e.symm)]
        have hself : ∀ D : FileSys CsvFile, OnlyAt (rest.map (fun d => pathOf d.1)) (PyDict.set disk (pathOf tc.1)
            (Node.file (csvFileLines env cf tc.1 tc.2 header tab).1)) D →
            PyDict.get? D (pathOf tc.1) = some (.file (csvFileLines env cf tc.1 tc.2 header tab).1) := by
          intro D hD
          rw [hD _ hnot, PyDict.get?_set, if_pos rfl]
        refine ⟨?_, ?_, ?_⟩
        · intro q hq
          rw [List.map_cons, List.mem_cons, not_or] at hq
          rw [h1 q hq.2, hset q hq.1]
        · intro h d hd'
          rcases List.mem_cons.1 hd' with rfl | hd'
          · exact ⟨_, hwhole, hself _ h1, hndir⟩
          · obtain ⟨file, h4, h5, h6⟩ := h2 h d hd'
            exact ⟨file, h4, h5, by rwa [hset _ (hother d hd')] at h6⟩
        · intro h
          obtain ⟨done, x, rest', he, h4, h5, h6⟩ := h3 h
          have hx : x ∈ rest := by rw [he]; exact List.mem_append_right _ List.mem_cons_self
          refine ⟨tc :: done, x, rest', by rw [he]; rfl, ?_, ?_, ?_⟩
          · intro d hd'
            rcases List.mem_cons.1 hd' with rfl | hd'
            · exact ⟨_, hwhole, hself _ h1⟩
            · exact h4 d hd'
          · rwa [hset _ (hother x hx)] at h5
          · intro d hd'
            rw [h6 d hd', hset _ (hother d (by rw [he]; exact List.mem_append_right _ (List.mem_cons_of_mem _ hd')))]

theorem csvPath_inj {dir : String} {a b : List Char} (h : csvPath dir a = csvPath dir b) : a = b := by
  have h := congrArg String.toList h
  simp only [csvPath, String.toList_append, String.toList_ofList] at h
  exact List.append_cancel_left (List.append_cancel_left h)

theorem csvPath_ne (dir : String) (a : List Char) : csvPath dir a ≠ dir := by
  intro h
  have h := congrArg (fun s => s.toList.length) h
  simp [csvPath, String.toList_append] at h

/-- The files of different tables have different names. -/
theorem csvFileName_nodup (cenv : CaseEnv) (schema : List (String × TabClass)) (hn : (schema.map Prod.fst).Nodup) (cs : Bool)
    (dir : String) : (schema.map (fun tc => csvPath dir (csvFileName cenv schema cs tc.1))).Nodup := by
  have ht : (schema.map (fun tc => tc.1.toList)).Nodup := by
    have := nodup_map_of_inj_mem (fun s : String => s.toList) hn (fun a _ b _ h => String.toList_inj.1 h)
    rwa [List.map_map] at this
  have hout : (schema.map (fun tc => tableNameOut cenv (schema.map (fun tc => tc.1.toList)) cs tc.1.toList)).Nodup := by
    unfold tableNameOut
    by_cases h : (cs && prettyDistinct cenv (schema.map (fun tc => tc.1.toList))) = true
    · simp only [if_pos h]
      have := (Bool.and_eq_true_iff.1 h).2
      unfold prettyDistinct at this
      have := of_decide_eq_true this
      rwa [List.map_map] at this
    · simp only [if_neg h]
      exact ht
  have := nodup_map_of_inj_mem (fun s : List Char => csvPath dir (s ++ ".csv".toList)) hout
    (fun a _ b _ h => List.append_cancel_right (csvPath_inj h))
  rwa [List.map_map] at this

theorem isDir_iff {A : Type} (disk : FileSys A) (q : String) : disk.isDir q = true ↔ PyDict.get? disk q = some .dir := by
  unfold FileSys.isDir
  split
  · rename_i h; simp [h]
  · rename_i h
    constructor
    · intro h'; cases h'
    · intro h'; exact absurd h' h

theorem isFile_iff {A : Type} (disk : FileSys A) (q : String) : disk.isFile q = true ↔ ∃ a, PyDict.get? disk q = some (.file a) := by
  unfold FileSys.isFile
  split
  · rename_i a h; simp [h]
  · rename_i h
    constructor
    · intro h'; cases h'
    · rintro ⟨a, h'⟩; exact absurd h' (h a)

theorem has_iff_get {A : Type} (disk : FileSys A) (q : String) : PyDict.has disk q = true ↔ PyDict.get? disk q ≠ none := by
  unfold PyDict.has
  cases PyDict.get? disk q <;> simp

/-- What the checks of `write_directory` let pass. -/
structure CsvPasses (dialectOk allowOverwrite : Bool) (schema : List (String × TabClass)) (dat : PyDict String TabVal)
    (dir : String) (disk : FileSys CsvFile) : Prop where
  dialect : dialectOk = true
  path : ∀ a, PyDict.get? disk dir ≠ some (.file a)
  good : GoodObject schema dat
  free : allowOverwrite = true ∨ ∀ tc ∈ schema, PyDict.get? disk (csvPath dir (tc.1.toList ++ ".csv".toList)) = none

/-- `write_directory` behind its checks. -/
theorem csvWriteDisk_eq (env : TextEnv) (cenv : CaseEnv) (cf : IOConf) (dialectOk mkdirOk allowOverwrite header caseSpace : Bool)
    (schema : List (String × TabClass)) (dat : PyDict String TabVal) (dir : String) (disk : FileSys CsvFile) :
    (CsvPasses dialectOk allowOverwrite schema dat dir disk ∧ (PyDict.get? disk dir = some .dir ∨ mkdirOk = true) →
      csvWriteDisk env cenv cf dialectOk mkdirOk allowOverwrite header caseSpace schema dat dir disk =
        csvWriteTables env cf header (fun t => csvPath dir (csvFileName cenv schema caseSpace t)) dat schema
          (if disk.isDir dir then disk else PyDict.set disk dir .dir)) ∧
    (¬ (CsvPasses dialectOk allowOverwrite schema dat dir disk ∧ (PyDict.get? disk dir = some .dir ∨ mkdirOk = true)) →
      csvWriteDisk env cenv cf dialectOk mkdirOk allowOverwrite header caseSpace schema dat dir disk = (disk, true)) := by
  have hany : schema.any (fun tc => PyDict.has disk (csvPath dir (tc.1.toList ++ ".csv".toList))) = true ↔
      ¬ ∀ tc ∈ schema, PyDict.get? disk (csvPath dir (tc.1.toList ++ ".csv".toList)) = none := by
    rw [List.any_eq_true]
    constructor
    · rintro ⟨tc, htc, h⟩ hall
      exact (has_iff_get _ _).1 h (hall tc htc)
    · intro h
      apply Classical.byContradiction
      intro hno
      apply h
      intro tc htc
      apply Classical.byContradiction
      intro hne
      exact hno ⟨tc, htc, (has_iff_get _ _).2 hne⟩
  constructor
  · rintro ⟨⟨h1, h2, h3, h4⟩, h5⟩
    unfold csvWriteDisk
    rw [if_neg (by simp [h1]), if_neg (by rw [isFile_iff]; rintro ⟨a, h⟩; exact h2 a h),
      if_neg (by simp [(goodDat_iff schema dat).2 h3]), if_neg, if_neg]
    · rw [Bool.and_eq_true, Bool.not_eq_true', Bool.not_eq_true', ← Bool.not_eq_true, isDir_iff]
      rintro ⟨ha, hb⟩
      rcases h5 with h5 | h5
      · exact ha h5
      · rw [hb] at h5; cases h5
    · rw [Bool.and_eq_true, Bool.not_eq_true', hany]
      rintro ⟨ha, hb⟩
      rcases h4 with h4 | h4
      · rw [ha] at h4; cases h4
      · exact hb h4
  · intro hno
    unfold csvWriteDisk
    by_cases h1 : (!dialectOk) = true
    · rw [if_pos h1]
    rw [if_neg h1]
    by_cases h2 : disk.isFile dir = true
    · rw [if_pos h2]
    rw [if_neg h2]
    by_cases h3 : (!goodDat schema dat) = true
    · rw [if_pos h3]
    rw [if_neg h3]
    by_cases h4 : (!allowOverwrite && schema.any (fun tc => PyDict.has disk (csvPath dir (tc.1.toList ++ ".csv".toList)))) = true
    · rw [if_pos h4]
    rw [if_neg h4]
    by_cases h5 : (!disk.isDir dir && !mkdirOk) = true
    · rw [if_pos h5]
    · exfalso
      apply hno
      refine ⟨⟨by simpa using h1, ?_, ?_, ?_⟩, ?_⟩
      · intro a h; exact h2 ((isFile_iff _ _).2 ⟨a, h⟩)
      · exact (goodDat_iff schema dat).1 (by simpa using h3)
      · cases ha : allowOverwrite with
        | true => exact .inl rfl
        | false =>
          right
          apply Classical.byContradiction
          intro hc
          exact h4 (by rw [ha, hany.2 hc]; rfl)
      · cases hm : mkdirOk with
        | true => exact .inr rfl
        | false =>
          left
          rw [← isDir_iff]
          apply Classical.byContradiction
          intro hc
          exact h5 (by rw [hm]; simpa using hc)

/-- **C88, csv, refusals.**  `write_directory` raises, and leaves the disk exactly as it was, if the dialect is unknown, if a file is
at the path of the directory, if the object is not good for the factory, or if overwriting is not allowed and there is something
under the name of a table. -/
theorem csv_write_refused (env : TextEnv) (cenv : CaseEnv) (cf : IOConf) (dialectOk mkdirOk allowOverwrite header caseSpace : Bool)
    (schema : List (String × TabClass)) (dat : PyDict String TabVal) (dir : String) (disk : FileSys CsvFile)
    (h : dialectOk = false ∨ (∃ a, PyDict.get? disk dir = some (.file a)) ∨ ¬ GoodObject schema dat ∨
      (allowOverwrite = false ∧ ∃ tc ∈ schema, PyDict.get? disk (csvPath dir (tc.1.toList ++ ".csv".toList)) ≠ none)) :
    csvWriteDisk env cenv cf dialectOk mkdirOk allowOverwrite header caseSpace schema dat dir disk = (disk, true) := by
  apply (csvWriteDisk_eq env cenv cf dialectOk mkdirOk allowOverwrite header caseSpace schema dat dir disk).2
  rintro ⟨⟨h1, h2, h3, h4⟩, _⟩
  rcases h with h | ⟨a, h⟩ | h | ⟨h, tc, htc, h'⟩
  · rw [h] at h1; cases h1
  · exact h2 a h
  · exact h h3
  · rcases h4 with h4 | h4
    · rw [h] at h4; cases h4
    · exact h' (h4 tc htc)

/-- **C88, csv, every outcome.**  Nothing changes but the directory and the files of the tables in it.  If `write_directory` returns,
the directory is there and each table's file has all its lines, which are those that C46 reads back.  If it raises, the disk is
as it was, or the tables up to some table are written, that table has a directory in the way or a file that breaks off before
the first row that cannot be written, and the files of the tables after it are as before. -/
theorem csv_write_outcome (env : TextEnv) (cenv : CaseEnv) (cf : IOConf) (dialectOk mkdirOk allowOverwrite header caseSpace : Bool)
    (schema : List (String × TabClass)) (hn : (schema.map Prod.fst).Nodup) (dat : PyDict String TabVal) (dir : String)
    (disk disk' : FileSys CsvFile) (raised : Bool)
    (h : csvWriteDisk env cenv cf dialectOk mkdirOk allowOverwrite header caseSpace schema dat dir disk = (disk', raised)) :
    OnlyAt (dir :: schema.map (fun tc => csvPath dir (csvFileName cenv schema caseSpace tc.1))) disk disk' ∧
    (raised = false → PyDict.get? disk' dir = some .dir ∧ ∀ tc ∈ schema, ∃ file, CsvWhole env cf header dat tc file ∧
      PyDict.get? disk' (csvPath dir (csvFileName cenv schema caseSpace tc.1)) = some (.file file)) ∧
    (raised = true → disk' = disk ∨ (PyDict.get? disk' dir = some .dir ∧
      CsvBrokenOff env cf header dat (fun t => csvPath dir (csvFileName cenv schema caseSpace t)) schema disk disk')) := by
  obtain ⟨hp, hr⟩ := csvWriteDisk_eq env cenv cf dialectOk mkdirOk allowOverwrite header caseSpace schema dat dir disk
  by_cases hc : CsvPasses dialectOk allowOverwrite schema dat dir disk ∧ (PyDict.get? disk dir = some .dir ∨ mkdirOk = true)
  · rw [hp hc] at h
    have hdisk0 : ∀ q, q ≠ dir → PyDict.get? (if disk.isDir dir then disk else PyDict.set disk dir .dir) q = PyDict.get? disk q := by
      intro q hq
      split
      · rfl
      · rw [PyDict.get?_set, if_neg (fun e => hq e.symm)]
    have hdir0 : PyDict.get? (if disk.isDir dir then disk else PyDict.set disk dir .dir) dir = some .dir := by
      split
      · rename_i hd; exact (isDir_iff _ _).1 hd
      · rw [PyDict.get?_set, if_pos rfl]
    obtain ⟨h1, h2, h3⟩ := csvWriteTables_spec env cf header (fun t => csvPath dir (csvFileName cenv schema caseSpace t)) dat schema
      (if disk.isDir dir then disk else PyDict.set disk dir .dir) (csvFileName_nodup cenv schema hn caseSpace dir)
      (fun tc htc => by obtain ⟨tab, ht, _⟩ := hc.1.good tc htc; exact ⟨tab, ht⟩)
    rw [h] at h1 h2 h3
    have hdir : PyDict.get? disk' dir = some .dir := by
      rw [h1 dir, hdir0]
      intro hm
      obtain ⟨tc, _, e⟩ := List.mem_map.1 hm
      exact csvPath_ne _ _ e
    refine ⟨?_, ?_, ?_⟩
    · intro q hq
      rw [List.mem_cons, not_or] at hq
      rw [h1 q hq.2, hdisk0 q hq.1]
    · intro hf
      refine ⟨hdir, fun tc htc => ?_⟩
      obtain ⟨file, h4, h5, _⟩ := h2 hf tc htc
      exact ⟨file, h4, h5⟩
    · intro ht
      right
      refine ⟨hdir, ?_⟩
      obtain ⟨done, tc, rest, he, h4, h5, h6⟩ := h3 ht
      refine ⟨done, tc, rest, he, h4, ?_, ?_⟩
      · rwa [hdisk0 _ (csvPath_ne _ _)] at h5
      · intro d hd
        rw [h6 d hd, hdisk0 _ (csvPath_ne _ _)]
  · rw [hr hc] at h
    cases h
    exact ⟨fun _ _ => rfl, fun h => (by cases h), fun _ => .inl rfl⟩

theorem mapM_take {A B : Type} (f : A → Option B) : ∀ (l : List A) (r : List B) (k : Nat), l.mapM f = some r →
    (l.take k).mapM f ≠ none
  | [], _, _, _ => by simp
  | a :: l, r, 0, _ => by simp
  | a :: l, r, k + 1, h => by
    rw [List.mapM_cons] at h
    simp only [Option.bind_eq_bind, Option.bind_eq_some_iff] at h
    obtain ⟨b, hb, bs, hbs, _⟩ := h
    have := mapM_take f l bs k hbs
    rw [List.take_succ_cons, List.mapM_cons, hb]
    cases h' : (l.take k).mapM f with
    | none => exact absurd h' this
    | some x => simp

/-- **C88, csv, success.**  `write_directory` returns if the dialect is known, the object is good, the path is that of a directory
or one that can be made, there is no directory in the way of a file, each row can be written, and overwriting is allowed or there
is nothing under the names of the tables. -/
theorem csv_write_succeeds (env : TextEnv) (cenv : CaseEnv) (cf : IOConf) (mkdirOk allowOverwrite header caseSpace : Bool)
    (schema : List (String × TabClass)) (hn : (schema.map Prod.fst).Nodup) (dat : PyDict String TabVal) (dir : String)
    (disk : FileSys CsvFile) (hg : GoodObject schema dat)
    (hdir : PyDict.get? disk dir = some .dir ∨ (PyDict.get? disk dir = none ∧ mkdirOk = true))
    (hallow : allowOverwrite = true ∨ ∀ tc ∈ schema, PyDict.get? disk (csvPath dir (tc.1.toList ++ ".csv".toList)) = none)
    (hno : ∀ tc ∈ schema, PyDict.get? disk (csvPath dir (csvFileName cenv schema caseSpace tc.1)) ≠ some .dir)
    (hw : ∀ tc ∈ schema, ∃ file, CsvWhole env cf header dat tc file) :
    ∃ disk', csvWriteDisk env cenv cf true mkdirOk allowOverwrite header caseSpace schema dat dir disk = (disk', false) := by
  have hc : CsvPasses true allowOverwrite schema dat dir disk ∧ (PyDict.get? disk dir = some .dir ∨ mkdirOk = true) := by
    refine ⟨⟨rfl, fun a h => ?_, hg, hallow⟩, hdir.imp id And.right⟩
    rcases hdir with h' | ⟨h', _⟩ <;> rw [h'] at h <;> cases h
  have hp := (csvWriteDisk_eq env cenv cf true mkdirOk allowOverwrite header caseSpace schema dat dir disk).1 hc
  cases hr : csvWriteDisk env cenv cf true mkdirOk allowOverwrite header caseSpace schema dat dir disk with
  | mk disk' raised =>
    cases raised with
    | false => exact ⟨disk', rfl⟩
    | true =>
      exfalso
      rw [hp] at hr
      have h3 := (csvWriteTables_spec env cf header (fun t => csvPath dir (csvFileName cenv schema caseSpace t)) dat schema
        (if disk.isDir dir then disk else PyDict.set disk dir .dir) (csvFileName_nodup cenv schema hn caseSpace dir)
        (fun tc htc => by obtain ⟨tab, ht, _⟩ := hg tc htc; exact ⟨tab, ht⟩)).2.2
      rw [hr] at h3
      obtain ⟨done, tc, rest, he, _, h5, _⟩ := h3 rfl
      have htc : tc ∈ schema := by rw [he]; exact List.mem_append_right _ List.mem_cons_self
      rcases h5 with ⟨h5, _⟩ | ⟨file, ⟨tab, k, ht, _, hnone⟩, _⟩
      · apply hno tc htc
        revert h5
        split
        · exact id
        · rw [PyDict.get?_set, if_neg (fun e => csvPath_ne _ _ e.symm)]
          exact id
      · obtain ⟨file', tab', ht', hsome⟩ := hw tc htc
        rw [ht] at ht'
        cases ht'
        rw [csvTable_eq] at hsome hnone
        rw [rowsOneByOne_first, Option.map_eq_none_iff] at hnone
        obtain ⟨lines, hl, _⟩ := Option.map_eq_some_iff.1 hsome
        exact mapM_take _ _ _ _ hl hnone

/-- **C88, csv, no overwriting.**  Without `allow_overwrite` (and without pretty names, see C38) every file and directory there was
is as it was, whatever the outcome. -/
theorem csv_write_keeps (env : TextEnv) (cenv : CaseEnv) (cf : IOConf) (dialectOk mkdirOk header : Bool)
    (schema : List (String × TabClass)) (hn : (schema.map Prod.fst).Nodup) (dat : PyDict String TabVal) (dir : String)
    (disk : FileSys CsvFile) (q : String) (hq : PyDict.get? disk q ≠ none) :
    PyDict.get? (csvWriteDisk env cenv cf dialectOk mkdirOk false header false schema dat dir disk).1 q = PyDict.get? disk q := by
  have hname : ∀ t, csvFileName cenv schema false t = t.toList ++ ".csv".toList := fun t => rfl
  cases hr : csvWriteDisk env cenv cf dialectOk mkdirOk false header false schema dat dir disk with
  | mk disk' raised =>
    obtain ⟨h1, h2, h3⟩ := csv_write_outcome env cenv cf dialectOk mkdirOk false header false schema hn dat dir disk disk' raised hr
    by_cases hin : q ∈ schema.map (fun tc => csvPath dir (csvFileName cenv schema false tc.1))
    · obtain ⟨tc, htc, rfl⟩ := List.mem_map.1 hin
      rw [csv_write_refused env cenv cf dialectOk mkdirOk false header false schema dat dir disk
        (.inr (.inr (.inr ⟨rfl, tc, htc, hq⟩)))] at hr
      cases hr
      rfl
    · by_cases hd : q = dir
      · subst hd
        cases hg : PyDict.get? disk q with
        | none => exact absurd hg hq
        | some n =>
          cases n with
          | file a =>
            rw [csv_write_refused env cenv cf dialectOk mkdirOk false header false schema dat q disk
              (.inr (.inl ⟨a, hg⟩))] at hr
            cases hr
            exact hg
          | dir =>
            cases raised with
            | false => exact (h2 rfl).1
            | true =>
              rcases h3 rfl with rfl | ⟨h, _⟩
              · exact hg
              · exact h
      · exact h1 q (by rw [List.mem_cons, not_or]; exact ⟨hd, hin⟩)

/-! ### Excel -/

/-- **C88, Excel, refusals.** -/
theorem xl_write_refused (env : XlEnv) (cf : IOConf) (allowOverwrite caseSpace : Bool) (schema : List (String × TabClass))
    (dat : PyDict String TabVal) (path : String) (disk : FileSys Book)
    (h : ¬ (schema.map (fun tc => tc.1.toList.take 30)).Nodup ∨
      ¬ (".xls".toList <:+ path.toList ∨ ".xlsx".toList <:+ path.toList) ∨
      ¬ GoodObject schema dat ∨ PyDict.get? disk path = some .dir ∨
      (allowOverwrite = false ∧ PyDict.get? disk path ≠ none)) :
    xlWriteDisk env cf allowOverwrite caseSpace schema dat path disk = (disk, true) := by
  unfold xlWriteDisk
  by_cases h1 : (!sheetNamesDiffer (schema.map (fun tc => tc.1.toList))) = true
  · rw [if_pos h1]
  rw [if_neg h1]
  by_cases h2 : (!(hasSuffix path ".xls" || hasSuffix path ".xlsx")) = true
  · rw [if_pos h2]
  rw [if_neg h2]
  by_cases h3 : (!goodDat schema dat) = true
  · rw [if_pos h3]
  rw [if_neg h3]
  by_cases h4 : disk.isDir path = true
  · rw [if_pos h4]
  rw [if_neg h4]
  by_cases h5 : (!allowOverwrite && PyDict.has disk path) = true
  · rw [if_pos h5]
  exfalso
  rcases h with h | h | h | h | ⟨ha, h⟩
  · apply h
    simp only [Bool.not_eq_true', Bool.not_eq_false, sheetNamesDiffer, decide_eq_true_eq, List.map_map, longestSheet] at h1
    exact h1
  · apply h
    simp only [hasSuffix, Bool.not_eq_true', Bool.not_eq_false, Bool.or_eq_true, List.isSuffixOf_iff_suffix] at h2
    exact h2
  · exact h ((goodDat_iff schema dat).1 (by simpa using h3))
  · exact h4 ((isDir_iff _ _).2 h)
  · apply h5
    rw [ha, (has_iff_get _ _).2 h]
    rfl

/-- **C88, Excel, every outcome.**  Nothing changes but the file at the path.  If `write_file` returns, it has the book of the
object (which C48 reads back).  If writing an `.xls` file raises, the disk is as it was.  If writing an `.xlsx` file raises, the disk is
as it was, or there is nothing at the path any more. -/
theorem xl_write_outcome (env : XlEnv) (cf : IOConf) (allowOverwrite caseSpace : Bool) (schema : List (String × TabClass))
    (dat : PyDict String TabVal) (path : String) (disk disk' : FileSys Book) (hk : (PyDict.keys disk).Nodup) (raised : Bool)
    (h : xlWriteDisk env cf allowOverwrite caseSpace schema dat path disk = (disk', raised)) :
    OnlyAt [path] disk disk' ∧
    (raised = false → ∃ book, PyDict.get? disk' path = some (.file book) ∧
      (".xls".toList <:+ path.toList → xlWrite env cf .xls allowOverwrite caseSpace schema dat none = some book) ∧
      (¬ ".xls".toList <:+ path.toList → xlWrite env cf .xlsx allowOverwrite caseSpace schema dat none = some book)) ∧
    (raised = true → disk' = disk ∨ (¬ ".xls".toList <:+ path.toList ∧ PyDict.get? disk' path = none)) := by
  have same : (disk, true) = (disk', raised) → OnlyAt [path] disk disk' ∧
      (raised = false → ∃ book, PyDict.get? disk' path = some (.file book) ∧
        (".xls".toList <:+ path.toList → xlWrite env cf .xls allowOverwrite caseSpace schema dat none = some book) ∧
        (¬ ".xls".toList <:+ path.toList → xlWrite env cf .xlsx allowOverwrite caseSpace schema dat none = some book)) ∧
      (raised = true → disk' = disk ∨ (¬ ".xls".toList <:+ path.toList ∧ PyDict.get? disk' path = none)) := by
    intro e
    cases e
    exact ⟨fun _ _ => rfl, fun h => (by cases h), fun _ => .inl rfl⟩
  have hsuf : hasSuffix path ".xls" = true ↔ ".xls".toList <:+ path.toList := by
    simp [hasSuffix, List.isSuffixOf_iff_suffix]
  have herase : ∀ q, q ≠ path → PyDict.get? (PyDict.erase disk path) q = PyDict.get? disk q := by
    intro q hq
    rw [PyDict.get?_erase _ _ _ hk, if_neg (fun e => hq e.symm)]
  have hput : ∀ book : Book, OnlyAt [path] disk (PyDict.set (PyDict.erase disk path) path (.file book)) := by
    intro book q hq
    have hq' : q ≠ path := fun e => hq (List.mem_singleton.2 e)
    rw [PyDict.get?_set, if_neg (fun e => hq' e.symm), herase q hq']
  unfold xlWriteDisk at h
  split at h
  · exact same h
  split at h
  · exact same h
  split at h
  · exact same h
  split at h
  · exact same h
  split at h
  · exact same h
  split at h
  · rename_i hx
    rw [hsuf] at hx
    split at h
    · exact same h
    · rename_i book hb
      cases h
      refine ⟨hput book, fun _ => ⟨book, by rw [PyDict.get?_set, if_pos rfl], fun _ => hb, fun hno => absurd hx hno⟩,
        fun h => (by cases h)⟩
  · rename_i hx
    rw [hsuf] at hx
    split at h
    · cases h
      refine ⟨?_, fun h => (by cases h), fun _ => .inr ⟨hx, ?_⟩⟩
      · intro q hq
        exact herase q (fun e => hq (List.mem_singleton.2 e))
      · rw [PyDict.get?_erase _ _ _ hk, if_pos rfl]
    · rename_i book hb
      cases h
      refine ⟨hput book, fun _ => ⟨book, by rw [PyDict.get?_set, if_pos rfl], fun hy => absurd hy hx, fun _ => hb⟩,
        fun h => (by cases h)⟩

/-- **C88, Excel, no overwriting.**  Without `allow_overwrite` everything there was is as it was, whatever the outcome. -/
theorem xl_write_keeps (env : XlEnv) (cf : IOConf) (caseSpace : Bool) (schema : List (String × TabClass))
    (dat : PyDict String TabVal) (path : String) (disk : FileSys Book) (hk : (PyDict.keys disk).Nodup) (q : String)
    (hq : PyDict.get? disk q ≠ none) :
    PyDict.get? (xlWriteDisk env cf false caseSpace schema dat path disk).1 q = PyDict.get? disk q := by
  by_cases e : q = path
  · subst e
    rw [xl_write_refused env cf false caseSpace schema dat q disk (.inr (.inr (.inr (.inr ⟨rfl, hq⟩))))]
  · exact (xl_write_outcome env cf false caseSpace schema dat path disk _ hk _ rfl).1 q
      (fun h => e (List.mem_singleton.1 h))

/-! ### SQLite -/

/-- **C88, .sql files, every outcome.**  Nothing changes but the file at the path.  Without `allow_overwrite` everything there was is
as it was.  If `write_sql_file` returns, the file has the statements of the schema, if asked for, and of all rows.  If it raises, the
disk is as it was, or the file is empty: it is emptied before the object is looked at. -/
theorem sql_text_write_outcome (env : TextEnv) (cf : IOConf) (fmt : SqlInsert → String) (schemaSql : List String)
    (allowOverwrite : Bool) (schema : List (String × TabClass)) (dat : PyDict String TabVal) (path : String)
    (disk disk' : FileSys (List String)) (raised : Bool)
    (h : sqlTextWriteDisk env cf fmt schemaSql allowOverwrite schema dat path disk = (disk', raised)) :
    OnlyAt [path] disk disk' ∧
    ((allowOverwrite = false ∧ PyDict.get? disk path ≠ none) ∨ PyDict.get? disk path = some .dir →
      disk' = disk ∧ raised = true) ∧
    (raised = false → ∃ stmts, sqlData env cf dat schema = some stmts ∧
      PyDict.get? disk' path = some (.file (schemaSql ++ stmts.map fmt))) ∧
    (raised = true → disk' = disk ∨ (sqlData env cf dat schema = none ∧ PyDict.get? disk' path = some (.file []))) := by
  have hset : ∀ x, OnlyAt [path] disk (PyDict.set disk path x) := by
    intro x q hq
    rw [PyDict.get?_set, if_neg (fun e => hq (List.mem_singleton.2 e.symm))]
  unfold sqlTextWriteDisk at h
  split at h
  · cases h
    exact ⟨fun _ _ => rfl, fun _ => ⟨rfl, rfl⟩, fun h => (by cases h), fun _ => .inl rfl⟩
  rename_i h1
  split at h
  · cases h
    exact ⟨fun _ _ => rfl, fun _ => ⟨rfl, rfl⟩, fun h => (by cases h), fun _ => .inl rfl⟩
  rename_i h2
  have hno : ¬ ((allowOverwrite = false ∧ PyDict.get? disk path ≠ none) ∨ PyDict.get? disk path = some .dir) := by
    rintro (⟨ha, hb⟩ | hb)
    · apply h1
      rw [ha, (has_iff_get _ _).2 hb]
      rfl
    · exact h2 ((isDir_iff _ _).2 hb)
  split at h
  · rename_i hs
    cases h
    exact ⟨hset _, fun hc => absurd hc hno, fun h => (by cases h), fun _ => .inr ⟨hs, by rw [PyDict.get?_set, if_pos rfl]⟩⟩
  · rename_i stmts hs
    cases h
    exact ⟨hset _, fun hc => absurd hc hno, fun _ => ⟨stmts, hs, by rw [PyDict.get?_set, if_pos rfl]⟩, fun h => (by cases h)⟩

theorem sqlFileWrite_raised (env : TextEnv) (senv : SqlEnv) (cenv : CaseEnv) (cf : IOConf) (allowOverwrite : Bool)
    (schema : List (String × TabClass)) (dat : PyDict String TabVal) (file : SqlFile)
    (h : (sqlFileWrite env senv cenv cf allowOverwrite schema dat file).2 = true) :
    (sqlFileWrite env senv cenv cf allowOverwrite schema dat file).1 = file := by
  revert h
  unfold sqlFileWrite
  split
  · intro _; rfl
  split
  · intro _; rfl
  split
  · intro _; rfl
  split
  · intro _; rfl
  · intro h; cases h

theorem sqlCreateTables_sub (cenv : CaseEnv) : ∀ (file : SqlFile), ∀ p ∈ (sqlCreateTables cenv file).1, p ∈ file
  | [], p, h => by cases h
  | x :: rest, p, h => by
    unfold sqlCreateTables at h
    split at h
    · rcases List.mem_cons.1 h with rfl | h
      · exact List.mem_cons_self
      · exact List.mem_cons_of_mem _ (sqlCreateTables_sub cenv rest p h)
    · cases h

/-- **C88, SQLite, every outcome.**  Nothing changes but the file at the path.  If the object is not good for the factory, or a
directory is at the path, `write_db_data` raises and the disk is as it was.  If there is a database at the path and the call raises,
everything is as it was.  If there is none and the call raises, there may be a new one, without any row.  If the call returns, the
database is the one that C77 describes. -/
theorem sqlite_write_outcome (env : TextEnv) (senv : SqlEnv) (cenv : CaseEnv) (cf : IOConf) (dv : Defaults) (allowOverwrite : Bool)
    (schema : List (String × TabClass)) (dat : PyDict String TabVal) (path : String) (disk disk' : FileSys SqlFile)
    (raised : Bool) (h : sqliteWriteDisk env senv cenv cf dv allowOverwrite schema dat path disk = (disk', raised)) :
    OnlyAt [path] disk disk' ∧
    (¬ GoodObject schema dat ∨ PyDict.get? disk path = some .dir → disk' = disk ∧ raised = true) ∧
    (raised = true → (∀ q, PyDict.get? disk q ≠ none → PyDict.get? disk' q = PyDict.get? disk q) ∧
      (PyDict.get? disk path = none → PyDict.get? disk' path = none ∨
        ∃ db, PyDict.get? disk' path = some (.file db) ∧ ∀ p ∈ db, p.2.rows = [])) ∧
    (raised = false → ∃ old db, ((PyDict.get? disk path = none ∧ old = sqlSchemaFile cf dv schema) ∨
        PyDict.get? disk path = some (.file old)) ∧
      sqlFileWrite env senv cenv cf allowOverwrite schema dat old = (db, false) ∧ PyDict.get? disk' path = some (.file db)) := by
  have hset : ∀ x, OnlyAt [path] disk (PyDict.set disk path x) := by
    intro x q hq
    rw [PyDict.get?_set, if_neg (fun e => hq (List.mem_singleton.2 e.symm))]
  have hempty : ∀ p ∈ sqlSchemaFile cf dv schema, p.2.rows = [] := by
    intro p hp
    obtain ⟨tc, _, rfl⟩ := List.mem_map.1 hp
    rfl
  have hfull : ∀ file : SqlFile, (sqlCreateTables cenv file).2 = false → (sqlCreateTables cenv file).1 = file := by
    intro file
    induction file with
    | nil => intro _; rfl
    | cons p rest ih =>
      unfold sqlCreateTables
      split
      · intro h'; rw [ih h']
      · intro h'; cases h'
  unfold sqliteWriteDisk at h
  split at h
  · cases h
    refine ⟨fun _ _ => rfl, fun _ => ⟨rfl, rfl⟩, fun _ => ⟨fun _ _ => rfl, fun hn => .inl hn⟩, fun h => (by cases h)⟩
  rename_i hg
  have hgood : GoodObject schema dat := (goodDat_iff schema dat).1 (by simpa using hg)
  split at h
  · cases h
    refine ⟨fun _ _ => rfl, fun _ => ⟨rfl, rfl⟩, fun _ => ⟨fun _ _ => rfl, fun hn => .inl hn⟩, fun h => (by cases h)⟩
  · rename_i db hdb
    cases h
    have hno : ¬ (¬ GoodObject schema dat ∨ PyDict.get? disk path = some .dir) := by
      rintro (h | h)
      · exact h hgood
      · rw [hdb] at h; cases h
    refine ⟨hset _, fun hc => absurd hc hno, fun hr => ⟨fun q hq => ?_, fun hn => ?_⟩, fun hr => ?_⟩
    · rw [PyDict.get?_set, sqlFileWrite_raised _ _ _ _ _ _ _ _ hr]
      split
      · rename_i e; rw [← e, hdb]
      · rfl
    · rw [hdb] at hn; cases hn
    · refine ⟨db, _, .inr hdb, ?_, by rw [PyDict.get?_set, if_pos rfl]⟩
      rw [← hr]
  · rename_i hdb
    have hno : ¬ (¬ GoodObject schema dat ∨ PyDict.get? disk path = some .dir) := by
      rintro (h | h)
      · exact h hgood
      · rw [hdb] at h; cases h
    have hkeep : ∀ x q, PyDict.get? disk q ≠ none → PyDict.get? (PyDict.set disk path x) q = PyDict.get? disk q := by
      intro x q hq
      rw [PyDict.get?_set, if_neg]
      rintro rfl
      exact hq hdb
    dsimp only at h
    split at h
    · cases h
      refine ⟨hset _, fun hc => absurd hc hno, fun _ => ⟨hkeep _, fun _ => .inr ⟨_, by rw [PyDict.get?_set, if_pos rfl], ?_⟩⟩,
        fun h => (by cases h)⟩
      intro p hp
      exact hempty p (sqlCreateTables_sub cenv _ p hp)
    · rename_i hc
      cases h
      have hc' : (sqlCreateTables cenv (sqlSchemaFile cf dv schema)).2 = false := by simpa using hc
      rw [hfull _ hc']
      refine ⟨hset _, fun hc => absurd hc hno, fun hr => ⟨hkeep _, fun _ => .inr ⟨_, by rw [PyDict.get?_set, if_pos rfl], ?_⟩⟩,
        fun hr => ?_⟩
      · intro p hp
        rw [sqlFileWrite_raised _ _ _ _ _ _ _ _ hr] at hp
        exact hempty p hp
      · refine ⟨_, _, .inl ⟨hdb, rfl⟩, ?_, by rw [PyDict.get?_set, if_pos rfl]⟩
        rw [← hr]

/-! ### What is lost, and non-vacuity -/

/-- **C88 is not "a write that raises changes nothing".**  An `.xlsx` file that is to be overwritten with a table that has NaN in it
is gone when the call raises. -/
theorem xlsx_failed_write_loses_file :
    GoodObject [("t", ⟨["a"], ["b"], []⟩)] [("t", .keyed [(.one (.str "x"), [("b", .nan)])])] ∧
    xlWriteDisk demoXl plainIO true false [("t", ⟨["a"], ["b"], []⟩)] [("t", .keyed [(.one (.str "x"), [("b", .nan)])])] "f.xlsx"
      [("f.xlsx", .file [("t".toList, [[.str "a", .str "b"], [.str "x", .num (.fin 5)]])])] = ([], true) :=
  ⟨(goodDat_iff _ _).1 (by decide +kernel), by rfl⟩

/-- An `.xls` file that is overwritten. -/
example : ∃ disk', xlWriteDisk demoXl plainIO true false [("t", ⟨["a"], ["b"], []⟩)]
      [("t", .keyed [(.one (.str "x"), [("b", .num (.fin 3))])])] "f.xls"
      [("f.xls", .file [("t".toList, [[.str "a", .str "b"], [.str "x", .num (.fin 5)]])])] = (disk', false) ∧
    PyDict.get? disk' "f.xls" = some (.file [("t".toList, [[.str "a", .str "b"], [.str "x", .num (.fin 3)]])]) :=
  ⟨_, rfl, rfl⟩

/-- Without `allow_overwrite`, or with a name that does not end in `.xls` or `.xlsx`, the file stays. -/
example (disk : FileSys Book) (dat : PyDict String TabVal) (schema : List (String × TabClass)) :
    xlWriteDisk demoXl plainIO true false schema dat "f.xlsm" disk = (disk, true) :=
  xl_write_refused demoXl plainIO true false schema dat "f.xlsm" disk (.inr (.inl (by decide +kernel)))

/-- A configuration in which a number in field `a` of `t` cannot be written: `None` would stand for both infinities. -/
def tornIO : IOConf := ⟨[("t", [("a", ⟨true, true, true, .ninf, .pinf, false, .any, false, false⟩)])], .none, false, []⟩

/-- A csv directory after a write that raised: the file of `s` is new, that of `t` breaks off after its header, that of `u` is
old. -/
theorem csv_torn_directory :
    GoodObject [("s", ⟨[], ["b"], []⟩), ("t", ⟨[], ["a"], []⟩), ("u", ⟨[], ["c"], []⟩)]
      [("s", .plain [[("b", .str "new")]]), ("t", .plain [[("a", .str "new")]]), ("u", .plain [[("c", .str "new")]])] ∧
    csvWriteDisk unaryText asciiEnv tornIO true true true true false
      [("s", ⟨[], ["b"], []⟩), ("t", ⟨[], ["a"], []⟩), ("u", ⟨[], ["c"], []⟩)]
      [("s", .plain [[("b", .str "new")]]), ("t", .plain [[("a", .str "new")]]), ("u", .plain [[("c", .str "new")]])] "d"
      [("d", .dir), ("d/s.csv", .file [["b"], ["old"]]), ("d/t.csv", .file [["a"], ["old"]]), ("d/u.csv", .file [["c"], ["old"]])] =
      ([("d", .dir), ("d/s.csv", .file [["b"], ["new"]]), ("d/t.csv", .file [["a"]]), ("d/u.csv", .file [["c"], ["old"]])], true) :=
  ⟨(goodDat_iff _ _).1 (by decide +kernel), by rfl⟩

/-- A write to a directory that is not there. -/
example : csvWriteDisk unaryText asciiEnv plainIO true true false true true
      [("food_list", ⟨["name"], ["kind"], []⟩)] [("food_list", .keyed [(.one (.str "milk"), [("kind", .str "a")])])] "d" [] =
      ([("d", .dir), ("d/Food List.csv", .file [["name", "kind"], ["milk", "a"]])], false) := by
  rfl

/-- ... of which `csv_write_succeeds` speaks. -/
example : ∃ disk', csvWriteDisk unaryText asciiEnv plainIO true true false true true
      [("food_list", ⟨["name"], ["kind"], []⟩)] [("food_list", .keyed [(.one (.str "milk"), [("kind", .str "a")])])] "d" [] =
      (disk', false) :=
  csv_write_succeeds unaryText asciiEnv plainIO true false true true _ (by decide) _ "d" [] ((goodDat_iff _ _).1 (by decide +kernel))
    (.inr ⟨rfl, rfl⟩) (.inr (fun _ _ => rfl)) (fun _ _ => by simp [PyDict.get?])
    (by
      intro tc htc
      rw [List.mem_singleton.1 htc]
      exact ⟨[["name", "kind"], ["milk", "a"]], _, rfl, rfl⟩)

/-- **`write_sql_file` empties a file before it looks at the object.**  An object that lacks a table is not refused, as the other
writers do, and the old file is empty when the call raises. -/
theorem sql_text_failed_write_empties (fmt : SqlInsert → String) :
    ¬ GoodObject [("t", ⟨[], ["a"], []⟩)] [] ∧
    sqlTextWriteDisk unaryText plainIO fmt [] true [("t", ⟨[], ["a"], []⟩)] [] "f.sql" [("f.sql", .file ["INSERT ..."])] =
      ([("f.sql", .file [])], true) :=
  ⟨fun h => by rw [← goodDat_iff] at h; revert h; decide +kernel, rfl⟩

/-- **A refused write can leave a new database without rows.**  The tables are created before the rows are made. -/
theorem sqlite_failed_write_leaves_file :
    sqliteWriteDisk unaryText noNums asciiEnv tornIO (fun _ _ => some (.num (.fin 0))) true [("t", ⟨["k"], ["a"], []⟩)]
      [("t", .keyed [(.one (.str "x"), [("a", .str "x")])])] "f.db" [] =
      ([("f.db", .file (sqlSchemaFile tornIO (fun _ _ => some (.num (.fin 0))) [("t", ⟨["k"], ["a"], []⟩)]))], true) := by
  rfl

/-- A database that is not there is made, one that is there is written to. -/
example : ∃ db, sqliteWriteDisk unaryText noNums asciiEnv ⟨[], .num 1000, false, []⟩ (fun _ _ => some (.num (.fin 0))) true
    sqlExampleSchema sqlExampleDat "f.db" [("f.db", .file foreignFile)] = ([("f.db", .file db)], false) ∧
    db.map (fun p => p.2.rows.length) = [1, 2, 2] :=
  ⟨_, rfl, rfl⟩

end Ticdat

import Verif.Spec.PanDisk
import Verif.Props.WriteDisk
import Verif.Props.PanFiles
import Verif.Lemmas.Dict2
/-!
# What the writers of a `PanDatFactory` leave on the disk
-/
set_option linter.unusedSectionVars false
set_option linter.unusedSimpArgs false
namespace Ticdat
open Spec

theorem panHas_iff (v : Frame) (f : String) : v.has f = true ↔ Label.name f ∈ v.cols := by
  simp [Frame.has]

theorem mapM_iff_pairwise2 {A B : Type} (f : A → Option B) : ∀ (l : List A) (r : List B),
    l.mapM f = some r ↔ Pairwise2 (fun a b => f a = some b) l r
  | [], r => by
    rw [List.mapM_nil]
    constructor
    · intro h; cases h; exact .nil
    · intro h; cases h; rfl
  | a :: l, r => by
    rw [List.mapM_cons]
    constructor
    · intro h
      cases ha : f a with
      | none => rw [ha] at h; cases h
      | some b =>
        cases hl : l.mapM f with
        | none => rw [ha, hl] at h; cases h
        | some bs =>
          rw [ha, hl] at h
          cases h
          exact .cons ha ((mapM_iff_pairwise2 f l bs).1 hl)
    · intro h
      cases h with
      | cons h1 h2 =>
        rw [h1, (mapM_iff_pairwise2 f l _).2 h2]
        rfl

theorem pairwise2_weaken {A B : Type} {P Q : A → B → Prop} : ∀ {l : List A} {r : List B},
    (∀ a ∈ l, ∀ b, P a b → Q a b) → Pairwise2 P l r → Pairwise2 Q l r
  | _, _, _, .nil => .nil
  | _, _, h, .cons h1 h2 => .cons (h _ List.mem_cons_self _ h1) (pairwise2_weaken (fun a ha => h a (List.mem_cons_of_mem _ ha)) h2)

theorem pairwise2_forall {A B : Type} {P : A → B → Prop} : ∀ {l : List A} {r : List B}, Pairwise2 P l r →
    ∀ a ∈ l, ∃ b, P a b
  | _, _, .nil, a, ha => (List.not_mem_nil ha).elim
  | _, _, .cons h1 h2, a, ha => by
    rcases List.mem_cons.1 ha with e | h
    · subst e; exact ⟨_, h1⟩
    · exact pairwise2_forall h2 a h

/-- The checks and adjustments accept exactly the objects that can be handed over. -/
theorem panHanded_iff (env : TextEnv) (cf : IOConf) (schema : List (String × TabClass)) (dat : PyDict String Frame)
    (ws : List (String × Frame)) : panHanded env cf schema dat = some ws ↔ HandedOver env cf schema dat ws := by
  unfold panHanded HandedOver
  have hgood : ∀ tc : String × TabClass, ((PyDict.get? dat tc.1).map (goodPanTable tc.2)).getD false = true ↔
      ∃ v, PyDict.get? dat tc.1 = some v ∧ ∀ f ∈ tc.2.fields, Label.name f ∈ v.cols := by
    intro tc
    cases hg : PyDict.get? dat tc.1 with
    | none => simp
    | some v =>
      simp only [Option.map_some, Option.getD_some, goodPanTable, List.all_eq_true, panHas_iff, Option.some.injEq,
        exists_eq_left', TabClass.fields]
  have hone : ∀ (tc : String × TabClass) (w : String × Frame),
      ((PyDict.get? dat tc.1).bind (fun v => (panPreAny env cf tc.1 tc.2 v).map (fun w => (tc.1, w)))) = some w ↔
        w.1 = tc.1 ∧ ∃ v, PyDict.get? dat tc.1 = some v ∧ panPreAny env cf tc.1 tc.2 v = some w.2 := by
    intro tc w
    cases hg : PyDict.get? dat tc.1 with
    | none => simp
    | some v =>
      cases hp : panPreAny env cf tc.1 tc.2 v with
      | none => simp [hp]
      | some u =>
        obtain ⟨a, b⟩ := w
        simp only [Option.bind_some, hp, Option.map_some, Option.some.injEq, Prod.mk.injEq]
        constructor
        · rintro ⟨h1, h2⟩
          exact ⟨h1.symm, v, rfl, h2 ▸ hp⟩
        · rintro ⟨h1, v', h2, h3⟩
          subst h2
          rw [hp] at h3
          cases h3
          exact ⟨h1.symm, rfl⟩
  split
  · rename_i hall
    rw [List.all_eq_true] at hall
    rw [mapM_iff_pairwise2]
    constructor
    · intro h
      refine pairwise2_weaken ?_ h
      intro tc htc w hw
      obtain ⟨h1, v, h2, h3⟩ := (hone tc w).1 hw
      obtain ⟨v', h4, h5⟩ := (hgood tc).1 (hall tc htc)
      rw [h2] at h4
      cases h4
      exact ⟨h1, v, h2, h5, h3⟩
    · intro h
      refine pairwise2_weaken ?_ h
      rintro tc _ w ⟨h1, v, h2, _, h3⟩
      exact (hone tc w).2 ⟨h1, v, h2, h3⟩
  · rename_i hall
    constructor
    · intro h; cases h
    · intro h
      exfalso
      apply hall
      rw [List.all_eq_true]
      intro tc htc
      obtain ⟨w, _, v, h2, h3, _⟩ := pairwise2_forall h tc htc
      exact (hgood tc).2 ⟨v, h2, h3⟩

theorem panHanded_none (env : TextEnv) (cf : IOConf) (schema : List (String × TabClass)) (dat : PyDict String Frame) :
    panHanded env cf schema dat = none ↔ ¬ ∃ ws, HandedOver env cf schema dat ws := by
  cases h : panHanded env cf schema dat with
  | none =>
    simp only [true_iff]
    rintro ⟨ws, hw⟩
    rw [(panHanded_iff env cf schema dat ws).2 hw] at h
    cases h
  | some ws =>
    constructor
    · intro h'; cases h'
    · intro h'
      exact absurd ⟨ws, (panHanded_iff env cf schema dat ws).1 h⟩ h'

theorem csvPanTables_spec {A : Type} (toCsv : Frame → Saved A) (pathOf : String → String) :
    ∀ (ws : List (String × Frame)) (disk : FileSys A), (ws.map (fun p => pathOf p.1)).Nodup →
    OnlyAt (ws.map (fun p => pathOf p.1)) disk (csvPanTables toCsv pathOf ws disk).1 ∧
    ((csvPanTables toCsv pathOf ws disk).2 = false ↔ ∀ p ∈ ws, PyDict.get? disk (pathOf p.1) ≠ some .dir ∧
      ∃ a, toCsv p.2 = .whole a) ∧
    ((csvPanTables toCsv pathOf ws disk).2 = false → ∀ p ∈ ws, ∃ a, toCsv p.2 = .whole a ∧
      PyDict.get? (csvPanTables toCsv pathOf ws disk).1 (pathOf p.1) = some (.file a)) ∧
    ((csvPanTables toCsv pathOf ws disk).2 = true →
      PanBrokenOff toCsv pathOf ws disk (csvPanTables toCsv pathOf ws disk).1)
  | [], disk, _ => by
    refine ⟨fun q _ => rfl, ?_, fun _ p hp => (List.not_mem_nil hp).elim, fun h => by cases h⟩
    simp [csvPanTables]
  | p :: rest, disk, hn => by
    rw [List.map_cons, List.nodup_cons] at hn
    obtain ⟨hnot, hn⟩ := hn
    have hother : ∀ d ∈ rest, pathOf d.1 ≠ pathOf p.1 := fun d hd' e =>
      hnot (by rw [← e]; exact List.mem_map.2 ⟨d, hd', rfl⟩)
    simp only [csvPanTables]
    by_cases hdir : disk.isDir (pathOf p.1) = true
    · have hr : savedAt (pathOf p.1) disk (toCsv p.2) = (disk, true) := by
        unfold savedAt
        split <;> simp [hdir]
      have hdir' := (isDir_iff disk (pathOf p.1)).1 hdir
      rw [hr]
      simp only [if_true]
      refine ⟨fun q _ => rfl, ?_, fun h => (by cases h), fun _ => ⟨[], p, rest, rfl, by simp, .inl ⟨hdir', hdir'⟩, fun _ _ => rfl⟩⟩
      constructor
      · intro h; cases h
      · intro h; exact absurd hdir' (h p List.mem_cons_self).1
    · have hndir : PyDict.get? disk (pathOf p.1) ≠ some .dir := fun h => hdir ((isDir_iff disk (pathOf p.1)).2 h)
      cases hs : toCsv p.2 with
      | refused =>
        simp only [savedAt, if_true]
        refine ⟨fun q _ => rfl, ?_, fun h => (by cases h), fun _ => ⟨[], p, rest, rfl, by simp, .inr (.inl ⟨hs, rfl⟩), fun _ _ => rfl⟩⟩
        constructor
        · intro h; cases h
        · intro h
          obtain ⟨_, a, ha⟩ := h p List.mem_cons_self
          rw [hs] at ha; cases ha
      | torn a =>
        simp only [savedAt, hdir, if_false, if_true, Bool.false_eq_true]
        refine ⟨?_, ?_, fun h => (by cases h), fun _ => ⟨[], p, rest, rfl, by simp, .inr (.inr ⟨a, hs, ?_⟩), ?_⟩⟩
        · intro q hq
          rw [PyDict.get?_set, if_neg]
          rintro rfl
          exact hq List.mem_cons_self
        · constructor
          · intro h; cases h
          · intro h
            obtain ⟨_, b, hb⟩ := h p List.mem_cons_self
            rw [hs] at hb; cases hb
        · rw [PyDict.get?_set, if_pos rfl]
        · intro d hd
          rw [PyDict.get?_set, if_neg (Ne.symm (hother d hd))]
      | whole a =>
        simp only [savedAt, hdir, if_false, Bool.false_eq_true]
        obtain ⟨h1, h2, h3, h4⟩ := csvPanTables_spec toCsv pathOf rest (PyDict.set disk (pathOf p.1) (.file a)) hn
        have hsame : ∀ d ∈ rest, PyDict.get? (PyDict.set disk (pathOf p.1) (.file a)) (pathOf d.1) =
            PyDict.get? disk (pathOf d.1) := by
          intro d hd
          rw [PyDict.get?_set, if_neg (Ne.symm (hother d hd))]
        have hp : PyDict.get? (csvPanTables toCsv pathOf rest (PyDict.set disk (pathOf p.1) (.file a))).1 (pathOf p.1) =
            some (.file a) := by
          rw [h1 _ hnot, PyDict.get?_set, if_pos rfl]
        refine ⟨?_, ?_, ?_, ?_⟩
        · intro q hq
          rw [List.map_cons, List.mem_cons, not_or] at hq
          rw [h1 q hq.2, PyDict.get?_set, if_neg (Ne.symm hq.1)]
        · rw [h2, List.forall_mem_cons]
          constructor
          · intro h
            exact ⟨⟨hndir, a, hs⟩, fun d hd => by rw [← hsame d hd]; exact h d hd⟩
          · rintro ⟨_, h⟩ d hd
            rw [hsame d hd]
            exact h d hd
        · intro h
          rw [List.forall_mem_cons]
          exact ⟨⟨a, hs, hp⟩, h3 h⟩
        · intro h
          obtain ⟨done, q, rest', e, g1, g2, g3⟩ := h4 h
          have hq : q ∈ rest := by rw [e]; simp
          refine ⟨p :: done, q, rest', by rw [e]; rfl, ?_, ?_, ?_⟩
          · rw [List.forall_mem_cons]
            exact ⟨⟨a, hs, hp⟩, g1⟩
          · rw [hsame q hq] at g2
            exact g2
          · intro d hd
            rw [g3 d hd, hsame d (by rw [e]; simp [hd])]

/-- The path of the file of a table. -/
theorem panPath_nodup (cenv : CaseEnv) (schema : List (String × TabClass)) (hn : (schema.map Prod.fst).Nodup) (cs : Bool)
    (dir : String) {ws : List (String × Frame)} (hw : ws.map Prod.fst = schema.map Prod.fst) :
    (ws.map (fun p => csvPath dir (panNameOut cenv schema cs p.1 ++ ".csv".toList))).Nodup := by
  have := csvFileName_nodup cenv schema hn cs dir
  have e : ws.map (fun p => csvPath dir (panNameOut cenv schema cs p.1 ++ ".csv".toList)) =
      schema.map (fun tc => csvPath dir (csvFileName cenv schema cs tc.1)) := by
    have := congrArg (List.map (fun t => csvPath dir (panNameOut cenv schema cs t ++ ".csv".toList))) hw
    rw [List.map_map, List.map_map] at this
    exact this
  rw [e]
  exact this

/-- **C93** (csv). -/
theorem pan_csv_disk {A : Type} (env : TextEnv) (cenv : CaseEnv) (cf : IOConf) (toCsv : Frame → Saved A) (mkdirOk cs : Bool)
    {schema : List (String × TabClass)} (hn : (schema.map Prod.fst).Nodup) (dat : PyDict String Frame) (dir : String)
    (disk : FileSys A) {pathOf : String → String}
    (hpath : ∀ t, pathOf t = csvPath dir (panNameOut cenv schema cs t ++ ".csv".toList))
    {disk' : FileSys A} {raised : Bool} (hr : csvPanDisk env cenv cf toCsv mkdirOk cs schema dat dir disk = (disk', raised)) :
    (((∃ a, PyDict.get? disk dir = some (.file a)) ∨ (¬ ∃ ws, HandedOver env cf schema dat ws) ∨
        (PyDict.get? disk dir = none ∧ mkdirOk = false)) → raised = true ∧ disk' = disk) ∧
    (∀ ws, (∀ a, PyDict.get? disk dir ≠ some (.file a)) → HandedOver env cf schema dat ws →
        (PyDict.get? disk dir = some .dir ∨ mkdirOk = true) →
      PyDict.get? disk' dir = some .dir ∧
      OnlyAt (dir :: schema.map (fun tc => pathOf tc.1)) disk disk' ∧
      (raised = false ↔ ∀ p ∈ ws, PyDict.get? disk (pathOf p.1) ≠ some .dir ∧ ∃ a, toCsv p.2 = .whole a) ∧
      (raised = false → ∀ p ∈ ws, ∃ a, toCsv p.2 = .whole a ∧ PyDict.get? disk' (pathOf p.1) = some (.file a)) ∧
      (raised = true → PanBrokenOff toCsv pathOf ws disk disk')) := by
  have hpe : pathOf = fun t => csvPath dir (panNameOut cenv schema cs t ++ ".csv".toList) := funext hpath
  constructor
  · rintro (h | h | ⟨h1, h2⟩)
    · unfold csvPanDisk at hr
      rw [if_pos ((isFile_iff disk dir).2 h)] at hr
      cases hr; exact ⟨rfl, rfl⟩
    · unfold csvPanDisk at hr
      rw [(panHanded_none env cf schema dat).2 h] at hr
      simp only [ite_self] at hr
      cases hr; exact ⟨rfl, rfl⟩
    · unfold csvPanDisk at hr
      have hd : disk.isDir dir = false := by simp [FileSys.isDir, h1]
      simp only [hd, h2, Bool.not_false, Bool.and_self, if_true] at hr
      split at hr
      · cases hr; exact ⟨rfl, rfl⟩
      · split at hr <;> (cases hr; exact ⟨rfl, rfl⟩)
  · intro ws hf hw hm
    have hw' := (panHanded_iff env cf schema dat ws).2 hw
    have hnf : ¬ disk.isFile dir = true := fun h => by
      obtain ⟨a, ha⟩ := (isFile_iff disk dir).1 h
      exact hf a ha
    have hmk : ¬ (!disk.isDir dir && !mkdirOk) = true := by
      rcases hm with h | h
      · simp [(isDir_iff disk dir).2 h]
      · simp [h]
    unfold csvPanDisk at hr
    rw [if_neg hnf, hw'] at hr
    simp only [if_neg hmk] at hr
    rw [← hpe] at hr
    have hnames := handed_names hw'
    have hnd := panPath_nodup cenv schema hn cs dir hnames
    have hmap : ws.map (fun p => pathOf p.1) = schema.map (fun tc => pathOf tc.1) := by
      have := congrArg (List.map pathOf) hnames
      rw [List.map_map, List.map_map] at this
      exact this
    have hnd' : (ws.map (fun p => pathOf p.1)).Nodup := by rw [hpe]; exact hnd
    obtain ⟨h1, h2, h3, h4⟩ := csvPanTables_spec toCsv pathOf ws (if disk.isDir dir then disk else PyDict.set disk dir .dir) hnd'
    rw [hr] at h1 h2 h3 h4
    simp only at h1 h2 h3 h4
    have hne : ∀ t, pathOf t ≠ dir := fun t => by rw [hpath]; exact csvPath_ne dir _
    have hsame : ∀ q, q ≠ dir → PyDict.get? (if disk.isDir dir then disk else PyDict.set disk dir .dir) q = PyDict.get? disk q := by
      intro q hq
      split
      · rfl
      · rw [PyDict.get?_set, if_neg (Ne.symm hq)]
    refine ⟨?_, ?_, ?_, h3, ?_⟩
    · rw [h1 dir]
      · split
        · rename_i h; exact (isDir_iff disk dir).1 h
        · rw [PyDict.get?_set, if_pos rfl]
      · intro h
        obtain ⟨p, _, e⟩ := List.mem_map.1 h
        exact hne p.1 e
    · intro q hq
      rw [List.mem_cons, not_or] at hq
      rw [h1 q (by rw [hmap]; exact hq.2), hsame q hq.1]
    · rw [h2]
      constructor
      · intro h p hp
        rw [← hsame _ (hne p.1)]; exact h p hp
      · intro h p hp
        rw [hsame _ (hne p.1)]; exact h p hp
    · intro h
      obtain ⟨done, p, rest, e, g1, g2, g3⟩ := h4 h
      refine ⟨done, p, rest, e, g1, ?_, ?_⟩
      · rw [hsame _ (hne p.1)] at g2; exact g2
      · intro d hd
        rw [g3 d hd, hsame _ (hne d.1)]

/-- **C93** (Excel): nothing but the file changes; it changes only if the sheet names differ, the object can be handed over and
no directory is in the way, and then it is what the library makes of the sheets, whatever it was before. -/
theorem pan_xls_disk {A : Type} (env : TextEnv) (cenv : CaseEnv) (cf : IOConf) (toBook : List (String × Frame) → Saved A)
    (cs : Bool) (schema : List (String × TabClass)) (dat : PyDict String Frame) (path : String) (disk : FileSys A)
    {disk' : FileSys A} {raised : Bool} (hr : xlsPanDisk env cenv cf toBook cs schema dat path disk = (disk', raised)) :
    ((sheetNamesDiffer (schema.map (fun tc => tc.1.toList)) = false ∨ (¬ ∃ ws, HandedOver env cf schema dat ws) ∨
        PyDict.get? disk path = some .dir) → raised = true ∧ disk' = disk) ∧
    (∀ ws book, sheetNamesDiffer (schema.map (fun tc => tc.1.toList)) = true → HandedOver env cf schema dat ws →
        PyDict.get? disk path ≠ some .dir →
        book = toBook (ws.map (fun p => (String.ofList ((panNameOut cenv schema cs p.1).take 30), p.2))) →
      OnlyAt [path] disk disk' ∧
      (∀ a, book = .whole a → raised = false ∧ PyDict.get? disk' path = some (.file a)) ∧
      (∀ a, book = .torn a → raised = true ∧ PyDict.get? disk' path = some (.file a)) ∧
      (book = .refused → raised = true ∧ disk' = disk)) := by
  constructor
  · rintro (h | h | h)
    · unfold xlsPanDisk at hr
      rw [h] at hr
      cases hr; exact ⟨rfl, rfl⟩
    · unfold xlsPanDisk at hr
      rw [(panHanded_none env cf schema dat).2 h] at hr
      simp only [ite_self] at hr
      cases hr; exact ⟨rfl, rfl⟩
    · unfold xlsPanDisk at hr
      simp only [if_pos ((isDir_iff disk path).2 h)] at hr
      split at hr
      · cases hr; exact ⟨rfl, rfl⟩
      · split at hr <;> (cases hr; exact ⟨rfl, rfl⟩)
  · intro ws book hs hw hd hb
    have hnd : ¬ disk.isDir path = true := fun h => hd ((isDir_iff disk path).1 h)
    unfold xlsPanDisk at hr
    rw [hs, (panHanded_iff env cf schema dat ws).2 hw] at hr
    simp only [Bool.not_true, Bool.false_eq_true, if_false, if_neg hnd] at hr
    rw [show longestSheet = 30 from rfl, ← hb] at hr
    have honly : ∀ a : A, OnlyAt [path] disk (PyDict.set disk path (.file a)) := by
      intro a q hq
      rw [PyDict.get?_set, if_neg (by rintro rfl; exact hq (by simp))]
    cases hbk : book with
    | whole a =>
      rw [hbk] at hr
      simp only [savedAt, if_neg hnd] at hr
      cases hr
      refine ⟨honly a, ?_, fun _ h => (by cases h), fun h => by cases h⟩
      intro b h
      cases h
      exact ⟨rfl, by rw [PyDict.get?_set, if_pos rfl]⟩
    | torn a =>
      rw [hbk] at hr
      simp only [savedAt, if_neg hnd] at hr
      cases hr
      refine ⟨honly a, fun _ h => (by cases h), ?_, fun h => by cases h⟩
      intro b h
      cases h
      exact ⟨rfl, by rw [PyDict.get?_set, if_pos rfl]⟩
    | refused =>
      rw [hbk] at hr
      simp only [savedAt] at hr
      cases hr
      exact ⟨fun q _ => rfl, fun _ h => (by cases h), fun _ h => (by cases h), fun _ => ⟨rfl, rfl⟩⟩

theorem jsonPanDump_spec {A J : Type} (dump : J → A × Bool) (path : String) (disk : FileSys A) (j : J) {disk' : FileSys A}
    {raised : Bool} (hr : jsonPanDump dump path disk j = (disk', raised)) : JsonSaved dump path disk disk' j raised := by
  unfold jsonPanDump at hr
  refine ⟨?_, ?_, ?_⟩
  · intro h
    rw [if_pos h] at hr
    cases hr; exact ⟨rfl, rfl⟩
  · intro h hd
    rw [if_neg h, if_pos ((isDir_iff disk path).2 hd)] at hr
    cases hr; exact ⟨rfl, rfl⟩
  · intro h hd
    rw [if_neg h, if_neg (fun h => hd ((isDir_iff disk path).1 h))] at hr
    cases hr
    refine ⟨?_, by rw [PyDict.get?_set, if_pos rfl], rfl⟩
    intro q hq
    rw [PyDict.get?_set, if_neg (by rintro rfl; exact hq (by simp))]

theorem pairwise2_iff_congr {A B : Type} {P Q : A → B → Prop} (h : ∀ a b, P a b ↔ Q a b) (l : List A) (r : List B) :
    Pairwise2 P l r ↔ Pairwise2 Q l r :=
  ⟨pairwise2_weaken (fun a _ b => (h a b).1), pairwise2_weaken (fun a _ b => (h a b).2)⟩

theorem jsonPanWrite_iff (env : TextEnv) (cf : IOConf) (schema : List (String × TabClass)) (dat : PyDict String Frame)
    (j : PyDict String JPan) : jsonPanWrite env cf schema dat = some j ↔
      ∃ ws, HandedOver env cf schema dat ws ∧ ListsOfLists env schema ws j := by
  unfold jsonPanWrite
  rw [Option.bind_eq_some_iff]
  apply exists_congr
  intro ws
  rw [panHanded_iff, mapM_iff_pairwise2]
  apply and_congr Iff.rfl
  unfold ListsOfLists
  apply pairwise2_iff_congr
  rintro tc ⟨a, b⟩
  rw [Option.bind_eq_some_iff]
  constructor
  · rintro ⟨w, hw, h⟩
    obtain ⟨rows, hrows, e⟩ := Option.map_eq_some_iff.1 h
    cases e
    refine ⟨rfl, w, rows, hw, rfl, ?_⟩
    rw [mapM_iff_pairwise2] at hrows
    refine (pairwise2_iff_congr ?_ _ _).1 hrows
    intro r out
    rw [mapM_iff_pairwise2]
    apply pairwise2_iff_congr
    intro f x
    rw [Option.map_eq_some_iff]
  · rintro ⟨h1, w, rows, hw, h2, hrows⟩
    refine ⟨w, hw, Option.map_eq_some_iff.2 ⟨rows, ?_, Prod.ext h1.symm h2.symm⟩⟩
    rw [mapM_iff_pairwise2]
    refine (pairwise2_iff_congr ?_ _ _).2 hrows
    intro r out
    rw [mapM_iff_pairwise2]
    apply pairwise2_iff_congr
    intro f x
    rw [Option.map_eq_some_iff]

/-- **C93** (json, lists of lists). -/
theorem pan_json_disk {A : Type} (env : TextEnv) (cf : IOConf) (dump : PyDict String JPan → A × Bool)
    (schema : List (String × TabClass)) (dat : PyDict String Frame) (path : String) (disk : FileSys A)
    {disk' : FileSys A} {raised : Bool} (hr : jsonPanDisk env cf dump schema dat path disk = (disk', raised)) :
    ((¬ ∃ ws j, HandedOver env cf schema dat ws ∧ ListsOfLists env schema ws j) → raised = true ∧ disk' = disk) ∧
    (∀ ws j, HandedOver env cf schema dat ws → ListsOfLists env schema ws j → JsonSaved dump path disk disk' j raised) := by
  unfold jsonPanDisk at hr
  constructor
  · intro h
    have : jsonPanWrite env cf schema dat = none := by
      cases hj : jsonPanWrite env cf schema dat with
      | none => rfl
      | some j =>
        obtain ⟨ws, h1, h2⟩ := (jsonPanWrite_iff env cf schema dat j).1 hj
        exact absurd ⟨ws, j, h1, h2⟩ h
    rw [this] at hr
    cases hr; exact ⟨rfl, rfl⟩
  · intro ws j h1 h2
    rw [(jsonPanWrite_iff env cf schema dat j).2 ⟨ws, h1, h2⟩] at hr
    exact jsonPanDump_spec dump path disk j hr

/-- **C93** (json as pandas writes it). -/
theorem pan_json_pd_disk {A J : Type} (env : TextEnv) (cenv : CaseEnv) (cf : IOConf) (toJson : Frame → Option J)
    (dump : PyDict String J → A × Bool) (cs : Bool) (schema : List (String × TabClass)) (dat : PyDict String Frame)
    (path : String) (disk : FileSys A) {disk' : FileSys A} {raised : Bool}
    (hr : jsonPanDiskPd env cenv cf toJson dump cs schema dat path disk = (disk', raised)) :
    ((¬ ∃ ws, HandedOver env cf schema dat ws ∧ ∀ p ∈ ws, toJson p.2 ≠ none) → raised = true ∧ disk' = disk) ∧
    (∀ ws, HandedOver env cf schema dat ws → (∀ p ∈ ws, toJson p.2 ≠ none) → ∃ j,
      ((ws.map (fun p => String.ofList (panNameOut cenv schema cs p.1))).Nodup →
        ∀ p ∈ ws, PyDict.get? j (String.ofList (panNameOut cenv schema cs p.1)) = toJson p.2) ∧
      JsonSaved dump path disk disk' j raised) := by
  unfold jsonPanDiskPd at hr
  constructor
  · intro h
    have : (panHanded env cf schema dat).bind (List.mapM (fun p => (toJson p.2).map (fun j =>
        (String.ofList (panNameOut cenv schema cs p.1), j)))) = none := by
      cases hj : (panHanded env cf schema dat).bind (List.mapM (fun p => (toJson p.2).map (fun j =>
        (String.ofList (panNameOut cenv schema cs p.1), j)))) with
      | none => rfl
      | some js =>
        obtain ⟨ws, h1, h2⟩ := Option.bind_eq_some_iff.1 hj
        refine absurd ⟨ws, (panHanded_iff env cf schema dat ws).1 h1, ?_⟩ h
        intro p hp e
        rw [mapM_iff_pairwise2] at h2
        obtain ⟨b, hb⟩ := pairwise2_forall h2 p hp
        rw [e] at hb
        cases hb
    rw [this] at hr
    cases hr; exact ⟨rfl, rfl⟩
  · intro ws hw hj
    have hm : ws.mapM (fun p => (toJson p.2).map (fun j => (String.ofList (panNameOut cenv schema cs p.1), j))) ≠ none := by
      clear hw hr
      induction ws with
      | nil => simp
      | cons p rest ih =>
        rw [List.mapM_cons]
        cases hp : toJson p.2 with
        | none => exact absurd hp (hj p List.mem_cons_self)
        | some b =>
          cases hrest : rest.mapM (fun p => (toJson p.2).map (fun j => (String.ofList (panNameOut cenv schema cs p.1), j))) with
          | none => exact absurd hrest (ih (fun q hq => hj q (List.mem_cons_of_mem _ hq)))
          | some _ => simp
    rw [(panHanded_iff env cf schema dat ws).2 hw, Option.bind_some] at hr
    cases hjs : ws.mapM (fun p => (toJson p.2).map (fun j => (String.ofList (panNameOut cenv schema cs p.1), j))) with
    | none => exact absurd hjs hm
    | some js =>
      rw [hjs] at hr
      refine ⟨_, ?_, jsonPanDump_spec dump path disk _ hr⟩
      rw [mapM_iff_pairwise2] at hjs
      have hnames : ws.map (fun p => String.ofList (panNameOut cenv schema cs p.1)) = js.map Prod.fst := by
        clear hr hm hj hw
        induction hjs with
        | nil => rfl
        | cons h1 _ ih =>
          obtain ⟨b, _, e⟩ := Option.map_eq_some_iff.1 h1
          rw [List.map_cons, List.map_cons, ih, ← e]
      intro hn p hp
      obtain ⟨b, hb⟩ : ∃ b, toJson p.2 = some b ∧ (String.ofList (panNameOut cenv schema cs p.1), b) ∈ js := by
        clear hr hm hj hw hn hnames
        induction hjs with
        | nil => exact (List.not_mem_nil hp).elim
        | cons h1 _ ih =>
          rcases List.mem_cons.1 hp with e | hp
          · subst e
            obtain ⟨b, hb, e⟩ := Option.map_eq_some_iff.1 h1
            exact ⟨b, hb, by rw [← e]; exact List.mem_cons_self⟩
          · obtain ⟨b, hb, hm⟩ := ih hp
            exact ⟨b, hb, List.mem_cons_of_mem _ hm⟩
      rw [hb.1, PyDict.get?_foldl_self js (by rw [hnames] at hn; exact hn) [],
        PyDict.get?_of_mem (by rw [hnames] at hn; exact hn) hb.2]

/-- **C93** (json): a value that `json` does not know costs the file that was at the path. -/
theorem pan_json_loses {A : Type} (env : TextEnv) (cf : IOConf) (dump : PyDict String JPan → A × Bool)
    {schema : List (String × TabClass)} {dat : PyDict String Frame} {path : String} (hp : path ≠ "") {disk : FileSys A}
    {old : A} (hold : PyDict.get? disk path = some (.file old)) {ws : List (String × Frame)} {j : PyDict String JPan}
    (hw : HandedOver env cf schema dat ws) (hj : ListsOfLists env schema ws j) (hd : (dump j).2 = true) :
    (jsonPanDisk env cf dump schema dat path disk).2 = true ∧
      PyDict.get? (jsonPanDisk env cf dump schema dat path disk).1 path = some (.file (dump j).1) := by
  obtain ⟨_, _, h⟩ := (pan_json_disk env cf dump schema dat path disk (disk' := (jsonPanDisk env cf dump schema dat path disk).1)
    (raised := (jsonPanDisk env cf dump schema dat path disk).2) rfl).2 ws j hw hj
  obtain ⟨_, h2, h3⟩ := h hp (by rw [hold]; intro e; cases e)
  exact ⟨h3.trans hd, h2⟩

/-! ### SQLite -/

theorem toSql_other {cenv : CaseEnv} {mode : IfExists} {p : String × Frame} {db db' : PanStore} (h : toSql cenv mode p db = some db')
    {n : String} (hn : n ≠ p.1) : PyDict.get? db' n = PyDict.get? db n := by
  have key : ∀ v, PyDict.get? (PyDict.set db p.1 v) n = PyDict.get? db n := fun v => by
    rw [PyDict.get?_set, if_neg (Ne.symm hn)]
  unfold toSql at h
  split at h
  · split at h
    · cases h
    · cases h; exact key _
    · obtain ⟨u, _, e⟩ := Option.map_eq_some_iff.1 h
      rw [← e]; exact key _
  · split at h
    · cases h
    · cases h; exact key _

theorem toSql_own {cenv : CaseEnv} {mode : IfExists} {p : String × Frame} {db db' : PanStore} (h : toSql cenv mode p db = some db')
    (hm : mode ≠ .append) : PyDict.get? db' p.1 = some p.2 := by
  have key : PyDict.get? (PyDict.set db p.1 p.2) p.1 = some p.2 := by
    rw [PyDict.get?_set, if_pos rfl]
  unfold toSql at h
  split at h
  · split at h
    · cases h
    · cases h; exact key
    · exact absurd rfl hm
  · split at h
    · cases h
    · cases h; exact key

theorem sqlSteps_spec (cenv : CaseEnv) (mode : IfExists) (nameOf : String → String) : ∀ (ws : List (String × Frame)) (db : PanStore),
    (ws.map (fun p => nameOf p.1)).Nodup →
    (∀ n, n ∉ ws.map (fun p => nameOf p.1) →
      PyDict.get? (runSteps (toSql cenv mode) (ws.map (fun p => (nameOf p.1, p.2))) db).1 n = PyDict.get? db n) ∧
    ((runSteps (toSql cenv mode) (ws.map (fun p => (nameOf p.1, p.2))) db).2 = false → mode ≠ .append → ∀ p ∈ ws,
      PyDict.get? (runSteps (toSql cenv mode) (ws.map (fun p => (nameOf p.1, p.2))) db).1 (nameOf p.1) = some p.2) ∧
    ((runSteps (toSql cenv mode) (ws.map (fun p => (nameOf p.1, p.2))) db).2 = true →
      SqlBrokenOff cenv mode nameOf ws db (runSteps (toSql cenv mode) (ws.map (fun p => (nameOf p.1, p.2))) db).1)
  | [], db, _ => ⟨fun _ _ => rfl, fun _ _ p hp => (List.not_mem_nil hp).elim, fun h => by cases h⟩
  | p :: rest, db, hn => by
    rw [List.map_cons, List.nodup_cons] at hn
    obtain ⟨hnot, hn⟩ := hn
    have hother : ∀ d ∈ rest, nameOf d.1 ≠ nameOf p.1 := fun d hd' e =>
      hnot (by rw [← e]; exact List.mem_map.2 ⟨d, hd', rfl⟩)
    cases hs : toSql cenv mode (nameOf p.1, p.2) db with
    | none =>
      simp only [List.map_cons, runSteps, hs]
      refine ⟨(by intros; trivial), fun h => (by cases h), fun _ => ⟨[], p, rest, rfl, by simp, hs, fun _ _ => rfl⟩⟩
    | some db1 =>
      obtain ⟨h1, h2, h3⟩ := sqlSteps_spec cenv mode nameOf rest db1 hn
      simp only [List.map_cons, runSteps, hs]
      have hsame : ∀ d ∈ rest, PyDict.get? db1 (nameOf d.1) = PyDict.get? db (nameOf d.1) :=
        fun d hd => toSql_other hs (hother d hd)
      refine ⟨?_, ?_, ?_⟩
      · intro n hq
        rw [List.mem_cons, not_or] at hq
        rw [h1 n hq.2]
        exact toSql_other hs hq.1
      · intro h hm
        rw [List.forall_mem_cons]
        refine ⟨?_, h2 h hm⟩
        rw [h1 _ hnot]
        exact toSql_own hs hm
      · intro h
        obtain ⟨done, q, rest', e, g1, g2, g3⟩ := h3 h
        refine ⟨p :: done, q, rest', by rw [e]; rfl, ?_, g2, ?_⟩
        · intro hm
          rw [List.forall_mem_cons]
          refine ⟨?_, g1 hm⟩
          rw [h1 _ hnot]
          exact toSql_own hs hm
        · intro d hd
          rw [g3 d hd]
          exact hsame d (by rw [e]; exact List.mem_append_right _ hd)

/-- **C93** (SQLite): an object that cannot be handed over leaves the database as it is; other tables stay as they are; after
an exception the tables before the one that was refused are left behind. -/
theorem pan_sql_disk (env : TextEnv) (cenv : CaseEnv) (cf : IOConf) (cs : Bool) (mode : IfExists)
    {schema : List (String × TabClass)} (hn : (schema.map Prod.fst).Nodup) (dat : PyDict String Frame) (db : PanStore)
    {nameOf : String → String} (hname : ∀ t, nameOf t = String.ofList (panNameOut cenv schema cs t))
    {db' : PanStore} {raised : Bool} (hr : sqlPanWrite env cenv cf schema cs mode dat db = (db', raised)) :
    ((¬ ∃ ws, HandedOver env cf schema dat ws) → raised = true ∧ db' = db) ∧
    (∀ ws, HandedOver env cf schema dat ws →
      (∀ n, n ∉ schema.map (fun tc => nameOf tc.1) → PyDict.get? db' n = PyDict.get? db n) ∧
      (raised = false → mode ≠ .append → ∀ p ∈ ws, PyDict.get? db' (nameOf p.1) = some p.2) ∧
      (raised = true → SqlBrokenOff cenv mode nameOf ws db db')) := by
  have hpe : nameOf = fun t => String.ofList (panNameOut cenv schema cs t) := funext hname
  unfold sqlPanWrite at hr
  constructor
  · intro h
    rw [(panHanded_none env cf schema dat).2 h] at hr
    cases hr; exact ⟨rfl, rfl⟩
  · intro ws hw
    have hw' := (panHanded_iff env cf schema dat ws).2 hw
    rw [hw'] at hr
    have hnames := handed_names hw'
    have hmap : ws.map (fun p => nameOf p.1) = schema.map (fun tc => nameOf tc.1) := by
      have := congrArg (List.map nameOf) hnames
      rw [List.map_map, List.map_map] at this
      exact this
    have hnd : (ws.map (fun p => nameOf p.1)).Nodup := by
      have h := panPath_nodup cenv schema hn cs "" hnames
      rw [hpe]
      refine nodup_of_map (fun s : String => csvPath "" (s.toList ++ ".csv".toList)) ?_
      rw [List.map_map]
      simpa only [Function.comp_def, String.toList_ofList] using h
    obtain ⟨h1, h2, h3⟩ := sqlSteps_spec cenv mode nameOf ws db hnd
    have hr' : runSteps (toSql cenv mode) (ws.map (fun p => (nameOf p.1, p.2))) db = (db', raised) := by rw [hpe]; exact hr
    rw [hr'] at h1 h2 h3
    exact ⟨fun n hq => h1 n (by rw [hmap]; exact hq), h2, h3⟩

/-! ### Examples -/

theorem panDiskEx_handed : ∃ ws, HandedOver unaryText pgExConf pgExSchema pgPanEx ws ∧
    ws = [("items", ⟨["i"], [.name "name", .name "cat"],
      [([.num (.fin 0)], [.str "egg", .str "food"]), ([.num (.fin 1)], [.str "pen", .nan])]⟩),
      ("cats", ⟨[], [.name "name"], [([], [.str "food"]), ([], [.str "tool"])]⟩)] :=
  ⟨_, (panHanded_iff _ _ _ _ _).1 (by decide +kernel), rfl⟩

/-- A library that breaks off at DataFrames with one column. -/
def panDiskExCsv (v : Frame) : Saved Nat := if v.cols.length = 1 then .torn 7 else .whole 9

def panDiskExDisk : FileSys Nat := [("out", .dir), ("out/Cats.csv", .file 1), ("out/Notes.csv", .file 3)]

/-- The first file is complete, the second one is broken, and the file that is not of a table is as before. -/
example : (csvPanDisk unaryText asciiEnv pgExConf panDiskExCsv false true pgExSchema pgPanEx "out" panDiskExDisk).2 = true ∧
    PyDict.get? (csvPanDisk unaryText asciiEnv pgExConf panDiskExCsv false true pgExSchema pgPanEx "out" panDiskExDisk).1
      "out/Items.csv" = some (.file 9) ∧
    PyDict.get? (csvPanDisk unaryText asciiEnv pgExConf panDiskExCsv false true pgExSchema pgPanEx "out" panDiskExDisk).1
      "out/Cats.csv" = some (.file 7) ∧
    PyDict.get? (csvPanDisk unaryText asciiEnv pgExConf panDiskExCsv false true pgExSchema pgPanEx "out" panDiskExDisk).1
      "out/Notes.csv" = some (.file 3) := by
  obtain ⟨ws, hw, e⟩ := panDiskEx_handed
  obtain ⟨_, h2, h3, _, h5⟩ := (pan_csv_disk unaryText asciiEnv pgExConf panDiskExCsv false true (schema := pgExSchema)
    (by decide +kernel) pgPanEx "out" panDiskExDisk (fun _ => rfl) (disk' := (csvPanDisk unaryText asciiEnv pgExConf panDiskExCsv
      false true pgExSchema pgPanEx "out" panDiskExDisk).1) (raised := (csvPanDisk unaryText asciiEnv pgExConf panDiskExCsv
      false true pgExSchema pgPanEx "out" panDiskExDisk).2) rfl).2 ws (by intro a h; cases h) hw (.inl rfl)
  have hraised : (csvPanDisk unaryText asciiEnv pgExConf panDiskExCsv false true pgExSchema pgPanEx "out" panDiskExDisk).2 = true := by
    rw [← Bool.not_eq_false, h3, e]
    intro h
    obtain ⟨_, a, ha⟩ := h ("cats", ⟨[], [.name "name"], [([], [.str "food"]), ([], [.str "tool"])]⟩) (by simp)
    cases ha
  refine ⟨hraised, ?_, ?_, ?_⟩
  · rfl
  · rfl
  · exact h2 "out/Notes.csv" (by decide +kernel)

/-- Without a column the object is refused and not even the directory is made. -/
example : csvPanDisk unaryText asciiEnv pgExConf panDiskExCsv true true pgExSchema [("items", ⟨[], [.name "name"], []⟩),
    ("cats", ⟨[], [.name "name"], []⟩)] "new" panDiskExDisk = (panDiskExDisk, true) := rfl

/-- The book that cannot be completed takes the place of the file. -/
example : PyDict.get? (xlsPanDisk unaryText asciiEnv pgExConf (fun _ => Saved.torn 7) true pgExSchema pgPanEx "b.xlsx"
    [("b.xlsx", .file 1)]).1 "b.xlsx" = some (.file 7) := by
  obtain ⟨ws, hw, _⟩ := panDiskEx_handed
  exact (((pan_xls_disk unaryText asciiEnv pgExConf (fun _ => Saved.torn 7) true pgExSchema pgPanEx "b.xlsx"
    [("b.xlsx", .file 1)] rfl).2 ws _ (by decide +kernel) hw (by intro h; cases h) rfl).2.2.1 7 rfl).2

/-- The file that was there before is lost. -/
example : PyDict.get? (jsonPanDisk unaryText pgExConf (fun _ => ((7 : Nat), true)) pgExSchema pgPanEx "f.json"
    [("f.json", .file 1)]).1 "f.json" = some (.file 7) := by
  have hj : jsonPanWrite unaryText pgExConf pgExSchema pgPanEx = some [("items", .lol [[.str "egg", .str "food"], [.str "pen", .none]]),
    ("cats", .lol [[.str "food"], [.str "tool"]])] := by decide +kernel
  obtain ⟨ws, h1, h2⟩ := (jsonPanWrite_iff _ _ _ _ _).1 hj
  exact (pan_json_loses unaryText pgExConf (fun _ => ((7 : Nat), true)) (by decide) (old := 1) rfl h1 h2 rfl).2

example : PyDict.get? (jsonPanDiskPd unaryText asciiEnv pgExConf (fun v => some v.rows.length)
    (fun j => (j, true)) true pgExSchema pgPanEx "f.json" [("f.json", .file [])]).1 "f.json" =
      some (.file [("Items", 2), ("Cats", 2)]) := rfl

/-- `if_exists="fail"`: the table before the one that exists is left behind. -/
example : sqlPanWrite unaryText asciiEnv pgExConf pgExSchema false .fail pgPanEx [("cats", ⟨[], [.name "x"], []⟩)] =
    ([("cats", ⟨[], [.name "x"], []⟩), ("items", ⟨["i"], [.name "name", .name "cat"],
      [([.num (.fin 0)], [.str "egg", .str "food"]), ([.num (.fin 1)], [.str "pen", .nan])]⟩)], true) := by decide +kernel

end Ticdat

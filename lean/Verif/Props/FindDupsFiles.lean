import Verif.Props.FindDups
/-!
# C67: `find_duplicates` of csv and Excel files
-/
namespace Ticdat
open Spec
set_option linter.unusedSimpArgs false

theorem collect_some (flds : TabClass → List String) (rd : String × TabClass → Option (Option (List (List Cell))))
    (s : List (String × TabClass)) (h : ∀ tc ∈ s, ∃ x, rd tc = some x) : ∃ recs, collectRecords flds rd s = some recs := by
  induction s with
  | nil => exact ⟨[], rfl⟩
  | cons tc rest ih =>
    obtain ⟨x, hx⟩ := h tc List.mem_cons_self
    obtain ⟨r, hr⟩ := ih (fun tc' h' => h tc' (List.mem_cons_of_mem _ h'))
    exact ⟨_, by rw [collectRecords, hx, Option.bind_some, hr]; rfl⟩

theorem mapM_length_eq {A B : Type} (g : A → Option B) (l : List A) (l' : List B) (h : l.mapM g = some l') :
    l'.length = l.length := by
  rw [mapM_eq_some_iff] at h
  have := congrArg List.length h
  simpa using this.symm

theorem mapM_mem {A B : Type} (g : A → Option B) (l : List A) (l' : List B) (h : l.mapM g = some l') (b : B)
    (hb : b ∈ l') : ∃ a ∈ l, g a = some b := by
  rw [mapM_eq_some_iff] at h
  have : some b ∈ l.map g := by rw [h]; exact List.mem_map.mpr ⟨b, hb, rfl⟩
  obtain ⟨a, ha, e⟩ := List.mem_map.mp this
  exact ⟨a, ha, e⟩

/-! ### csv -/

/-- The reader makes its table of the records that `find_duplicates` counts. -/
theorem csvFind_records (env : TextEnv) (cenv : CaseEnv) (cf : IOConf) (dv : Defaults) (headers : Bool)
    (dir : PyDict (List Char) CsvFile) (tc : String × TabClass) (hne : tc.2.fields ≠ []) :
    csvFind env cenv cf dv headers dir tc = (csvRecords env cenv cf dv headers dir tc).map (fun x => x.bind (fun rows =>
      if (readerTable tc.2 rows).size = 0 then none else some (readerTable tc.2 rows))) := by
  unfold csvFind csvRecords
  cases csvFilePath cenv (PyDict.keys dir) tc.1.toList with
  | none => rfl
  | some path =>
    cases path with
    | none => rfl
    | some f =>
      simp only [Option.bind_some]
      cases PyDict.get? dir f with
      | none => rfl
      | some lines =>
        simp only [Option.bind_some, csvReadTable, if_neg hne]
        cases csvParse cenv (tc.2.fields.map String.toList) headers lines with
        | none => rfl
        | some rows =>
          simp only [Option.bind_some]
          cases rows.mapM (fun row => mapCells (csvReadCell env cf dv tc.1) tc.2.fields (row.map Prod.snd)) <;> rfl

theorem csvParse_width (cenv : CaseEnv) (fields : List (List Char)) (headers : Bool) (lines : CsvFile)
    (rows : List (PyDict (List Char) Cell)) (h : csvParse cenv fields headers lines = some rows) :
    ∀ row ∈ rows, row.length = fields.length := by
  intro row hrow
  unfold csvParse at h
  cases headers with
  | true =>
    simp only [if_true] at h
    cases lines with
    | nil => cases h; simp at hrow
    | cons header rest =>
      simp only [csvRows] at h
      obtain ⟨a, _, ha⟩ := mapM_mem _ _ _ h row hrow
      unfold csvRowByHeader at ha
      simp only at ha
      split at ha
      · cases ha
      · exact mapM_length_eq _ _ _ ha
  | false =>
    simp only [Bool.false_eq_true, if_false] at h
    obtain ⟨a, _, ha⟩ := mapM_mem _ _ _ h row hrow
    unfold csvRowNoHeader at ha
    simp only at ha
    split at ha
    · cases ha
    · exact mapM_length_eq _ _ _ ha

theorem csvRecords_width (env : TextEnv) (cenv : CaseEnv) (cf : IOConf) (dv : Defaults) (headers : Bool)
    (dir : PyDict (List Char) CsvFile) (tc : String × TabClass) (rows : List (List Cell))
    (h : csvRecords env cenv cf dv headers dir tc = some (some rows)) : ∀ r ∈ rows, r.length = tc.2.fields.length := by
  unfold csvRecords at h
  cases hp : csvFilePath cenv (PyDict.keys dir) tc.1.toList with
  | none => rw [hp] at h; cases h
  | some path =>
    rw [hp, Option.bind_some] at h
    cases path with
    | none => cases h
    | some f =>
      simp only [Option.map_eq_some_iff, Option.bind_eq_some_iff, Option.some.injEq, exists_eq_right] at h
      obtain ⟨lines, _, parsed, hpar, hm⟩ := h
      intro r hr
      obtain ⟨row, hrow, he⟩ := mapM_mem _ _ _ hm r hr
      refine mapCells_length _ _ _ _ ?_ he
      rw [List.length_map, csvParse_width _ _ _ _ _ hpar row hrow, List.length_map]

/-- **C67, csv.**  If the directory can be read, then duplicates can be looked for, and for each table with primary key the
report is exact for the records of its file as they are read; the table read from them has the last record of each key, and
has lost as many records as the report says. -/
theorem csv_find_duplicates_agrees (env : TextEnv) (cenv : CaseEnv) (cf : IOConf) (dv : Defaults) (policy : DupPolicy)
    (headers : Bool) (schema : List (String × TabClass)) (hn : (schema.map Prod.fst).Nodup)
    (hf : ∀ tc ∈ schema, tc.2.fields.Nodup) (dir : PyDict (List Char) CsvFile) (dat : PyDict String TabVal)
    (h : csvCreate env cenv cf dv policy headers schema dir = some dat) :
    ∃ rtn, csvDups env cenv cf dv headers schema dir = some rtn ∧
      ∀ tc ∈ schema, tc.2.pks ≠ [] → ∃ x, csvRecords env cenv cf dv headers dir tc = some x ∧
        ReportsTable tc.2.pks.length (x.getD []) (PyDict.get? rtn tc.1) ∧
        ReadAs cf.params tc (x.getD []) (PyDict.get? rtn tc.1) dat := by
  have hne : ∀ tc : String × TabClass, tc.2.pks ≠ [] → tc.2.fields ≠ [] := by
    intro tc hpk e
    exact hpk (List.append_eq_nil_iff.mp e).1
  have hall := readAll_table env cf.params policy schema hn _ dat h
  have hsome : ∀ tc ∈ schema, tc.2.pks ≠ [] → ∃ x, csvRecords env cenv cf dv headers dir tc = some x := by
    intro tc htc hpk
    cases hr : csvRecords env cenv cf dv headers dir tc with
    | some x => exact ⟨x, rfl⟩
    | none =>
      have := csvFind_records env cenv cf dv headers dir tc (hne tc hpk)
      rw [hr] at this
      rcases hall tc htc with ⟨h1, _⟩ | ⟨x, tab, h1, _⟩ <;> rw [this] at h1 <;> cases h1
  obtain ⟨recs, hrecs⟩ := collect_some (fun c => c.fields) (csvRecords env cenv cf dv headers dir) (keyedOnly schema)
    (fun tc htc => hsome tc ((mem_keyedOnly schema tc).1 htc).1 ((mem_keyedOnly schema tc).1 htc).2)
  obtain ⟨rtn, h1, h2⟩ := collected_reports schema hn (fun c => c.dfs) hf (csvRecords env cenv cf dv headers dir)
    (fun tc _ rows hrows r hr => by
      rw [csvRecords_width env cenv cf dv headers dir tc rows hrows r hr]
      simp [TabClass.fields]) recs hrecs (fun t => PyDict.has recs t) (by
      intro t ht
      rw [PyDict.get?_eq_none, ← PyDict.has_iff]
      simp [ht])
  refine ⟨rtn, by unfold csvDups; rw [hrecs]; exact h1, fun tc htc hpk => ?_⟩
  obtain ⟨x, hx, hrep⟩ := h2 tc ((mem_keyedOnly schema tc).2 ⟨htc, hpk⟩)
  refine ⟨x, hx, hrep, ?_⟩
  have hw : ∀ r ∈ x.getD [], r.length = tc.2.fields.length := by
    cases x with
    | none => intro r hr; simp at hr
    | some rows => exact csvRecords_width env cenv cf dv headers dir tc rows hx
  have hl : ∀ r ∈ x.getD [], tc.2.pks.length ≤ r.length := fun r hr => by rw [hw r hr]; simp [TabClass.fields]
  have hfr := csvFind_records env cenv cf dv headers dir tc (hne tc hpk)
  rw [hx, Option.map_some] at hfr
  obtain ⟨tab, ht1, ht2⟩ := reader_holds tc.2 hpk (hf tc htc) (x.getD []) hw
  rcases hall tc htc with ⟨h3, h4⟩ | ⟨y, tab', h3, h4, h5⟩
  · have hz : x.getD [] = [] := by
      rw [hfr] at h3
      cases x with
      | none => rfl
      | some rows =>
        simp only [Option.bind_some, Option.some.injEq] at h3
        by_cases hsz : (readerTable tc.2 rows).size = 0
        · simp only [readerTable, if_pos hpk, TableIn.size] at hsz
          cases rows with
          | nil => rfl
          | cons r rest =>
            have := (PyDict.keys_ofList_mem ((r :: rest).map (fun r =>
              (splitKey tc.2.pks.length (.seq r), RowIn.seq (r.drop tc.2.pks.length))))
              (splitKey tc.2.pks.length (.seq r))).2 (by simp)
            rw [List.length_eq_zero_iff.mp hsz] at this
            simp [PyDict.keys] at this
        · rw [if_neg hsz] at h3; cases h3
    rw [hz] at hrep hl ⊢
    refine readAs_of env cf.params tc hpk [] hl _ hrep (emptyTable tc.2) (empty_holds tc.2 hpk) dat ?_
    rw [h4]
    unfold postReadTab emptyTable
    simp only [if_pos hpk]
    split
    · rfl
    · split <;> rfl
  · rw [hfr] at h3
    cases x with
    | none => cases h3
    | some rows =>
      simp only [Option.bind_some, Option.some.injEq] at h3
      split at h3
      · cases h3
      · cases h3
        rw [show ((some rows).getD [] : List (List Cell)) = rows from rfl] at *
        rw [ht1] at h4
        cases h4
        exact readAs_of env cf.params tc hpk rows hl _ hrep tab ht2 dat h5

/-! ### Excel -/

theorem xlFind_records (env : XlEnv) (cf : IOConf) (dv : Defaults) (o : XlOpts) (book : Book) (tc : String × TabClass)
    (hne : tc.2.fields ≠ []) :
    xlFind env cf dv o book tc = (xlRecords env cf dv o book tc).map (fun x => x.map (readerTableX tc.2)) := by
  unfold xlFind xlRecords
  cases sheetOf env.case (PyDict.keys book) tc.1.toList with
  | none => rfl
  | some s =>
    cases s with
    | none => rfl
    | some n =>
      simp only [Option.bind_some]
      cases PyDict.get? book n with
      | none => rfl
      | some g =>
        simp only [Option.bind_some, xlReadTable, if_neg hne]
        cases xlColumns env.case o tc.1 tc.2.fields g with
        | none => rfl
        | some cols =>
          simp only [Option.bind_some]
          cases ((List.range (xlDims o.kind o.prune g).2.1).drop (o.offset tc.1 + if o.headers then 1 else 0)).mapM
            (fun i => mapCells (xlReadCell env cf dv o tc.1) tc.2.fields
              (cols.map (fun j => xlFill o.kind (g.at i j)))) <;> rfl

theorem xlColumns_length (cenv : CaseEnv) (o : XlOpts) (t : String) (fields : List String) (g : Grid) (cols : List Nat)
    (h : xlColumns cenv o t fields g = some cols) : cols.length = fields.length := by
  unfold xlColumns at h
  simp only at h
  split at h
  · split at h
    · cases h
    · exact mapM_length_eq _ _ _ h
  · split at h
    · cases h; simp
    · split at h
      · cases h
      · split at h
        · cases h; simp
        · cases h

theorem mapCells_prefix (g : String → Cell → Option Cell) (pks rest : List String) (row ws : List Cell)
    (hl : row.length = (pks ++ rest).length) (h : mapCells g (pks ++ rest) row = some ws) :
    mapCells g pks row = some (ws.take pks.length) := by
  induction pks generalizing row ws with
  | nil => simp [mapCells]
  | cons f pks ih =>
    cases row with
    | nil => simp at hl
    | cons x row =>
      simp only [mapCells, List.cons_append, List.zip_cons_cons, List.mapM_cons, Option.pure_def, Option.bind_eq_bind,
        Option.bind_eq_some_iff, Option.some.injEq] at h ⊢
      obtain ⟨v, hv, vs, hvs, rfl⟩ := h
      have := ih row vs (by simpa using hl) hvs
      exact ⟨v, hv, _, this, by simp⟩

theorem mapM_both {A B C : Type} (g : A → Option B) (g' : A → Option C) (f : B → C) (l : List A)
    (h : ∀ a ∈ l, ∀ b, g a = some b → g' a = some (f b)) (l' : List B) (hm : l.mapM g = some l') :
    l.mapM g' = some (l'.map f) := by
  induction l generalizing l' with
  | nil => cases hm; rfl
  | cons a l ih =>
    simp only [List.mapM_cons, Option.pure_def, Option.bind_eq_bind, Option.bind_eq_some_iff, Option.some.injEq] at hm ⊢
    obtain ⟨b, hb, bs, hbs, rfl⟩ := hm
    exact ⟨f b, h a List.mem_cons_self b hb, _, ih (fun x hx => h x (List.mem_cons_of_mem _ hx)) bs hbs, rfl⟩

theorem xlRecords_facts (env : XlEnv) (cf : IOConf) (dv : Defaults) (o : XlOpts) (ho : o.treatInf = true) (book : Book)
    (tc : String × TabClass) (x : Option (List (List Cell))) (h : xlRecords env cf dv o book tc = some x) :
    (∀ r ∈ x.getD [], r.length = tc.2.fields.length) ∧
    xlKeyRecords env cf dv o book tc = some (x.map (fun rows => rows.map (fun r => r.take tc.2.pks.length))) := by
  have ho' : ({ o with treatInf := true } : XlOpts) = o := by cases o; simp at ho; subst ho; rfl
  unfold xlRecords at h
  unfold xlKeyRecords
  rw [ho']
  cases hs : sheetOf env.case (PyDict.keys book) tc.1.toList with
  | none => rw [hs] at h; cases h
  | some s =>
    rw [hs, Option.bind_some] at h
    rw [Option.bind_some]
    cases s with
    | none => cases h; exact ⟨by simp, rfl⟩
    | some n =>
      simp only [Option.map_eq_some_iff, Option.bind_eq_some_iff] at h
      obtain ⟨rows, ⟨g, hg, cols, hcols, hm⟩, rfl⟩ := h
      have hcl := xlColumns_length _ _ _ _ _ _ hcols
      constructor
      · intro r hr
        obtain ⟨i, _, hi⟩ := mapM_mem _ _ _ hm r hr
        exact mapCells_length _ _ _ _ (by rw [List.length_map, hcl]) hi
      · simp only [hg, hcols, Option.bind_some]
        rw [mapM_both _ _ (fun r => r.take tc.2.pks.length) _ (by
          intro i _ b hb
          exact mapCells_prefix _ tc.2.pks tc.2.dfs _ b (by rw [List.length_map, hcl]; rfl) hb) _ hm]
        rfl

theorem recordKey_take (n : Nat) (r : List Cell) : recordKey n (r.take n) = recordKey n r := by
  unfold recordKey
  rw [List.take_take, Nat.min_self]

theorem keyCount_take (n : Nat) (rows : List (List Cell)) (k : PKey Cell) :
    keyCount n (rows.map (fun r => r.take n)) k = keyCount n rows k := by
  unfold keyCount
  rw [List.countP_map]
  apply List.countP_congr
  intro r _
  simp only [Function.comp_apply, recordKey_take]

theorem reports_take (n : Nat) (rows : List (List Cell)) (rep : Option (PyDict (PKey Cell) Nat)) :
    ReportsTable n (rows.map (fun r => r.take n)) rep ↔ ReportsTable n rows rep := by
  unfold ReportsTable
  simp only [keyCount_take]

/-- **C67, Excel.**  The same for the sheets of a file that is read with the default `treat_inf_as_infinity`. -/
theorem xls_find_duplicates_agrees (env : XlEnv) (cf : IOConf) (dv : Defaults) (policy : DupPolicy) (o : XlOpts)
    (ho : o.treatInf = true) (schema : List (String × TabClass)) (hn : (schema.map Prod.fst).Nodup)
    (hf : ∀ tc ∈ schema, tc.2.fields.Nodup) (book : Book) (dat : PyDict String TabVal)
    (h : xlCreate env cf dv policy o schema book = some dat) :
    ∃ rtn, xlDups env cf dv o schema book = some rtn ∧
      ∀ tc ∈ schema, tc.2.pks ≠ [] → ∃ x, xlRecords env cf dv o book tc = some x ∧
        ReportsTable tc.2.pks.length (x.getD []) (PyDict.get? rtn tc.1) ∧
        ReadAs cf.params tc (x.getD []) (PyDict.get? rtn tc.1) dat := by
  have hne : ∀ tc : String × TabClass, tc.2.pks ≠ [] → tc.2.fields ≠ [] := by
    intro tc hpk e
    exact hpk (List.append_eq_nil_iff.mp e).1
  unfold xlCreate at h
  by_cases hdiff : sheetNamesDiffer (schema.map (fun tc => tc.1.toList)) = true
  case neg => rw [if_neg hdiff] at h; cases h
  rw [if_pos hdiff] at h
  have hall := readAll_table env.text cf.params policy schema hn _ dat h
  have hsome : ∀ tc ∈ schema, tc.2.pks ≠ [] → ∃ x, xlRecords env cf dv o book tc = some x := by
    intro tc htc hpk
    cases hr : xlRecords env cf dv o book tc with
    | some x => exact ⟨x, rfl⟩
    | none =>
      have := xlFind_records env cf dv o book tc (hne tc hpk)
      rw [hr] at this
      rcases hall tc htc with ⟨h1, _⟩ | ⟨x, tab, h1, _⟩ <;> rw [this] at h1 <;> cases h1
  have hkey : ∀ tc ∈ schema, tc.2.pks ≠ [] → ∃ x, xlRecords env cf dv o book tc = some x ∧
      (∀ r ∈ x.getD [], r.length = tc.2.fields.length) ∧
      xlKeyRecords env cf dv o book tc = some (x.map (fun rows => rows.map (fun r => r.take tc.2.pks.length))) := by
    intro tc htc hpk
    obtain ⟨x, hx⟩ := hsome tc htc hpk
    exact ⟨x, hx, xlRecords_facts env cf dv o ho book tc x hx⟩
  have hk' : ∀ tc ∈ keyedOnly schema, tc ∈ schema ∧ tc.2.pks ≠ [] := fun tc htc => (mem_keyedOnly schema tc).1 htc
  obtain ⟨recs, hrecs⟩ := collect_some (fun c => c.pks ++ ([] : List String)) (xlKeyRecords env cf dv o book)
    (keyedOnly schema) (fun tc htc => by
      obtain ⟨x, _, _, hx⟩ := hkey tc (hk' tc htc).1 (hk' tc htc).2
      exact ⟨_, hx⟩)
  obtain ⟨rtn, h1, h2⟩ := collected_reports schema hn (fun _ => [])
    (fun tc htc => by rw [List.append_nil]; exact (List.nodup_append.mp (hf tc htc)).1)
    (xlKeyRecords env cf dv o book)
    (fun tc htc rows hrows r hr => by
      obtain ⟨x, _, hw, hx⟩ := hkey tc (hk' tc htc).1 (hk' tc htc).2
      rw [hx] at hrows
      cases x with
      | none => cases hrows
      | some rs =>
        cases hrows
        obtain ⟨r', hr', rfl⟩ := List.mem_map.mp hr
        rw [List.length_take, hw r' hr']
        simp [TabClass.fields]) recs hrecs (fun _ => true) (by intro t ht; cases ht)
  refine ⟨rtn, ?_, fun tc htc hpk => ?_⟩
  · unfold xlDups
    rw [if_pos hdiff]
    have hcongr : (fun c : TabClass => c.pks ++ ([] : List String)) = (fun c => c.pks) := by
      funext c; exact List.append_nil _
    rw [hcongr] at hrecs
    rw [hrecs]
    exact h1
  obtain ⟨x, hx, hw, hkr⟩ := hkey tc htc hpk
  obtain ⟨y, hy, hrep⟩ := h2 tc ((mem_keyedOnly schema tc).2 ⟨htc, hpk⟩)
  rw [hkr] at hy
  cases hy
  have hrep : ReportsTable tc.2.pks.length (x.getD []) (PyDict.get? rtn tc.1) := by
    cases x with
    | none => exact hrep
    | some rows => exact (reports_take _ _ _).1 hrep
  refine ⟨x, hx, hrep, ?_⟩
  have hl : ∀ r ∈ x.getD [], tc.2.pks.length ≤ r.length := fun r hr => by rw [hw r hr]; simp [TabClass.fields]
  have hfr := xlFind_records env cf dv o book tc (hne tc hpk)
  rw [hx, Option.map_some] at hfr
  rcases hall tc htc with ⟨h3, h4⟩ | ⟨y, tab', h3, h4, h5⟩
  · rw [hfr] at h3
    cases x with
    | some rows => cases h3
    | none =>
      refine readAs_of env.text cf.params tc hpk [] (by simp) _ hrep (emptyTable tc.2) (empty_holds tc.2 hpk) dat ?_
      rw [h4]
      unfold postReadTab emptyTable
      simp only [if_pos hpk]
      split
      · rfl
      · split <;> rfl
  · rw [hfr] at h3
    cases x with
    | none => cases h3
    | some rows =>
      cases h3
      obtain ⟨tab, ht1, ht2⟩ := readerX_holds tc.2 hpk (hf tc htc) rows hw
      rw [ht1] at h4
      cases h4
      exact readAs_of env.text cf.params tc hpk rows hl _ hrep tab' ht2 dat h5

end Ticdat

import Verif.Model.GenFiles
import Verif.Props.ReadLocal
import Verif.Props.CsvTable
import Verif.Props.SqliteTable
import Verif.Props.ExcelRound
/-!
# C75: generator tables are read from their files on demand
-/
namespace Ticdat
open Spec
set_option linter.unusedSimpArgs false

/-! ### Reading some of the tables -/

theorem gather_filter (rd : String × TabClass → Option (Option TableIn)) (P : String → Bool) (s : List (String × TabClass))
    (input : PyDict String TableIn) (h : gatherTables rd s = some input) :
    gatherTables rd (s.filter (fun tc => P tc.1)) = some (input.filter (fun e => P e.1)) := by
  induction s generalizing input with
  | nil => cases h; rfl
  | cons tc rest ih =>
    unfold gatherTables at h
    simp only [Option.bind_eq_some_iff, Option.map_eq_some_iff] at h
    obtain ⟨x, hx, r, hr, rfl⟩ := h
    have hi := ih r hr
    by_cases hp : P tc.1 = true
    · rw [List.filter_cons_of_pos (by simpa using hp)]
      unfold gatherTables
      rw [hx, hi]
      cases x with
      | none => rfl
      | some y => simp [List.filter_cons, hp]
    · rw [List.filter_cons_of_neg (by simpa using hp), hi]
      cases x with
      | none => rfl
      | some y => simp [List.filter_cons, hp]

theorem init_filter (policy : DupPolicy) (P : String → Bool) (s : List (String × TabClass))
    (input : PyDict String TableIn) (tabs : PyDict String TabVal) (h : initDat policy s input = some tabs) :
    initDat policy (s.filter (fun tc => P tc.1)) (input.filter (fun e => P e.1)) = some (tabs.filter (fun e => P e.1)) := by
  unfold initDat at h ⊢
  split at h
  · rename_i hin
    rw [if_pos]
    · cases hm : s.mapM (initEntry input) with
      | none => rw [hm] at h; cases h
      | some tabs' =>
        rw [hm] at h
        have hm' : (s.filter (fun tc => P tc.1)).mapM (initEntry (input.filter (fun e => P e.1))) =
            some (tabs'.filter (fun e => P e.1)) := by
          clear h hin
          induction s generalizing tabs' with
          | nil => rw [List.mapM_nil] at hm; cases hm; rfl
          | cons tc rest ih =>
            rw [List.mapM_cons] at hm
            simp only [bind, Option.bind_eq_some_iff, pure, Option.some.injEq] at hm
            obtain ⟨e, he, r, hr, rfl⟩ := hm
            have hi := ih r hr
            have hk : e.1 = tc.1 := by
              unfold initEntry at he
              split at he
              · cases he; rfl
              · simp only [Option.map_eq_some_iff] at he
                obtain ⟨_, _, rfl⟩ := he
                rfl
            by_cases hp : P tc.1 = true
            · rw [List.filter_cons_of_pos (by simpa using hp), List.mapM_cons, hi,
                List.filter_cons_of_pos (by simpa [hk] using hp)]
              have : initEntry (input.filter (fun e => P e.1)) tc = some e := by
                rw [← he]
                unfold initEntry
                rw [get?_filter P input tc.1 hp]
              rw [this]
              rfl
            · rw [List.filter_cons_of_neg (by simpa using hp), List.filter_cons_of_neg (by simpa [hk] using hp), hi]
        rw [hm']
        simp only at h ⊢
        split at h
        · cases h
        · rename_i hno
          cases h
          rw [if_neg]
          intro hyes
          apply hno
          simp only [Bool.and_eq_true, List.any_eq_true, decide_eq_true_eq] at hyes ⊢
          obtain ⟨h1, p, hp, h2⟩ := hyes
          obtain ⟨h3, h4⟩ := List.mem_filter.mp hp
          rw [get?_filter P _ p.1 h4] at h2
          exact ⟨h1, p, h3, h2⟩
    · rw [List.all_eq_true] at hin ⊢
      intro p hp
      obtain ⟨h1, h2⟩ := List.mem_filter.mp hp
      have := of_decide_eq_true (hin p h1)
      obtain ⟨tc, h3, h4⟩ := List.mem_map.mp this
      exact decide_eq_true (List.mem_map.mpr ⟨tc, List.mem_filter.mpr ⟨h3, by simpa [h4] using h2⟩, h4⟩)
  · cases h

theorem postRead_filter (env : TextEnv) (params : Params) (P : String → Bool) (d : PyDict String TabVal) :
    postRead env params (d.filter (fun e => P e.1)) = (postRead env params d).filter (fun e => P e.1) := by
  unfold postRead
  split
  · rfl
  · induction d with
    | nil => rfl
    | cons e rest ih =>
      by_cases hp : P e.1 = true
      · rw [List.filter_cons_of_pos (by simpa using hp), List.map_cons, List.map_cons, ih, List.filter_cons_of_pos]
        split <;> simpa using hp
      · rw [List.filter_cons_of_neg (by simpa using hp), List.map_cons, ih, List.filter_cons_of_neg]
        split <;> simpa using hp

theorem readAll_filter (env : TextEnv) (params : Params) (policy : DupPolicy) (schema : List (String × TabClass))
    (rd : String × TabClass → Option (Option TableIn)) (P : String → Bool) (dat : PyDict String TabVal)
    (h : readAll env params policy schema rd = some dat) :
    readAll env params policy (schema.filter (fun tc => P tc.1)) rd = some (dat.filter (fun e => P e.1)) := by
  unfold readAll at h ⊢
  simp only [Option.map_eq_some_iff, Option.bind_eq_some_iff] at h
  obtain ⟨d, ⟨input, h1, h2⟩, rfl⟩ := h
  rw [gather_filter rd P schema input h1, Option.bind_some, init_filter policy P schema input d h2, Option.map_some,
    postRead_filter]

/-! ### Rows on demand and rows in memory -/

theorem initTable_plain {c : TabClass} (hpk : c.pks = []) {x : TableIn} {tab : TabVal} (h : initTable c x = some tab) :
    lazyGood c x = true ∧ ∃ rows, tab = .plain rows ∧ lazyRows c (some x) = some rows := by
  unfold initTable at h
  split at h
  · rename_i hg
    simp only [hpk, ne_eq, not_true_eq_false, if_false] at h
    unfold goodTableForInit at hg
    simp only [hpk, ne_eq, not_true_eq_false, if_false] at hg
    cases x with
    | seq rows =>
      simp only [Option.map_eq_some_iff] at h
      obtain ⟨rs, h1, rfl⟩ := h
      exact ⟨by simpa [lazyGood, goodRows, TableIn.iter] using hg, rs, rfl, h1⟩
    | dict d =>
      simp only [Option.map_eq_some_iff] at h
      obtain ⟨rs, h1, rfl⟩ := h
      refine ⟨by simpa [lazyGood, goodRows, TableIn.iter] using hg, rs, rfl, ?_⟩
      unfold lazyRows TableIn.iter
      rw [Option.bind_some, List.mapM_map]
      exact h1
  · cases h

theorem postReadTab_plain (env : TextEnv) (params : Params) (t : String) (rows : List RowVal) :
    postReadTab env params t (.plain rows) = .plain rows := by
  unfold postReadTab
  split
  · rfl
  · split <;> rfl

/-- What the readers have in common: if all tables can be read into memory, the object with generator tables can be made,
its other tables are the same, and each generator table gives the rows that would be in memory. -/
theorem lazy_read {S : Type} (env : TextEnv) (params : Params) (policy : DupPolicy) (schema : List (String × TabClass))
    (hn : (schema.map Prod.fst).Nodup) (gens : List String) (hpk : ∀ tc ∈ schema, tc.1 ∈ gens → tc.2.pks = [])
    (rd : String × TabClass → Option (Option TableIn)) (probe : String × TabClass → Option S)
    (rows : String × TabClass → S → Option (List RowVal))
    (hp : ∀ tc x, rd tc = some x → (∀ y, x = some y → lazyGood tc.2 y = true) → ∃ s, probe tc = some s ∧
      rows tc s = foundRows tc.2 x)
    (dat : PyDict String TabVal) (h : readAll env params policy schema rd = some dat) :
    ∃ obj, lazyCreate (fun s => readAll env params policy s rd) probe gens schema = some obj ∧
      (∀ tc ∈ schema, tc.1 ∉ gens → PyDict.get? obj.eager tc.1 = PyDict.get? dat tc.1 ∧ PyDict.get? obj.lazy tc.1 = none) ∧
      ∀ tc ∈ schema, tc.1 ∈ gens → ∃ s rs, PyDict.get? obj.lazy tc.1 = some s ∧ probe tc = some s ∧
        rows tc s = some rs ∧ PyDict.get? dat tc.1 = some (.plain rs) := by
  have hr := readAll_filter env params policy schema rd (fun t => decide (t ∉ gens)) dat h
  have hone : ∀ tc ∈ schema, tc.1 ∈ gens → ∃ s rs, probe tc = some s ∧ rows tc s = some rs ∧
      PyDict.get? dat tc.1 = some (.plain rs) := by
    intro tc htc hg
    rcases readAll_table env params policy schema hn rd dat h tc htc with ⟨h1, h2⟩ | ⟨x, tab, h1, h2, h3⟩
    · obtain ⟨s, h4, h5⟩ := hp tc none h1 (fun y e => by cases e)
      refine ⟨s, [], h4, h5, ?_⟩
      rw [h2]
      simp [emptyTable, hpk tc htc hg]
    · obtain ⟨h4, rs, rfl, h5⟩ := initTable_plain (hpk tc htc hg) h2
      obtain ⟨s, h6, h7⟩ := hp tc (some x) h1 (fun y e => by cases e; exact h4)
      refine ⟨s, rs, h6, h7.trans h5, ?_⟩
      rw [h3, postReadTab_plain]
  obtain ⟨l, hl⟩ := mapM_some_of_forall (fun tc : String × TabClass => (probe tc).map (fun s => (tc.1, s)))
    (schema.filter (fun tc => decide (tc.1 ∈ gens))) (by
      intro tc htc
      obtain ⟨h1, h2⟩ := List.mem_filter.mp htc
      obtain ⟨s, _, h3, _⟩ := hone tc h1 (of_decide_eq_true h2)
      simp [h3])
  have hl' := (mapM_eq_some_iff _ _ _).mp hl
  have hkeys : l.map Prod.fst = (schema.filter (fun tc => decide (tc.1 ∈ gens))).map Prod.fst := by
    clear hl
    generalize schema.filter (fun tc => decide (tc.1 ∈ gens)) = q at hl'
    induction q generalizing l with
    | nil => cases l with
      | nil => rfl
      | cons _ _ => cases hl'
    | cons tc q ih =>
      cases l with
      | nil => cases hl'
      | cons e l =>
        simp only [List.map_cons, List.cons.injEq, Option.map_eq_some_iff] at hl'
        obtain ⟨⟨s, _, rfl⟩, h2⟩ := hl'
        simp [ih l h2]
  have hln : (PyDict.keys l).Nodup := by
    have : PyDict.keys l = l.map Prod.fst := rfl
    rw [this, hkeys]
    exact List.Nodup.sublist ((List.filter_sublist (l := schema)).map Prod.fst) hn
  refine ⟨⟨dat.filter (fun e => decide (e.1 ∉ gens)), l⟩, ?_, ?_, ?_⟩
  · unfold lazyCreate
    simp only [hr, Option.bind_some, hl]
    rfl
  · intro tc htc hg
    refine ⟨get?_filter (fun t => decide (t ∉ gens)) dat tc.1 (decide_eq_true hg), ?_⟩
    rw [PyDict.get?_eq_none]
    intro hm
    have hm' : tc.1 ∈ l.map Prod.fst := hm
    rw [hkeys] at hm'
    obtain ⟨tc', h1, h2⟩ := List.mem_map.mp hm'
    have := of_decide_eq_true (List.mem_filter.mp h1).2
    rw [h2] at this
    exact hg this
  · intro tc htc hg
    obtain ⟨s, rs, h1, h2, h3⟩ := hone tc htc hg
    refine ⟨s, rs, ?_, h1, h2, h3⟩
    have hm : some (tc.1, s) ∈ l.map some := by
      rw [← hl']
      exact List.mem_map.mpr ⟨tc, List.mem_filter.mpr ⟨htc, decide_eq_true hg⟩, by rw [h1]; rfl⟩
    obtain ⟨e, he, h4⟩ := List.mem_map.mp hm
    cases h4
    exact PyDict.get?_of_mem hln he

/-! ### csv -/

section Csv
variable (env : TextEnv) (cenv : CaseEnv) (cf : IOConf) (dv : Defaults) (policy : DupPolicy) (headers : Bool)
  (schema : List (String × TabClass)) (gens : List String)

theorem csv_probe (dir : PyDict (List Char) CsvFile) (tc : String × TabClass) (x : Option TableIn)
    (h : csvFind env cenv cf dv headers dir tc = some x) (hg : ∀ y, x = some y → lazyGood tc.2 y = true) :
    ∃ s, csvProbe env cenv cf dv headers dir tc = some s ∧ csvLazyRows env cenv cf dv headers dir tc s = foundRows tc.2 x := by
  unfold csvFind at h
  unfold csvProbe
  cases hp : csvFilePath cenv (PyDict.keys dir) tc.1.toList with
  | none => rw [hp] at h; cases h
  | some path =>
    rw [hp] at h
    cases path with
    | none =>
      cases h
      exact ⟨none, rfl, rfl⟩
    | some f =>
      simp only [Option.bind_some, Option.map_eq_some_iff] at h ⊢
      obtain ⟨y, hy, hx⟩ := h
      have hgood : lazyGood tc.2 y = true ∧ (y.size = 0 → lazyRows tc.2 (some y) = some []) := by
        by_cases hz : y.size = 0
        · have hi : y.iter = [] := by
            cases y with
            | seq rows => exact List.length_eq_zero_iff.mp hz
            | dict d =>
              have hd : d = [] := List.length_eq_zero_iff.mp hz
              subst hd
              rfl
          exact ⟨by simp [lazyGood, goodRows, hi], fun _ => by simp [lazyRows, hi]⟩
        · rw [if_neg hz] at hx
          exact ⟨hg y hx.symm, fun h => absurd h hz⟩
      refine ⟨some f, by rw [hy]; simp [hgood.1], ?_⟩
      simp only [csvLazyRows, hy]
      by_cases hz : y.size = 0
      · rw [if_pos hz] at hx
        subst hx
        exact hgood.2 hz
      · rw [if_neg hz] at hx
        subst hx
        rfl

/-- **C75, csv.**  If the directory can be read with all tables in memory, it can be read with any tables without primary
key as generator tables: the other tables are the same, and iterating over a generator table gives the rows that would be
in memory. -/
theorem csv_generators_read (hn : (schema.map Prod.fst).Nodup) (hpk : ∀ tc ∈ schema, tc.1 ∈ gens → tc.2.pks = [])
    (dir : PyDict (List Char) CsvFile) (dat : PyDict String TabVal)
    (h : csvCreate env cenv cf dv policy headers schema dir = some dat) :
    ∃ obj, csvLazyCreate env cenv cf dv policy headers gens schema dir = some obj ∧
      (∀ tc ∈ schema, tc.1 ∉ gens → PyDict.get? obj.eager tc.1 = PyDict.get? dat tc.1) ∧
      ∀ tc ∈ schema, tc.1 ∈ gens → ∃ src rows, PyDict.get? obj.lazy tc.1 = some src ∧
        csvLazyRows env cenv cf dv headers dir tc src = some rows ∧ PyDict.get? dat tc.1 = some (.plain rows) := by
  obtain ⟨obj, h1, h2, h3⟩ := lazy_read env cf.params policy schema hn gens hpk (csvFind env cenv cf dv headers dir)
    (csvProbe env cenv cf dv headers dir) (csvLazyRows env cenv cf dv headers dir)
    (fun tc x hx hg => csv_probe env cenv cf dv headers dir tc x hx hg) dat h
  refine ⟨obj, h1, fun tc htc hg => (h2 tc htc hg).1, ?_⟩
  intro tc htc hg
  obtain ⟨s, rs, h4, _, h5, h6⟩ := h3 tc htc hg
  exact ⟨s, rs, h4, h5, h6⟩

/-- What the function of a generator table remembers: the path of its file, or that there was none. -/
theorem csv_generator_path (dir : PyDict (List Char) CsvFile) (obj : LazyObj (Option (List Char)))
    (h : csvLazyCreate env cenv cf dv policy headers gens schema dir = some obj) (t : String) (src : Option (List Char))
    (hs : PyDict.get? obj.lazy t = some src) : csvFilePath cenv (PyDict.keys dir) t.toList = some src ∧ t ∈ gens := by
  unfold csvLazyCreate lazyCreate at h
  simp only [Option.bind_eq_some_iff, Option.map_eq_some_iff] at h
  obtain ⟨e, _, l, hl, rfl⟩ := h
  rw [mapM_eq_some_iff] at hl
  have hm := List.mem_map_of_mem (f := some) (PyDict.get?_mem hs)
  rw [← hl] at hm
  obtain ⟨tc, h1, h2⟩ := List.mem_map.mp hm
  simp only [Option.map_eq_some_iff, Prod.mk.injEq] at h2
  obtain ⟨s, h3, rfl, rfl⟩ := h2
  refine ⟨?_, of_decide_eq_true (List.mem_filter.mp h1).2⟩
  unfold csvProbe at h3
  cases hp : csvFilePath cenv (PyDict.keys dir) tc.1.toList with
  | none => rw [hp] at h3; cases h3
  | some path =>
    rw [hp] at h3
    cases path with
    | none => cases h3; rfl
    | some f =>
      simp only [Option.bind_some, Option.bind_eq_some_iff] at h3
      obtain ⟨x, _, h4⟩ := h3
      split at h4
      · cases h4; rfl
      · cases h4

/-- **C75, csv, later.**  An object that was made some time ago from the directory `dir` when the files were others (`dir0`):
if the file of a generator table has kept its name, iterating gives the rows that reading the directory now would give. -/
theorem csv_generators_present (hn : (schema.map Prod.fst).Nodup) (hpk : ∀ tc ∈ schema, tc.1 ∈ gens → tc.2.pks = [])
    (dir0 dir : PyDict (List Char) CsvFile) (obj : LazyObj (Option (List Char)))
    (h0 : csvLazyCreate env cenv cf dv policy headers gens schema dir0 = some obj) (dat : PyDict String TabVal)
    (h : csvCreate env cenv cf dv policy headers schema dir = some dat) (tc : String × TabClass) (htc : tc ∈ schema)
    (src : Option (List Char)) (hs : PyDict.get? obj.lazy tc.1 = some src)
    (hsame : csvFilePath cenv (PyDict.keys dir) tc.1.toList = csvFilePath cenv (PyDict.keys dir0) tc.1.toList) :
    ∃ rows, csvLazyRows env cenv cf dv headers dir tc src = some rows ∧ PyDict.get? dat tc.1 = some (.plain rows) := by
  obtain ⟨h1, hg⟩ := csv_generator_path env cenv cf dv policy headers schema gens dir0 obj h0 tc.1 src hs
  obtain ⟨obj', h2, _, h3⟩ := csv_generators_read env cenv cf dv policy headers schema gens hn hpk dir dat h
  obtain ⟨src', rows, h4, h5, h6⟩ := h3 tc htc hg
  obtain ⟨h7, _⟩ := csv_generator_path env cenv cf dv policy headers schema gens dir obj' h2 tc.1 src' h4
  rw [hsame, h1] at h7
  cases h7
  exact ⟨rows, h5, h6⟩

/-- Iterating depends only on the present contents of the one file. -/
theorem csv_generators_local (dir dir' : PyDict (List Char) CsvFile) (tc : String × TabClass) (f : List Char)
    (h : PyDict.get? dir f = PyDict.get? dir' f) :
    csvLazyRows env cenv cf dv headers dir tc (some f) = csvLazyRows env cenv cf dv headers dir' tc (some f) := by
  unfold csvLazyRows
  simp only [h]

/-- **C75, csv, files that come and go.**  A generator table whose file has been removed raises where a new reading of the
directory would find it empty, and one that had no file stays empty when the file is there. -/
theorem csv_generators_gone (dir : PyDict (List Char) CsvFile) (tc : String × TabClass) :
    (∀ f, f ∉ PyDict.keys dir → csvLazyRows env cenv cf dv headers dir tc (some f) = none) ∧
      csvLazyRows env cenv cf dv headers dir tc none = some [] := by
  refine ⟨?_, rfl⟩
  intro f hf
  simp [csvLazyRows, lazyRows, (PyDict.get?_eq_none _ _).mpr hf]

/-! #### Writing -/

theorem set_set {K V : Type} [DecidableEq K] (d : PyDict K V) (k : K) (v w : V) :
    PyDict.set (PyDict.set d k v) k w = PyDict.set d k w := by
  induction d with
  | nil => simp [PyDict.set]
  | cons e rest ih =>
    obtain ⟨k', x⟩ := e
    by_cases h : k' = k
    · simp [PyDict.set, h]
    · simp [PyDict.set, h, ih]

theorem csvLazyLoop_const (name : String × TabClass → List Char) (content : String × TabClass → Option CsvFile)
    (s : List (String × TabClass)) (dir : PyDict (List Char) CsvFile) :
    csvLazyLoop name (fun _ tc => content tc) s dir = writeAll name content s dir := by
  induction s generalizing dir with
  | nil => rfl
  | cons tc rest ih =>
    unfold csvLazyLoop writeAll
    cases content tc with
    | none => rfl
    | some v =>
      simp only [Option.bind_some]
      rw [ih, set_set]

theorem writeAll_congr {K V : Type} [DecidableEq K] (name : String × TabClass → K)
    (content content' : String × TabClass → Option V) (s : List (String × TabClass)) (h : ∀ tc ∈ s, content tc = content' tc)
    (dir : PyDict K V) : writeAll name content s dir = writeAll name content' s dir := by
  induction s generalizing dir with
  | nil => rfl
  | cons tc rest ih =>
    unfold writeAll
    rw [h tc List.mem_cons_self]
    congr 1
    funext v
    exact ih (fun tc' h' => h tc' (List.mem_cons_of_mem _ h')) _

/-- **C75, csv, copying.**  An object with generator tables is written into another directory as the object with all tables
in memory is. -/
theorem csv_generators_copy (hn : (schema.map Prod.fst).Nodup) (hpk : ∀ tc ∈ schema, tc.1 ∈ gens → tc.2.pks = [])
    (dir : PyDict (List Char) CsvFile) (dat : PyDict String TabVal)
    (h : csvCreate env cenv cf dv policy headers schema dir = some dat) (obj : LazyObj (Option (List Char)))
    (ho : csvLazyCreate env cenv cf dv policy headers gens schema dir = some obj) (allowOverwrite caseSpace : Bool)
    (target : PyDict (List Char) CsvFile) :
    csvLazyWrite env cenv cf dv allowOverwrite headers caseSpace schema obj (some dir) target =
      csvWrite env cenv cf allowOverwrite headers caseSpace schema dat target := by
  obtain ⟨obj', h1, h2, h3⟩ := lazy_read env cf.params policy schema hn gens hpk (csvFind env cenv cf dv headers dir)
    (csvProbe env cenv cf dv headers dir) (csvLazyRows env cenv cf dv headers dir)
    (fun tc x hx hg => csv_probe env cenv cf dv headers dir tc x hx hg) dat h
  have : obj = obj' := by
    have h1' : csvLazyCreate env cenv cf dv policy headers gens schema dir = some obj' := h1
    rw [ho] at h1'
    exact Option.some.inj h1'
  subst this
  unfold csvLazyWrite csvWrite
  congr 1
  funext _
  simp only [Option.getD_some]
  rw [csvLazyLoop_const]
  apply writeAll_congr
  intro tc htc
  congr 1
  unfold LazyObj.tab
  by_cases hg : tc.1 ∈ gens
  · obtain ⟨s, rs, h4, _, h5, h6⟩ := h3 tc htc hg
    rw [h4, h6]
    simp [h5]
  · obtain ⟨h4, h5⟩ := h2 tc htc hg
    rw [h5, h4]

theorem csvLazyLoop_get (name : String × TabClass → List Char)
    (content : PyDict (List Char) CsvFile → String × TabClass → Option CsvFile) (s : List (String × TabClass))
    (hn : (s.map name).Nodup) (dir dir' : PyDict (List Char) CsvFile) (h : csvLazyLoop name content s dir = some dir') :
    (∀ k, k ∉ s.map name → PyDict.get? dir' k = PyDict.get? dir k) ∧
      ∀ tc ∈ s, ∃ d v, PyDict.get? d (name tc) = some [] ∧ content d tc = some v ∧ PyDict.get? dir' (name tc) = some v := by
  induction s generalizing dir with
  | nil => cases h; exact ⟨fun _ _ => rfl, by simp⟩
  | cons tc rest ih =>
    rw [List.map_cons, List.nodup_cons] at hn
    unfold csvLazyLoop at h
    simp only [Option.bind_eq_some_iff] at h
    obtain ⟨v, hv, h⟩ := h
    obtain ⟨h1, h2⟩ := ih hn.2 _ h
    refine ⟨?_, ?_⟩
    · intro k hk
      rw [List.map_cons, List.mem_cons, not_or] at hk
      have hk' : ¬ name tc = k := fun e => hk.1 e.symm
      rw [h1 k hk.2, PyDict.get?_set, if_neg hk', PyDict.get?_set, if_neg hk']
    · intro tc' htc'
      rcases List.mem_cons.mp htc' with rfl | hin
      · refine ⟨_, v, ?_, hv, ?_⟩
        · rw [PyDict.get?_set, if_pos rfl]
        · rw [h1 _ hn.1, PyDict.get?_set, if_pos rfl]
      · exact h2 tc' hin

theorem csv_header_only (tc : String × TabClass) (hpk : tc.2.pks = []) (lines : CsvFile)
    (h : lines = [] ∨ lines = [tc.2.fields] ∧ headers = true) (rows : List RowVal)
    (hr : lazyRows tc.2 (csvReadTable env cenv cf dv tc.1 tc.2 headers lines) = some rows) : rows = [] := by
  unfold lazyRows at hr
  simp only [Option.bind_eq_some_iff] at hr
  obtain ⟨x, hx, hr⟩ := hr
  unfold csvReadTable at hx
  split at hx
  · cases hx
  · have hp : csvParse cenv (tc.2.fields.map String.toList) headers lines = some [] := by
      rcases h with rfl | ⟨rfl, rfl⟩
      · unfold csvParse; cases headers <;> rfl
      · rfl
    rw [hp] at hx
    simp only [Option.bind_some, List.mapM_nil, Option.pure_def, Option.map_some, Option.some.injEq] at hx
    subst hx
    simp only [readerTable, hpk, ne_eq, not_true_eq_false, if_false, List.map_nil, TableIn.iter, List.mapM_nil, Option.pure_def,
      Option.some.injEq] at hr
    exact hr.symm

/-- **C75, csv, finding.**  Writing an object back into the directory it was read from loses all rows of every generator
table that is written under the name of its file: afterwards the file has no rows, and iterating gives none. -/
theorem csv_generators_overwrite_loses (hpk : ∀ tc ∈ schema, tc.1 ∈ gens → tc.2.pks = []) (caseSpace allowOverwrite : Bool)
    (hnames : (schema.map (fun tc => csvFileName cenv schema caseSpace tc.1)).Nodup)
    (dir0 : PyDict (List Char) CsvFile) (obj : LazyObj (Option (List Char)))
    (ho : csvLazyCreate env cenv cf dv policy headers gens schema dir0 = some obj) (dir dir' : PyDict (List Char) CsvFile)
    (h : csvLazyWrite env cenv cf dv allowOverwrite headers caseSpace schema obj none dir = some dir')
    (tc : String × TabClass) (htc : tc ∈ schema)
    (hs : PyDict.get? obj.lazy tc.1 = some (some (csvFileName cenv schema caseSpace tc.1))) :
    PyDict.get? dir' (csvFileName cenv schema caseSpace tc.1) = some (if headers then [tc.2.fields] else []) ∧
      csvLazyRows env cenv cf dv headers dir' tc (some (csvFileName cenv schema caseSpace tc.1)) = some [] := by
  obtain ⟨_, hg⟩ := csv_generator_path env cenv cf dv policy headers schema gens dir0 obj ho tc.1 _ hs
  have hp := hpk tc htc hg
  unfold csvLazyWrite at h
  simp only [Option.bind_eq_some_iff] at h
  obtain ⟨_, _, h⟩ := h
  obtain ⟨d, v, h1, ⟨tab, h2, h3⟩, h4⟩ := by
    have := (csvLazyLoop_get _ _ schema hnames dir dir' h).2 tc htc
    simpa only [Option.bind_eq_some_iff] using this
  unfold LazyObj.tab at h2
  rw [hs] at h2
  simp only [Option.map_eq_some_iff, Option.getD_none] at h2
  obtain ⟨rows, h5, rfl⟩ := h2
  have h6 : rows = [] := by
    unfold csvLazyRows at h5
    simp only [h1, Option.bind_some] at h5
    exact csv_header_only env cenv cf dv headers tc hp [] (.inl rfl) rows h5
  subst h6
  have hv : v = if headers then [tc.2.fields] else [] := by
    simp only [csvTable, flatRows, List.mapM_nil, Option.pure_def, Option.bind_some, Option.map_some, Option.some.injEq] at h3
    exact h3.symm
  have h7 : ∃ rows, csvLazyRows env cenv cf dv headers dir' tc (some (csvFileName cenv schema caseSpace tc.1)) =
      some rows ∧ rows = [] := by
    unfold csvLazyRows
    simp only [h4, Option.bind_some]
    unfold csvLazyRows at h5
    simp only [h1, Option.bind_some] at h5
    have hne : tc.2.fields ≠ [] := by
      intro e
      simp [csvReadTable, e, lazyRows] at h5
    subst hv
    refine ⟨[], ?_, rfl⟩
    have hpar : csvParse cenv (tc.2.fields.map String.toList) headers (if headers then [tc.2.fields] else []) = some [] := by
      cases headers <;> rfl
    simp [csvReadTable, hne, hpar, lazyRows, readerTable, hp, TableIn.iter]
  obtain ⟨_, h8, rfl⟩ := h7
  exact ⟨by rw [h4, hv], h8⟩

end Csv

/-! ### SQLite -/

section Sql
variable (env : TextEnv) (cenv : CaseEnv) (cf : IOConf) (policy : DupPolicy) (schema : List (String × TabClass))
  (gens : List String)

theorem sql_probe (db : SqlDb) (tc : String × TabClass) (x : Option TableIn)
    (h : sqlFind env cenv cf db tc = some x) (hg : ∀ y, x = some y → lazyGood tc.2 y = true) :
    ∃ s, sqlProbe env cenv cf db tc = some s ∧ sqlLazyRows env cenv cf db tc s = foundRows tc.2 x := by
  unfold sqlFind at h
  unfold sqlProbe
  cases hp : sqlTableName cenv db tc.1 with
  | none => rw [hp] at h; cases h
  | some name =>
    rw [hp] at h
    cases name with
    | none =>
      cases h
      exact ⟨none, rfl, rfl⟩
    | some n =>
      simp only [Option.bind_some, Option.bind_eq_some_iff, Option.map_eq_some_iff] at h
      obtain ⟨rows, h1, rs, h2, rfl⟩ := h
      refine ⟨some n, ?_, ?_⟩
      · simp [h1, h2, hg _ rfl]
      · simp [sqlLazyRows, h1, h2, foundRows]

theorem sql_lazy_read (hn : (schema.map Prod.fst).Nodup) (hpk : ∀ tc ∈ schema, tc.1 ∈ gens → tc.2.pks = []) (db : SqlDb)
    (dat : PyDict String TabVal) (h : sqlCreate env cenv cf policy schema db = some dat) :
    ∃ obj, sqlLazyCreate env cenv cf policy gens schema db = some obj ∧
      (∀ tc ∈ schema, tc.1 ∉ gens → PyDict.get? obj.eager tc.1 = PyDict.get? dat tc.1 ∧ PyDict.get? obj.lazy tc.1 = none) ∧
      ∀ tc ∈ schema, tc.1 ∈ gens → ∃ s rs, PyDict.get? obj.lazy tc.1 = some s ∧ sqlProbe env cenv cf db tc = some s ∧
        sqlLazyRows env cenv cf db tc s = some rs ∧ PyDict.get? dat tc.1 = some (.plain rs) :=
  lazy_read env cf.params policy schema hn gens hpk (sqlFind env cenv cf db) (sqlProbe env cenv cf db)
    (sqlLazyRows env cenv cf db) (fun tc x hx hg => sql_probe env cenv cf db tc x hx hg) dat h

/-- **C75, SQLite.**  As for csv directories. -/
theorem sql_generators_read (hn : (schema.map Prod.fst).Nodup) (hpk : ∀ tc ∈ schema, tc.1 ∈ gens → tc.2.pks = [])
    (db : SqlDb) (dat : PyDict String TabVal) (h : sqlCreate env cenv cf policy schema db = some dat) :
    ∃ obj, sqlLazyCreate env cenv cf policy gens schema db = some obj ∧
      (∀ tc ∈ schema, tc.1 ∉ gens → PyDict.get? obj.eager tc.1 = PyDict.get? dat tc.1) ∧
      ∀ tc ∈ schema, tc.1 ∈ gens → ∃ src rows, PyDict.get? obj.lazy tc.1 = some src ∧
        sqlLazyRows env cenv cf db tc src = some rows ∧ PyDict.get? dat tc.1 = some (.plain rows) := by
  obtain ⟨obj, h1, h2, h3⟩ := sql_lazy_read env cenv cf policy schema gens hn hpk db dat h
  refine ⟨obj, h1, fun tc htc hg => (h2 tc htc hg).1, ?_⟩
  intro tc htc hg
  obtain ⟨s, rs, h4, _, h5, h6⟩ := h3 tc htc hg
  exact ⟨s, rs, h4, h5, h6⟩

/-- **C75, SQLite, writing.**  An object with generator tables is written into a database as the object with all tables in
memory is, also into the database its rows are read from: nothing is lost. -/
theorem sql_generators_write (hn : (schema.map Prod.fst).Nodup) (hpk : ∀ tc ∈ schema, tc.1 ∈ gens → tc.2.pks = [])
    (senv : SqlEnv) (dv : Defaults) (db : SqlDb) (dat : PyDict String TabVal)
    (h : sqlCreate env cenv cf policy schema db = some dat) (obj : LazyObj (Option String))
    (ho : sqlLazyCreate env cenv cf policy gens schema db = some obj) (allowOverwrite : Bool) (target : Option SqlDb) :
    sqlLazyWrite env senv cenv cf dv allowOverwrite schema obj db target =
      sqlWriteDb env senv cenv cf dv allowOverwrite schema dat target := by
  obtain ⟨obj', h1, h2, h3⟩ := sql_lazy_read env cenv cf policy schema gens hn hpk db dat h
  rw [ho] at h1
  cases h1
  unfold sqlLazyWrite sqlWriteDb
  congr 1
  funext d
  split
  · apply writeAll_congr
    intro tc htc
    congr 1
    unfold LazyObj.tab
    by_cases hg : tc.1 ∈ gens
    · obtain ⟨s, rs, h4, _, h5, h6⟩ := h3 tc htc hg
      rw [h4, h6]
      simp [h5]
    · obtain ⟨h4, h5⟩ := h2 tc htc hg
      rw [h5, h4]
  · rfl

end Sql

/-! ### Excel -/

section Xl
variable (env : XlEnv) (cf : IOConf) (dv : Defaults) (policy : DupPolicy) (o : XlOpts) (schema : List (String × TabClass))
  (gens : List String)

theorem xl_probe (book : Book) (tc : String × TabClass) (x : Option TableIn)
    (h : xlFind env cf dv o book tc = some x) (hg : ∀ y, x = some y → lazyGood tc.2 y = true) :
    ∃ s, xlProbe env cf dv o book tc = some s ∧ xlLazyRows env cf dv o (some book) tc s = foundRows tc.2 x := by
  refine ⟨(), ?_, by simp [xlLazyRows, h]⟩
  unfold xlProbe
  rw [h]
  cases x with
  | none => rfl
  | some y => simp [hg y rfl]

/-- **C75, Excel, finding.**  With generator tables nothing is read by default: `treat_inf_as_infinity`, which is the
default, is refused. -/
theorem xl_generators_default_refused (ht : o.treatInf = true) (hg : gens ≠ []) (book : Book) :
    xlLazyCreate env cf dv policy o gens schema book = none := by
  unfold xlLazyCreate
  rw [if_neg]
  cases gens with
  | nil => exact absurd rfl hg
  | cons _ _ => simp [ht]

theorem xl_lazy_read (ht : o.treatInf = false) (hn : (schema.map Prod.fst).Nodup)
    (hpk : ∀ tc ∈ schema, tc.1 ∈ gens → tc.2.pks = []) (book : Book) (dat : PyDict String TabVal)
    (h : xlCreate env cf dv policy o schema book = some dat) :
    ∃ obj, xlLazyCreate env cf dv policy o gens schema book = some obj ∧
      (∀ tc ∈ schema, tc.1 ∉ gens → PyDict.get? obj.eager tc.1 = PyDict.get? dat tc.1 ∧ PyDict.get? obj.lazy tc.1 = none) ∧
      ∀ tc ∈ schema, tc.1 ∈ gens → ∃ s rs, PyDict.get? obj.lazy tc.1 = some s ∧ xlProbe env cf dv o book tc = some s ∧
        xlLazyRows env cf dv o (some book) tc s = some rs ∧ PyDict.get? dat tc.1 = some (.plain rs) := by
  unfold xlCreate at h
  split at h
  · rename_i hs
    obtain ⟨obj, h1, h2, h3⟩ := lazy_read env.text cf.params policy schema hn gens hpk (xlFind env cf dv o book)
      (xlProbe env cf dv o book) (xlLazyRows env cf dv o (some book)) (fun tc x hx hg => xl_probe env cf dv o book tc x hx hg)
      dat h
    refine ⟨obj, ?_, h2, h3⟩
    unfold xlLazyCreate
    rw [if_pos (by simp [hs, ht])]
    exact h1
  · cases h

/-- **C75, Excel.**  As for csv directories, if `treat_inf_as_infinity` is off. -/
theorem xl_generators_read (ht : o.treatInf = false) (hn : (schema.map Prod.fst).Nodup)
    (hpk : ∀ tc ∈ schema, tc.1 ∈ gens → tc.2.pks = []) (book : Book) (dat : PyDict String TabVal)
    (h : xlCreate env cf dv policy o schema book = some dat) :
    ∃ obj, xlLazyCreate env cf dv policy o gens schema book = some obj ∧
      (∀ tc ∈ schema, tc.1 ∉ gens → PyDict.get? obj.eager tc.1 = PyDict.get? dat tc.1) ∧
      ∀ tc ∈ schema, tc.1 ∈ gens → ∃ src rows, PyDict.get? obj.lazy tc.1 = some src ∧
        xlLazyRows env cf dv o (some book) tc src = some rows ∧ PyDict.get? dat tc.1 = some (.plain rows) := by
  obtain ⟨obj, h1, h2, h3⟩ := xl_lazy_read env cf dv policy o schema gens ht hn hpk book dat h
  refine ⟨obj, h1, fun tc htc hg => (h2 tc htc hg).1, ?_⟩
  intro tc htc hg
  obtain ⟨s, rs, h4, _, h5, h6⟩ := h3 tc htc hg
  exact ⟨s, rs, h4, h5, h6⟩

/-- **C75, Excel, later.**  An object made from an earlier state of the file: iterating looks the sheet up again, so the rows
are those that reading the file now would give, whatever has become of the sheets. -/
theorem xl_generators_present (ht : o.treatInf = false) (hn : (schema.map Prod.fst).Nodup)
    (hpk : ∀ tc ∈ schema, tc.1 ∈ gens → tc.2.pks = []) (book0 book : Book) (obj : LazyObj Unit)
    (_h0 : xlLazyCreate env cf dv policy o gens schema book0 = some obj) (dat : PyDict String TabVal)
    (h : xlCreate env cf dv policy o schema book = some dat) (tc : String × TabClass) (htc : tc ∈ schema) (hg : tc.1 ∈ gens)
    (src : Unit) (_hs : PyDict.get? obj.lazy tc.1 = some src) :
    ∃ rows, xlLazyRows env cf dv o (some book) tc src = some rows ∧ PyDict.get? dat tc.1 = some (.plain rows) := by
  obtain ⟨_, _, _, h3⟩ := xl_generators_read env cf dv policy o schema gens ht hn hpk book dat h
  obtain ⟨_, rows, _, h5, h6⟩ := h3 tc htc hg
  exact ⟨rows, h5, h6⟩

theorem writeAll_raises {K V : Type} [DecidableEq K] (name : String × TabClass → K)
    (content : String × TabClass → Option V) (s : List (String × TabClass)) (tc : String × TabClass) (h : tc ∈ s)
    (hc : content tc = none) (dir : PyDict K V) : writeAll name content s dir = none := by
  induction s generalizing dir with
  | nil => cases h
  | cons x rest ih =>
    unfold writeAll
    rcases List.mem_cons.mp h with rfl | h
    · rw [hc]; rfl
    · cases content x with
      | none => rfl
      | some v => exact ih h _

/-- **C75, Excel, finding.**  Writing an object with a generator table over the `.xlsx` file it was read from, with
`allow_overwrite`, raises and destroys the whole file: it is removed before the rows are asked for. -/
theorem xlsx_generators_overwrite_destroys (hs : sheetNamesDiffer (schema.map (fun tc => tc.1.toList)) = true)
    (caseSpace : Bool) (obj : LazyObj Unit) (tc : String × TabClass) (htc : tc ∈ schema)
    (hg : PyDict.get? obj.lazy tc.1 = some ()) (file : Option Book) :
    xlLazyWrite env cf dv o .xlsx true caseSpace schema obj none file = (none, true) := by
  unfold xlLazyWrite
  rw [if_pos (by simp [hs])]
  split
  · rw [writeAll_raises _ _ schema tc htc (by simp [LazyObj.tab, hg, xlLazyRows, xlAtWrite, xlSource])]
    rfl
  · rfl

/-- Without `allow_overwrite` an existing file is left alone. -/
theorem xl_generators_no_overwrite (kind : XlKind) (caseSpace : Bool) (obj : LazyObj Unit) (src : Option Book) (book : Book) :
    xlLazyWrite env cf dv o kind false caseSpace schema obj src (some book) = (some book, true) := by
  unfold xlLazyWrite
  rw [if_neg (by simp)]

/-- **C75, Excel, writing.**  In all other cases - an `.xls` file, or a file other than the one the rows are read from - the
object is written as the object with all tables in memory is. -/
theorem xl_generators_write (ht : o.treatInf = false) (hn : (schema.map Prod.fst).Nodup)
    (hpk : ∀ tc ∈ schema, tc.1 ∈ gens → tc.2.pks = []) (book : Book) (dat : PyDict String TabVal)
    (h : xlCreate env cf dv policy o schema book = some dat) (obj : LazyObj Unit)
    (ho : xlLazyCreate env cf dv policy o gens schema book = some obj) (kind : XlKind) (allowOverwrite caseSpace : Bool)
    (src : Option Book) (file : Option Book)
    (hsrc : src = some book ∨ src = none ∧ kind = .xls ∧ file = some book) (b : Book)
    (hw : xlWrite env cf kind allowOverwrite caseSpace schema dat file = some b) :
    xlLazyWrite env cf dv o kind allowOverwrite caseSpace schema obj src file = (some b, false) := by
  obtain ⟨obj', h1, h2, h3⟩ := xl_lazy_read env cf dv policy o schema gens ht hn hpk book dat h
  rw [ho] at h1
  cases h1
  unfold xlWrite at hw
  split at hw
  · rename_i hc
    simp only [Bool.and_eq_true] at hc
    unfold xlLazyWrite
    rw [if_pos (by simp [hc.1.1.1, hc.1.1.2])]
    have hr : xlSource kind file src = some book := by
      rcases hsrc with rfl | ⟨rfl, rfl, rfl⟩ <;> rfl
    simp only [hr]
    rw [if_pos (by rw [Bool.and_eq_true]; exact ⟨hc.1.2, hc.2⟩)]
    rw [writeAll_congr _ _ (fun tc => (PyDict.get? dat tc.1).bind (xlTable env cf kind tc.1 tc.2)), hw]
    intro tc htc
    congr 1
    unfold LazyObj.tab
    by_cases hg : tc.1 ∈ gens
    · obtain ⟨s, rs, h4, _, h5, h6⟩ := h3 tc htc hg
      rw [h4, h6]
      exact (congrArg (Option.map TabVal.plain) h5).trans rfl
    · obtain ⟨h4, h5⟩ := h2 tc htc hg
      rw [h5, h4]
  · cases hw

end Xl

/-! ### Examples -/

/-- A schema with a table in memory and a generator table. -/
def genFilesSchema : List (String × TabClass) := [("food", ⟨["name"], ["cost"], []⟩), ("log", ⟨[], ["what", "size"], []⟩)]

def genFilesDefaults : Defaults := fun _ f => if f = "cost" ∨ f = "size" then some (.num (.fin 0)) else
  if f = "what" then some (.str "") else none

/-- A directory for it. -/
def genFilesDir : PyDict (List Char) CsvFile :=
  [("food.csv".toList, [["name", "cost"], ["egg", "1"]]),
    ("log.csv".toList, [["size", "what"], ["1", "bought"], ["11", "sold"]])]

def genFilesConf : IOConf := ⟨[], .na, false, []⟩

example : (csvCreate unaryText asciiEnv genFilesConf genFilesDefaults .assert true genFilesSchema genFilesDir).isSome = true := by
  decide +kernel

/-- The object made of the directory, and its rows; after the object has been written into its own directory, and after the
file has been removed. -/
example : ∃ obj dir', csvLazyCreate unaryText asciiEnv genFilesConf genFilesDefaults .assert true ["log"] genFilesSchema
      genFilesDir = some obj ∧
    PyDict.get? obj.lazy "log" = some (some (csvFileName asciiEnv genFilesSchema false "log")) ∧
    (csvLazyRows unaryText asciiEnv genFilesConf genFilesDefaults true genFilesDir ("log", ⟨[], ["what", "size"], []⟩)
      (some "log.csv".toList)).map List.length = some 2 ∧
    csvLazyWrite unaryText asciiEnv genFilesConf genFilesDefaults true true false genFilesSchema obj none genFilesDir =
      some dir' ∧
    PyDict.get? dir' "log.csv".toList = some [["what", "size"]] ∧
    PyDict.get? dir' "food.csv".toList = PyDict.get? genFilesDir "food.csv".toList ∧
    (genFilesSchema.map (fun tc => csvFileName asciiEnv genFilesSchema false tc.1)).Nodup := by
  refine ⟨_, _, rfl, ?_, ?_, rfl, ?_, ?_, ?_⟩ <;> decide +kernel

/-- The same in an Excel file. -/
def genFilesBook : Book :=
  [("food".toList, [[.str "name", .str "cost"], [.str "egg", .num (.fin 1)]]),
    ("Log".toList, [[.str "size", .str "what"], [.num (.fin 1), .str "bought"], [.num (.fin 2), .str "sold"]])]

example : ∃ obj dat, xlLazyCreate demoXl genFilesConf genFilesDefaults .assert ⟨.xlsx, true, true, false, fun _ => 0⟩ ["log"]
      genFilesSchema genFilesBook = some obj ∧ PyDict.get? obj.lazy "log" = some () ∧
    xlCreate demoXl genFilesConf genFilesDefaults .assert ⟨.xlsx, true, true, false, fun _ => 0⟩ genFilesSchema genFilesBook =
      some dat ∧
    (xlWrite demoXl genFilesConf .xls true false genFilesSchema dat (some genFilesBook)).isSome = true ∧
    xlLazyWrite demoXl genFilesConf genFilesDefaults ⟨.xlsx, true, true, false, fun _ => 0⟩ .xlsx true false genFilesSchema obj
      none (some genFilesBook) = (none, true) := by
  refine ⟨_, _, rfl, by decide +kernel, rfl, by decide +kernel, ?_⟩
  exact xlsx_generators_overwrite_destroys _ _ _ _ _ (by decide +kernel) _ _ ("log", ⟨[], ["what", "size"], []⟩)
    (by decide +kernel) (by decide +kernel) _

/-- The same in a database. -/
def genFilesDb : SqlDb := [("food", [[.str "egg", .num (.fin 1)]]),
  ("log", [[.str "bought", .num (.fin 1)], [.str "sold", .num (.fin 2)]])]

example : (sqlCreate unaryText asciiEnv genFilesConf .assert genFilesSchema genFilesDb).isSome = true ∧
    (sqlLazyCreate unaryText asciiEnv genFilesConf .assert ["log"] genFilesSchema genFilesDb).isSome = true := by
  decide +kernel

end Ticdat

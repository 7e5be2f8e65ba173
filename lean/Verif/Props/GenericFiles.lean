import Verif.Spec.GenericFiles
import Verif.Props.AsDict
import Verif.Props.CsvTable
import Verif.Props.Frame
/-!
# C76: generic tables in files
-/
namespace Ticdat
open Spec
set_option linter.unusedSimpArgs false

theorem columnNames_eq {v : Frame} {names : List String} (h : v.cols = names.map .name) : columnNames v = names := by
  unfold columnNames
  rw [h, List.filterMap_map]
  induction names with
  | nil => rfl
  | cons a l ih =>
    rw [List.filterMap_cons]
    simp [Function.comp_def, Label.text]

theorem labelNames (names : List String) : (names.map Label.name).mapM Label.text = some names := by
  rw [mapM_eq_some_iff, List.map_map]
  rfl

theorem goodDecl_names (cenv : CaseEnv) (names : List String) (hne : names ≠ [])
    (hn : ((names.map String.toList).map cenv.lower).Nodup) : goodDecl cenv (.fields [] names) = true := by
  have h1 : names.Nodup := nodup_of_map _ (nodup_of_map _ hn)
  rw [List.map_map] at hn
  simp only [goodDecl, List.nil_append, Bool.and_eq_true, decide_eq_true_eq]
  exact ⟨⟨hne, h1⟩, hn⟩

theorem withDefaults_self (v : Frame) (defaults : PyDict String Cell) (h : ∀ p ∈ defaults, v.has p.1 = true) :
    v.withDefaults defaults = v := by
  unfold Frame.withDefaults
  induction defaults with
  | nil => rfl
  | cons p rest ih =>
    rw [List.foldl_cons]
    have : v.addCol p.1 p.2 = v := by
      unfold Frame.addCol
      rw [if_pos (h p List.mem_cons_self)]
    rw [this]
    exact ih (fun q hq => h q (List.mem_cons_of_mem _ hq))

theorem columns_zip (names : List String) (hn : names.Nodup) (cells : List Cell) (hl : cells.length = names.length) (v : Frame)
    (hv : v.cols = names.map .name) :
    names.mapM (fun f => (v.cell cells (.name f)).map (fun x => (f, x))) = some (names.zip cells) := by
  have hk : PyDict.keys ((names.map Label.name).zip cells) = names.map Label.name := by
    unfold PyDict.keys
    exact List.map_fst_zip (by simp [hl])
  have hln : (names.map Label.name).Nodup := by
    unfold List.Nodup
    rw [List.pairwise_map]
    exact List.Pairwise.imp (fun h e => h (by injection e)) hn
  rw [mapM_eq_some_iff]
  apply List.ext_getElem?
  intro i
  rw [List.getElem?_map, List.getElem?_map]
  cases hf : names[i]? with
  | none =>
    have : (names.zip cells)[i]? = none := by
      rw [List.getElem?_eq_none_iff] at hf ⊢
      simp; omega
    rw [this]; rfl
  | some f =>
    have hlt : i < cells.length := by
      have := (List.getElem?_eq_some_iff.mp hf).1
      omega
    have hz : (names.zip cells)[i]? = some (f, cells[i]) := by
      rw [List.getElem?_zip_eq_some]
      exact ⟨hf, List.getElem?_eq_getElem hlt⟩
    have hc : v.cell cells (.name f) = some cells[i] := by
      unfold Frame.cell
      rw [hv, PyDict.ofList_of_nodup _ (by rw [hk]; exact hln)]
      refine PyDict.get?_of_mem (by rw [hk]; exact hln) ?_
      refine List.mem_of_getElem? (i := i) ?_
      rw [List.getElem?_zip_eq_some]
      exact ⟨by simp [hf], List.getElem?_eq_getElem hlt⟩
    rw [hz, Option.map_some, Option.map_some, hc]
    rfl

/-- The DataFrame of a generic table as a table with these columns. -/
theorem initFrame_generic (v : Frame) (names : List String) (hv : HasColumns v names) (hn : names.Nodup)
    (hname : "name" ∉ names) :
    initFrame ⟨[], names, zeros names⟩ v = some (.plain (frameRows v)) := by
  have hhas : ∀ f ∈ names, v.has f = true := by
    intro f hf
    unfold Frame.has
    rw [decide_eq_true_eq, hv.1]
    exact List.mem_map.mpr ⟨f, hf, rfl⟩
  have hd : v.withDefaults (zeros names) = v := by
    refine withDefaults_self v _ (fun p hp => ?_)
    obtain ⟨f, hf, rfl⟩ := List.mem_map.mp hp
    exact hhas f hf
  have hg : frameGood ⟨[], names, zeros names⟩ v = true := by
    unfold frameGood
    simp [hname]
    exact hhas
  unfold initFrame
  simp only [hd, hg, if_true, ne_eq, not_true_eq_false, if_false]
  have : v.rows.mapM (fun r => (frameData ⟨[], names, zeros names⟩ v r.2).bind (fun d =>
      initRow ⟨[], names, zeros names⟩ (.dict d))) = some (frameRows v) := by
    unfold frameRows
    rw [columnNames_eq hv.1]
    apply mapM_eq_map
    intro r hr
    unfold frameData
    simp only [columns_zip names hn r.2 (hv.2 r hr) v hv.1, Option.bind_some]
    refine initRow_self ⟨[], names, zeros names⟩ hn _ ?_
    unfold PyDict.keys
    exact List.map_fst_zip (by simp [hv.2 r hr])
  rw [this]
  rfl

theorem frameRows_shape (v : Frame) (names : List String) (hv : HasColumns v names) :
    WellShaped ⟨[], names, zeros names⟩ (.plain (frameRows v)) := by
  refine ⟨rfl, ?_⟩
  intro row hrow
  obtain ⟨r, hr, rfl⟩ := List.mem_map.mp hrow
  rw [columnNames_eq hv.1]
  unfold PyDict.keys
  exact List.map_fst_zip (by simp [hv.2 r hr])

theorem freeTab_plain (c : TabClass) (hn : (c.pks ++ c.dfs).Nodup) (v : TabVal) (hv : WellShaped c v) :
    freeTab ⟨c.pks, c.dfs, zeros c.dfs⟩ (.tab v) = some v := by
  have hv' : WellShaped ⟨c.pks, c.dfs, zeros c.dfs⟩ v := by
    cases v <;> exact hv
  obtain ⟨x, h1, h2, _⟩ := init_of_shape ⟨c.pks, c.dfs, zeros c.dfs⟩ hn v hv' (fun _ => .other)
  have : x = v.asInput := by
    cases v with
    | keyed d =>
      simp only [asDictTable] at h1
      split at h1
      · cases h1; rfl
      · cases h1
    | plain rows =>
      simp only [asDictTable] at h1
      split at h1
      · cases h1
      · cases h1; rfl
  subst this
  exact h2

namespace Spec

/-- An object without generator tables that can be written: its tables have the shapes of the schema, and generic tables
can be written. -/
structure FreeOK (cenv : CaseEnv) (kinds : List (String × TabKind)) (obj : PyDict String OutTab) : Prop where
  names : (kinds.map Prod.fst).Nodup
  fields : ∀ tk ∈ kinds, KindOK tk.2
  noGen : ∀ tk ∈ kinds, tk.2.isGenerator = false
  shape : DatShape kinds obj
  frames : ∀ tk ∈ kinds, ∀ v, PyDict.get? obj tk.1 = some (.frame v) → Writable cenv v

/-- The tables that are written, with what is written for them. -/
def written (kinds : List (String × TabKind)) (obj : PyDict String OutTab) : List (String × TabClass × TabVal) :=
  kinds.filterMap (fun tk => ((PyDict.get? obj tk.1).bind (writtenAs tk.2)).map (fun p => (tk.1, p)))

end Spec

theorem freeClass_eq {cenv : CaseEnv} {k : TabKind} {v : OutTab} (hg : k.isGenerator = false) (hs : KindShape k v)
    (hf : ∀ u, v = .frame u → Writable cenv u) : freeClass cenv k v = some ((writtenAs k v).map Prod.fst) := by
  cases k with
  | generator c => cases hg
  | plain c => cases v with
    | tab v => rfl
    | frame v => exact hs.elim
    | gen c rows => exact hs.elim
  | generic => cases v with
    | tab v => exact hs.elim
    | gen c rows => exact hs.elim
    | frame v =>
      rcases hf v rfl with h | ⟨names, h1, h2, h3, h4⟩
      · simp [freeClass, writtenAs, h]
      · by_cases hr : v.rows = []
        · simp [freeClass, writtenAs, hr]
        · simp only [freeClass, writtenAs, if_neg hr, Option.map_some, columnNames_eq h1.1]
          rw [h1.1, labelNames, Option.bind_some, if_pos (goodDecl_names cenv names h2 h3)]

theorem freeTab_eq {cenv : CaseEnv} {k : TabKind} {v : OutTab} (hk : KindOK k) (hs : KindShape k v)
    (hf : ∀ u, v = .frame u → Writable cenv u) {c : TabClass} {tab : TabVal} (h : writtenAs k v = some (c, tab)) :
    freeTab c v = some tab ∧ WellShaped c tab := by
  cases k with
  | generator c => cases v <;> cases h
  | plain c => cases v with
    | tab u =>
      simp only [writtenAs, Option.some.injEq, Prod.mk.injEq] at h
      obtain ⟨rfl, rfl⟩ := h
      exact ⟨freeTab_plain c hk.1 u hs, by cases u <;> exact hs⟩
    | frame v => exact hs.elim
    | gen c rows => exact hs.elim
  | generic => cases v with
    | tab v => exact hs.elim
    | gen c rows => exact hs.elim
    | frame v =>
      rcases hf v rfl with h' | ⟨names, h1, h2, h3, h4⟩
      · simp [writtenAs, h'] at h
      · by_cases hr : v.rows = []
        · simp [writtenAs, hr] at h
        · simp only [writtenAs, if_neg hr, columnNames_eq h1.1, Option.some.injEq, Prod.mk.injEq] at h
          obtain ⟨rfl, rfl⟩ := h
          exact ⟨initFrame_generic v names h1 (nodup_of_map _ (nodup_of_map _ h3)) h4, frameRows_shape v names h1⟩

theorem freeSchema_eq (cenv : CaseEnv) (obj : PyDict String OutTab) (kinds : List (String × TabKind))
    (h : ∀ tk ∈ kinds, ∃ v, PyDict.get? obj tk.1 = some v ∧ freeClass cenv tk.2 v = some ((writtenAs tk.2 v).map Prod.fst)) :
    freeSchema cenv obj kinds = some ((written kinds obj).map (fun p => (p.1, p.2.1))) := by
  induction kinds with
  | nil => rfl
  | cons tk rest ih =>
    obtain ⟨v, h1, h2⟩ := h tk List.mem_cons_self
    rw [freeSchema, h1, Option.bind_some, h2, Option.bind_some, ih (fun tk' h' => h tk' (List.mem_cons_of_mem _ h')),
      Option.map_some]
    unfold written
    rw [List.filterMap_cons, h1, Option.bind_some]
    cases writtenAs tk.2 v <;> rfl

theorem written_mem {kinds : List (String × TabKind)} {obj : PyDict String OutTab} {p : String × TabClass × TabVal}
    (h : p ∈ written kinds obj) : ∃ tk ∈ kinds, ∃ v, PyDict.get? obj tk.1 = some v ∧ writtenAs tk.2 v = some p.2 ∧ p.1 = tk.1 := by
  obtain ⟨tk, htk, h1⟩ := List.mem_filterMap.mp h
  cases hv : PyDict.get? obj tk.1 with
  | none => rw [hv] at h1; cases h1
  | some v =>
    rw [hv, Option.bind_some] at h1
    cases hw : writtenAs tk.2 v with
    | none => rw [hw] at h1; cases h1
    | some q =>
      rw [hw] at h1
      cases h1
      exact ⟨tk, htk, v, hv, hw, rfl⟩

theorem written_of {kinds : List (String × TabKind)} {obj : PyDict String OutTab} {tk : String × TabKind} (htk : tk ∈ kinds)
    {v : OutTab} (hv : PyDict.get? obj tk.1 = some v) {q : TabClass × TabVal} (hq : writtenAs tk.2 v = some q) :
    (tk.1, q) ∈ written kinds obj :=
  List.mem_filterMap.mpr ⟨tk, htk, by rw [hv, Option.bind_some, hq]; rfl⟩

theorem written_names_sub (kinds : List (String × TabKind)) (obj : PyDict String OutTab) :
    List.Sublist ((written kinds obj).map Prod.fst) (kinds.map Prod.fst) := by
  unfold written
  induction kinds with
  | nil => exact List.Sublist.slnil
  | cons tk rest ih =>
    rw [List.filterMap_cons, List.map_cons]
    cases (PyDict.get? obj tk.1).bind (writtenAs tk.2) with
    | none => exact ih.cons _
    | some q => exact ih.cons_cons _

theorem Spec.FreeOK.get {cenv : CaseEnv} {kinds : List (String × TabKind)} {obj : PyDict String OutTab} (h : FreeOK cenv kinds obj)
    {tk : String × TabKind} (htk : tk ∈ kinds) : ∃ v, PyDict.get? obj tk.1 = some v ∧ KindShape tk.2 v := by
  have : tk.1 ∈ PyDict.keys obj := by rw [h.shape.1]; exact List.mem_map.mpr ⟨tk, htk, rfl⟩
  cases hv : PyDict.get? obj tk.1 with
  | none => exact absurd this ((PyDict.get?_eq_none _ _).mp hv)
  | some v => exact ⟨v, rfl, h.shape.2 tk htk v hv⟩

/-- **C76, what is written.**  For every object whose generic tables can be written, the new factory has the tables of the
schema with the same fields and each generic table that has rows with its columns as data fields, and the new object has the same
keys, rows and cells.  Empty generic tables are left out. -/
theorem generic_free (cenv : CaseEnv) (kinds : List (String × TabKind)) (obj : PyDict String OutTab)
    (h : FreeOK cenv kinds obj) : createGenericFree cenv kinds obj =
      some ((written kinds obj).map (fun p => (p.1, p.2.1)), (written kinds obj).map (fun p => (p.1, p.2.2))) := by
  unfold createGenericFree
  rw [freeSchema_eq cenv obj kinds (fun tk htk => by
    obtain ⟨v, h1, h2⟩ := h.get htk
    exact ⟨v, h1, freeClass_eq (h.noGen tk htk) h2 (fun u e => h.frames tk htk u (e ▸ h1))⟩), Option.bind_some]
  have : ((written kinds obj).map (fun p => (p.1, p.2.1))).mapM (fun tc =>
      ((PyDict.get? obj tc.1).bind (freeTab tc.2)).map (fun v => (tc.1, v))) =
      some ((written kinds obj).map (fun p => (p.1, p.2.2))) := by
    rw [List.mapM_map]
    apply mapM_eq_map
    intro p hp
    obtain ⟨tk, htk, v, h1, h2, h3⟩ := written_mem hp
    obtain ⟨t, c, tab⟩ := p
    subst h3
    simp only [Function.comp_def, h1, Option.bind_some,
      (freeTab_eq (h.fields tk htk) (h.shape.2 tk htk v h1) (fun u e => h.frames tk htk u (e ▸ h1)) h2).1, Option.map_some]
  rw [this]
  rfl

/-! ### csv directories -/

/-- The lines of a generic table. -/
theorem csv_generic_lines (env : TextEnv) (t : String) (names : List String) (hn : names.Nodup) (v : Frame)
    (hv : HasColumns v names) :
    csvTable env newConf t ⟨[], names, zeros names⟩ true (.plain (frameRows v)) =
      some (names :: v.rows.map (fun r => r.2.map env.text)) := by
  unfold csvTable
  rw [flatRows_eq _ hn _ (frameRows_shape v names hv), Option.bind_some]
  have : (tabRows (.plain (frameRows v))).mapM (fun row =>
      (mapCells (writeCell env newConf t) (TabClass.fields ⟨[], names, zeros names⟩) row).map (fun vs => vs.map env.text)) =
      some (v.rows.map (fun r => r.2.map env.text)) := by
    simp only [tabRows, frameRows, columnNames_eq hv.1, List.map_map, List.mapM_map]
    apply mapM_eq_map
    intro r hr
    have hs : (names.zip r.2).map Prod.snd = r.2 := List.map_snd_zip (by simp [hv.2 r hr])
    have hm : mapCells (writeCell env newConf t) (TabClass.fields ⟨[], names, zeros names⟩) r.2 = some r.2 := by
      unfold mapCells TabClass.fields
      have : ((names.zip r.2).mapM (fun p => writeCell env newConf t p.1 p.2)) = some ((names.zip r.2).map Prod.snd) := by
        apply mapM_eq_map
        intro p _
        simp [writeCell, newConf]
      rw [hs] at this
      exact this
    simp only [Function.comp_def, hs, hm, Option.map_some]
  rw [this]
  rfl

theorem csv_generic_row (env : TextEnv) (cf : IOConf) (t : String) (names : List String) (r r' : List Cell)
    (h : RowRel names (GenericCell env cf t) r r') :
    ((names.map String.toList).zip ((r.map env.text).map Cell.str)).mapM (fun p =>
      (csvGenericCell env cf t (String.ofList p.1) p.2).map (fun x => (String.ofList p.1, x))) = some (names.zip r') := by
  induction names generalizing r r' with
  | nil => rfl
  | cons f names ih =>
    obtain ⟨h1, h2, h3⟩ := h
    cases r with
    | nil => simp at h1
    | cons x r => cases r' with
      | nil => simp at h2
      | cons y r' =>
        have hc : csvGenericCell env cf t f (.str (env.text x)) = some y := h3 0 f x y rfl rfl rfl
        have := ih r r' ⟨by simpa using h1, by simpa using h2, fun i g a b ha hb hc => h3 (i+1) g a b ha hb hc⟩
        simp only [List.map_cons, List.zip_cons_cons, List.mapM_cons, String.ofList_toList, hc, this]
        rfl

/-- Reading the lines of a generic table. -/
theorem csv_generic_rows (env : TextEnv) (cenv : CaseEnv) (cf : IOConf) (t : String) (names : List String)
    (hn : ((names.map String.toList).map cenv.lower).Nodup) (rows rows' : List (List Cell × List Cell))
    (h : Pairwise2 (fun r r' => r'.1 = [] ∧ RowRel names (GenericCell env cf t) r.2 r'.2) rows rows') :
    csvGenericRows env cenv cf t true (names :: rows.map (fun r => r.2.map env.text)) =
      some (rows'.map (fun r => RowIn.dict (names.zip r.2))) := by
  have hnl := nodup_of_map _ hn
  have hkeys : PyDict.keys (PyDict.ofList (names.map (fun h => (h.toList, ())))) = names.map String.toList := by
    rw [PyDict.ofList_of_nodup]
    · simp [PyDict.keys, List.map_map, Function.comp_def]
    · simpa [PyDict.keys, List.map_map, Function.comp_def] using hnl
  have hlen : ∀ r ∈ rows, r.2.length = names.length := by
    intro r hr
    obtain ⟨i, hi⟩ := List.mem_iff_getElem?.mp hr
    have hl := pairwise2_length h
    have hlt := (List.getElem?_eq_some_iff.mp hi).1
    exact (pairwise2_get h hi (List.getElem?_eq_getElem (by omega : i < rows'.length))).2.1
  unfold csvGenericRows
  simp only [if_true, hkeys]
  have h1 : csvRows cenv (names.map String.toList) (names.map String.toList)
      ((rows.map (fun r => r.2.map env.text)).map (fun l => l.map Cell.str)) =
      some (rows.map (fun r => (names.map String.toList).zip ((r.2.map env.text).map Cell.str))) := by
    unfold csvRows
    rw [List.map_map, List.mapM_map]
    apply mapM_eq_map
    intro r hr
    exact csv_row_own_header cenv _ hn _ (by simp [hlen r hr])
  rw [h1, Option.bind_some]
  clear h1
  induction h with
  | nil => rfl
  | cons hr _ ih =>
    rw [List.map_cons, List.mapM_cons, csv_generic_row env cf t names _ _ hr.2,
      ih (fun r hr => hlen r (List.mem_cons_of_mem _ hr))]
    rfl

theorem frameOfDicts_rows (names : List String) (rows : List (List Cell × List Cell)) (hne : rows ≠ [])
    (h : ∀ r ∈ rows, r.1 = [] ∧ r.2.length = names.length) :
    frameOfDicts (.tab (.seq (rows.map (fun r => RowIn.dict (names.zip r.2))))) = some ⟨[], names.map .name, rows⟩ := by
  have hk : ∀ r ∈ rows, PyDict.keys (names.zip r.2) = names := by
    intro r hr
    unfold PyDict.keys
    exact List.map_fst_zip (by simp [(h r hr).2])
  cases rows with
  | nil => exact absurd rfl hne
  | cons r rest =>
    simp only [List.map_cons, frameOfDicts, hk r List.mem_cons_self]
    have : (RowIn.dict (names.zip r.2) :: rest.map (fun r => RowIn.dict (names.zip r.2))).mapM (RowIn.cellsOf names) =
        some ((r :: rest).map (fun r => r.2)) := by
      rw [← List.map_cons (f := fun r : List Cell × List Cell => RowIn.dict (names.zip r.2)), List.mapM_map]
      apply mapM_eq_map
      intro q hq
      simp only [Function.comp_def, RowIn.cellsOf, hk q hq, if_true]
      rw [List.map_snd_zip (by simp [(h q hq).2])]
    rw [this]
    simp only [Option.map_some, Option.some.injEq, Frame.mk.injEq, true_and]
    rw [List.map_map]
    have : ∀ q ∈ r :: rest, ((fun r : List Cell => (([] : List Cell), r)) ∘ fun r : List Cell × List Cell => r.2) q = q := by
      intro q hq
      exact Prod.ext (h q hq).1.symm rfl
    exact (List.map_congr_left this).trans (by simp)

/-- The constructor on what was gathered. -/
theorem initKinds_of (mk : AttrVal → Option Frame) (policy : DupPolicy) (kinds : List (String × TabKind))
    (hs : (kinds.map Prod.fst).Nodup) (input : PyDict String AttrVal) (obj : PyDict String OutTab)
    (hin : ∀ t ∈ PyDict.keys input, t ∈ kinds.map Prod.fst) (hn : (PyDict.keys input).Nodup)
    (hk : PyDict.keys obj = kinds.map Prod.fst)
    (h : ∀ tk ∈ kinds, ∀ v, PyDict.get? obj tk.1 = some v →
      (PyDict.get? input tk.1 = none ∧ v = emptyAttr tk.2) ∨
        ∃ a, PyDict.get? input tk.1 = some a ∧ initAttr mk tk.2 a = some v ∧ ∀ n, a.len = some n → n ≤ v.len.getD 0) :
    initKinds mk policy kinds input = some obj := by
  have hall : input.all (fun p => decide (p.1 ∈ kinds.map Prod.fst)) = true := by
    rw [List.all_eq_true]
    intro p hp
    rw [decide_eq_true_eq]
    exact hin p.1 (List.mem_map.mpr ⟨p, hp, rfl⟩)
  have hm : kinds.mapM (initKindEntry mk input) = some obj := by
    rw [mapM_eq_some_iff]
    refine map_by_keys obj kinds hs hk _ (fun tk htk v hv => ?_)
    rcases h tk htk v hv with ⟨h1, h2⟩ | ⟨a, h1, h2, _⟩
    · simp [initKindEntry, h1, h2]
    · simp [initKindEntry, h1, h2]
  unfold initKinds
  rw [if_pos hall, hm]
  simp only
  have hl : input.any (lostRows obj) = false := by
    rw [List.any_eq_false]
    intro p hp
    have hp1 : p.1 ∈ kinds.map Prod.fst := hin p.1 (List.mem_map.mpr ⟨p, hp, rfl⟩)
    obtain ⟨tk, htk, e⟩ := List.mem_map.mp hp1
    have hgp : PyDict.get? input p.1 = some p.2 := PyDict.get?_of_mem hn hp
    cases hv : PyDict.get? obj tk.1 with
    | none => exact absurd (by rw [hk]; exact List.mem_map.mpr ⟨tk, htk, rfl⟩) ((PyDict.get?_eq_none _ _).mp hv)
    | some v =>
      rcases h tk htk v hv with ⟨h1, _⟩ | ⟨a, h1, _, h3⟩
      · rw [e, hgp] at h1; cases h1
      · rw [e, hgp] at h1
        cases h1
        unfold lostRows
        rw [← e, hv]
        cases hlen : p.2.len with
        | none => simp
        | some n => simp; exact h3 n hlen
  rw [hl]
  simp

theorem gatherKinds_get (rd : String × TabKind → Option (Option AttrVal)) (kinds : List (String × TabKind))
    (hn : (kinds.map Prod.fst).Nodup) (g : String × TabKind → Option AttrVal) (h : ∀ tk ∈ kinds, rd tk = some (g tk)) :
    ∃ input, gatherKinds rd kinds = some input ∧ (∀ t ∈ PyDict.keys input, t ∈ kinds.map Prod.fst) ∧
      (PyDict.keys input).Nodup ∧ ∀ tk ∈ kinds, PyDict.get? input tk.1 = g tk := by
  induction kinds with
  | nil => exact ⟨[], rfl, by simp [PyDict.keys], by simp [PyDict.keys], by simp⟩
  | cons tk rest ih =>
    obtain ⟨hnot, hn'⟩ := List.nodup_cons.mp hn
    obtain ⟨input, h1, h2, h3, h4⟩ := ih hn' (fun tk' h' => h tk' (List.mem_cons_of_mem _ h'))
    have hnone : PyDict.get? input tk.1 = none := (PyDict.get?_eq_none _ _).mpr (fun hm => hnot (h2 _ hm))
    cases hg : g tk with
    | none =>
      refine ⟨input, by simp [gatherKinds, h tk List.mem_cons_self, hg, h1], fun t ht => List.mem_cons_of_mem _ (h2 t ht), h3, ?_⟩
      intro tk' htk'
      rcases List.mem_cons.mp htk' with rfl | h'
      · rw [hnone, hg]
      · exact h4 tk' h'
    | some a =>
      refine ⟨(tk.1, a) :: input, by simp [gatherKinds, h tk List.mem_cons_self, hg, h1], ?_, ?_, ?_⟩
      · intro t ht
        rcases List.mem_cons.mp ht with rfl | h'
        · exact List.mem_cons_self
        · exact List.mem_cons_of_mem _ (h2 t h')
      · exact List.nodup_cons.mpr ⟨fun hm => hnot (h2 _ hm), h3⟩
      · intro tk' htk'
        rcases List.mem_cons.mp htk' with rfl | h'
        · simp [PyDict.get?, hg]
        · have hne : ¬ tk.1 = tk'.1 := fun e => hnot (e ▸ List.mem_map.mpr ⟨tk', h', rfl⟩)
          simp only [PyDict.get?, if_neg hne]
          exact h4 tk' h'

/-- What the lines of the file of a table are read as. -/
def LinesBack (env : TextEnv) (cenv : CaseEnv) (cf : IOConf) (dv : Defaults) (t : String) (lines : CsvFile) : TabKind → OutTab → Prop
  | .plain c, .tab v => WellShaped c v ∧ ∃ x, csvReadTable env cenv cf dv t c true lines = some x ∧ initTable c x = some v ∧
      x.size = v.size
  | .generic, .frame v => ∃ rows, csvGenericRows env cenv cf t true lines = some rows ∧ rows ≠ [] ∧
      frameOfDicts (.tab (.seq rows)) = some v ∧ rows.length = v.rows.length
  | _, _ => False

/-- One table. -/
theorem csv_generic_table (env : TextEnv) (cenv : CaseEnv) (cf : IOConf) (dv : Defaults) (t : String) (k : TabKind)
    (v v' : OutTab) (hs : KindShape k v)
    (hf : ∀ c, k = .plain c → c.fields ≠ [] ∧ ((c.fields.map String.toList).map cenv.lower).Nodup)
    (hw : ∀ u, v = .frame u → Writable cenv u) (hb : ObjectBack env cf dv t k v v') (c : TabClass) (tab : TabVal)
    (h : writtenAs k v = some (c, tab)) :
    ∃ lines, csvTable env newConf t c true tab = some lines ∧ LinesBack env cenv cf dv t lines k v' := by
  cases k with
  | generator c' => cases v <;> cases h
  | plain c' => cases v with
    | frame u => exact hs.elim
    | gen _ _ => exact hs.elim
    | tab u => cases v' with
      | frame u' => exact hb.elim
      | gen _ _ => exact hb.elim
      | tab u' =>
        simp only [writtenAs, Option.some.injEq, Prod.mk.injEq] at h
        obtain ⟨rfl, rfl⟩ := h
        obtain ⟨h1, h2⟩ := hf c' rfl
        obtain ⟨lines, x, h3, h4, h5, h6⟩ := csv_table2 env cenv newConf cf dv t c' true h1 h2 u u' hs hb.1 hb.2
        exact ⟨lines, h3, hb.1, x, h4, h5, h6⟩
  | generic => cases v with
    | tab u => exact hs.elim
    | gen _ _ => exact hs.elim
    | frame u => cases v' with
      | tab u' => exact hb.elim
      | gen _ _ => exact hb.elim
      | frame u' =>
        by_cases hr : u.rows = []
        · simp [writtenAs, hr] at h
        · simp only [writtenAs, if_neg hr, Option.some.injEq, Prod.mk.injEq] at h
          obtain ⟨rfl, rfl⟩ := h
          rcases hw u rfl with h' | ⟨names, h1, h2, h3, h4⟩
          · exact absurd h' hr
          · have hcn := columnNames_eq h1.1
            obtain ⟨hidx, hb⟩ := hb
            rcases hb with hb | ⟨_, hcols, hrows⟩
            · exact absurd hb.1 hr
            · rw [hcn] at hrows ⊢
              have hlen := pairwise2_length hrows
              have hne : u'.rows ≠ [] := by
                intro e
                rw [e] at hlen
                exact hr (List.length_eq_zero_iff.mp hlen.symm)
              refine ⟨_, csv_generic_lines env t names (nodup_of_map _ (nodup_of_map _ h3)) u h1, _,
                csv_generic_rows env cenv cf t names h3 u.rows u'.rows hrows, by simpa using hne, ?_, by simp⟩
              rw [frameOfDicts_rows names u'.rows hne]
              · rw [← h1.1, ← hcols]
                obtain ⟨i, c, r⟩ := u'
                simp only at hidx
                subst hidx
                rfl
              · intro r hr
                obtain ⟨q, _, hq⟩ := pairwise2_mem hrows r hr
                exact ⟨hq.1, hq.2.2.1⟩

/-- The name of the file of a table. -/
def Spec.fileOf (t : String) : List Char := t.toList ++ ".csv".toList

/-- **C76, csv directories.**  Writing an object with generic tables into a directory writes a file for each table without
generic columns and for each generic table with rows, and changes no other file.  Reading the directory gives the same
tables, cell by cell as the cells travel: generic tables keep their columns and rows and lose their index, empty
generic tables come back without columns - if the directory had no file for them. -/
theorem csv_generic_read_back (env : TextEnv) (cenv : CaseEnv) (laws : CaseLaws cenv) (cf : IOConf) (dv : Defaults)
    (policy : DupPolicy) (allowOverwrite : Bool) (kinds : List (String × TabKind))
    (hg : goodTableNames cenv (kinds.map (fun tk => tk.1.toList)) = true)
    (hrt : ∀ tk ∈ kinds, CaseRoundTrip cenv tk.1.toList)
    (hf : ∀ tk ∈ kinds, ∀ c, tk.2 = .plain c → c.fields ≠ [] ∧ ((c.fields.map String.toList).map cenv.lower).Nodup)
    (obj obj' : PyDict String OutTab) (hok : FreeOK cenv kinds obj) (hk' : PyDict.keys obj' = kinds.map Prod.fst)
    (hback : ∀ tk ∈ kinds, ∀ v v', PyDict.get? obj tk.1 = some v → PyDict.get? obj' tk.1 = some v' →
      ObjectBack env cf dv tk.1 tk.2 v v')
    (dir : PyDict (List Char) CsvFile) (hd : (PyDict.keys dir).Nodup)
    (hover : allowOverwrite = true ∨ ∀ tk ∈ kinds, fileOf tk.1 ∉ PyDict.keys dir)
    (hother : ∀ k ∈ PyDict.keys dir, ∀ tk ∈ kinds, csvMatches cenv tk.1.toList k = true → k = fileOf tk.1)
    (hstale : ∀ tk ∈ kinds, ∀ v, PyDict.get? obj tk.1 = some (.frame v) → v.rows = [] → fileOf tk.1 ∉ PyDict.keys dir) :
    ∃ dir', csvWriteGeneric env cenv allowOverwrite true kinds obj dir = some dir' ∧
      (∀ k, (∀ p ∈ written kinds obj, k ≠ fileOf p.1) → PyDict.get? dir' k = PyDict.get? dir k) ∧
      (∀ p ∈ written kinds obj, fileOf p.1 ∈ PyDict.keys dir') ∧
      ∀ dir'', List.Perm dir'' dir' →
        csvCreateKinds env cenv cf dv policy true kinds dir'' = some (postReadKinds env cf.params obj') := by
  have hnames := hok.names
  have hmatch : ∀ tk ∈ kinds, ∀ tk' ∈ kinds,
      (csvMatches cenv tk'.1.toList (fileOf tk.1) = true ↔ tk'.1.toList = tk.1.toList) := by
    intro tk htk tk' htk'
    have := csvMatches_out laws hg false (List.mem_map.mpr ⟨tk, htk, rfl⟩) (hrt tk htk) (List.mem_map.mpr ⟨tk', htk', rfl⟩)
    simpa [tableNameOut, fileOf] using this
  have hinj : ∀ a b : String, fileOf a = fileOf b → a = b := by
    intro a b e
    unfold fileOf at e
    rw [List.append_cancel_right_eq] at e
    exact String.toList_injective e
  have hwn : ((written kinds obj).map Prod.fst).Nodup := List.Nodup.sublist (written_names_sub kinds obj) hnames
  have hget' : ∀ tk ∈ kinds, ∃ v', PyDict.get? obj' tk.1 = some v' := by
    intro tk htk
    have : tk.1 ∈ PyDict.keys obj' := by rw [hk']; exact List.mem_map.mpr ⟨tk, htk, rfl⟩
    cases hv : PyDict.get? obj' tk.1 with
    | none => exact absurd this ((PyDict.get?_eq_none _ _).mp hv)
    | some v => exact ⟨v, rfl⟩
  have hstep : ∀ tc ∈ (written kinds obj).map (fun p => (p.1, p.2.1)), ∃ lines,
      (PyDict.get? ((written kinds obj).map (fun p => (p.1, p.2.2))) tc.1).bind (csvTable env newConf tc.1 tc.2 true) = some lines ∧
        ∀ tk ∈ kinds, tk.1 = tc.1 → ∀ v', PyDict.get? obj' tk.1 = some v' → LinesBack env cenv cf dv tk.1 lines tk.2 v' := by
    intro tc htc
    obtain ⟨p, hp, rfl⟩ := List.mem_map.mp htc
    obtain ⟨tk, htk, v, h1, h2, h3⟩ := written_mem hp
    obtain ⟨t, c, tab⟩ := p
    simp only at h2 h3
    subst h3
    obtain ⟨v', hv'⟩ := hget' tk htk
    obtain ⟨lines, h4, h5⟩ := csv_generic_table env cenv cf dv tk.1 tk.2 v v' (hok.shape.2 tk htk v h1) (hf tk htk)
      (fun u e => hok.frames tk htk u (e ▸ h1)) (hback tk htk v v' h1 hv') c tab h2
    refine ⟨lines, ?_, ?_⟩
    · have : PyDict.get? ((written kinds obj).map (fun p => (p.1, p.2.2))) tk.1 = some tab := by
        refine PyDict.get?_of_mem ?_ (List.mem_map.mpr ⟨_, hp, rfl⟩)
        simpa [PyDict.keys, List.map_map, Function.comp_def] using hwn
      simp only [this, Option.bind_some, h4]
    · intro tk2 htk2 e v2 hv2
      have : tk2 = tk := by
        obtain ⟨i, hi⟩ := List.mem_iff_getElem?.mp htk2
        obtain ⟨j, hj⟩ := List.mem_iff_getElem?.mp htk
        have := getElem?_nodup_inj hnames (i := i) (j := j) (a := tk.1) (by simp [hi]; exact e) (by simp [hj])
        subst this
        rw [hi] at hj
        exact Option.some.inj hj
      subst this
      rw [hv'] at hv2
      cases hv2
      exact h5
  have hfn : (((written kinds obj).map (fun p => (p.1, p.2.1))).map (fun tc => fileOf tc.1)).Nodup := by
    rw [List.map_map]
    have : ((written kinds obj).map Prod.fst).map fileOf =
        (written kinds obj).map ((fun tc : String × TabClass => fileOf tc.1) ∘ fun p => (p.1, p.2.1)) := by
      rw [List.map_map]; rfl
    rw [← this]
    unfold List.Nodup
    rw [List.pairwise_map]
    exact List.Pairwise.imp (fun hne e => hne (hinj _ _ e)) hwn
  obtain ⟨dir', h1, h2, h3, h4⟩ := write_all (fun tc => fileOf tc.1)
    (fun tc => (PyDict.get? ((written kinds obj).map (fun p => (p.1, p.2.2))) tc.1).bind (csvTable env newConf tc.1 tc.2 true)) _
    ((written kinds obj).map (fun p => (p.1, p.2.1))) hfn hstep dir hd
  have h4' : ∀ k, (∀ p ∈ written kinds obj, k ≠ fileOf p.1) → PyDict.get? dir' k = PyDict.get? dir k := by
    intro k hk
    refine h4 k (fun tc htc => ?_)
    obtain ⟨p, hp, rfl⟩ := List.mem_map.mp htc
    exact hk p hp
  have hin : ∀ p ∈ written kinds obj, fileOf p.1 ∈ PyDict.keys dir' := by
    intro p hp
    obtain ⟨lines, h5, _⟩ := h3 (p.1, p.2.1) (List.mem_map.mpr ⟨p, hp, rfl⟩)
    refine Classical.byContradiction (fun hno => ?_)
    rw [(PyDict.get?_eq_none _ _).mpr hno] at h5
    cases h5
  refine ⟨dir', ?_, h4', hin, ?_⟩
  · unfold csvWriteGeneric
    rw [generic_free cenv kinds obj hok, Option.bind_some]
    unfold csvWrite csvWriteFiles
    rw [if_neg, Option.bind_some]
    · exact h1
    · rcases hover with h | h
      · simp [h]
      · simp only [Bool.and_eq_true, not_and, List.any_eq_true]
        rintro _ ⟨t, htm, hc⟩
        obtain ⟨tc, htc, rfl⟩ := List.mem_map.mp htm
        obtain ⟨p, hp, rfl⟩ := List.mem_map.mp htc
        obtain ⟨tk, htk, _, _, _, e⟩ := written_mem hp
        refine h tk htk ?_
        simp only [e] at hc
        simpa [fileOf] using hc
  · intro dir'' hp
    have hkp : List.Perm (PyDict.keys dir'') (PyDict.keys dir') := hp.map Prod.fst
    have hk2 : (PyDict.keys dir'').Nodup := hkp.nodup_iff.mpr h2
    have hget : ∀ k, PyDict.get? dir'' k = PyDict.get? dir' k := by
      intro k
      apply option_ext_some
      intro v
      rw [PyDict.get?_iff_mem hk2, PyDict.get?_iff_mem h2]
      exact hp.mem_iff
    have hkey : ∀ k ∈ PyDict.keys dir'', ∀ tk ∈ kinds, csvMatches cenv tk.1.toList k = true → k = fileOf tk.1 := by
      intro k hk tk htk hm
      by_cases hkn : ∀ p ∈ written kinds obj, k ≠ fileOf p.1
      · have hkd : k ∈ PyDict.keys dir := by
          refine Classical.byContradiction (fun hno => ?_)
          have h11 := h4' k hkn
          rw [(PyDict.get?_eq_none _ _).mpr hno] at h11
          exact (PyDict.get?_eq_none _ _).mp h11 (hkp.mem_iff.mp hk)
        exact hother k hkd tk htk hm
      · obtain ⟨p, hpw, e⟩ : ∃ p ∈ written kinds obj, k = fileOf p.1 :=
          Classical.byContradiction (fun hno => hkn (fun p h e => hno ⟨p, h, e⟩))
        obtain ⟨tk', htk', _, _, _, e'⟩ := written_mem hpw
        rw [e, e'] at hm ⊢
        rw [String.toList_injective ((hmatch tk' htk' tk htk).mp hm)]
    have hpath : ∀ tk ∈ kinds, csvFilePath cenv (PyDict.keys dir'') tk.1.toList =
        some (if fileOf tk.1 ∈ PyDict.keys dir'' then some (fileOf tk.1) else none) := by
      intro tk htk
      unfold csvFilePath
      by_cases hm : fileOf tk.1 ∈ PyDict.keys dir''
      · have : (PyDict.keys dir'').filter (csvMatches cenv tk.1.toList) = [fileOf tk.1] := by
          rw [filter_eq_singleton _ hk2]
          exact ⟨hm, (hmatch tk htk tk htk).mpr rfl, fun k hk hmk => hkey k hk tk htk hmk⟩
        rw [this, if_pos hm]
      · have : (PyDict.keys dir'').filter (csvMatches cenv tk.1.toList) = [] := by
          rw [List.filter_eq_nil_iff]
          intro k hk hmk
          exact hm (hkey k hk tk htk hmk ▸ hk)
        rw [this, if_neg hm]
    have hfind : ∀ tk ∈ kinds, ∀ v', PyDict.get? obj' tk.1 = some v' →
        ∃ a, csvKindFind env cenv cf dv true dir'' tk = some a ∧ ((a = none ∧ v' = emptyAttr tk.2) ∨
          ∃ y, a = some y ∧ initAttr frameOfDicts tk.2 y = some v' ∧ ∀ n, y.len = some n → n ≤ v'.len.getD 0) := by
      intro tk htk v' hv'
      obtain ⟨v, hv, hsh⟩ := hok.get htk
      have hbk := hback tk htk v v' hv hv'
      cases hw : writtenAs tk.2 v with
      | none =>
        obtain ⟨t, k⟩ := tk
        cases k with
        | generator c => exact absurd (hok.noGen _ htk) (by simp [TabKind.isGenerator])
        | plain c => cases v with
          | tab u => cases hw
          | frame u => exact hsh.elim
          | gen _ _ => exact hsh.elim
        | generic => cases v with
          | tab u => exact hsh.elim
          | gen _ _ => exact hsh.elim
          | frame u => cases v' with
            | tab u' => exact hbk.elim
            | gen _ _ => exact hbk.elim
            | frame u' =>
              by_cases hr : u.rows = []
              · obtain ⟨hi, hb⟩ := hbk
                rcases hb with ⟨_, hc, hr'⟩ | hb
                · have hno : fileOf t ∉ PyDict.keys dir'' := by
                    intro hm
                    have hm' := hkp.mem_iff.mp hm
                    have h5 := h4' (fileOf t) (fun p hpw e => by
                      obtain ⟨tk', htk', w, h6, h7, e'⟩ := written_mem hpw
                      have e2 := hinj _ _ e
                      have e3 : t = tk'.1 := by rw [e2, e']
                      have : tk' = (t, .generic) := by
                        obtain ⟨i, hi⟩ := List.mem_iff_getElem?.mp htk'
                        obtain ⟨j, hj⟩ := List.mem_iff_getElem?.mp htk
                        have := getElem?_nodup_inj hnames (i := i) (j := j) (a := t) (by simp [hi]; exact e3.symm) (by simp [hj])
                        subst this
                        rw [hi] at hj
                        exact Option.some.inj hj
                      subst this
                      rw [hv] at h6
                      cases h6
                      rw [hw] at h7
                      cases h7)
                    rw [(PyDict.get?_eq_none dir _).mpr (hstale _ htk u hv hr)] at h5
                    exact (PyDict.get?_eq_none _ _).mp h5 hm'
                  refine ⟨none, ?_, .inl ⟨rfl, ?_⟩⟩
                  · simp only [csvKindFind, hpath _ htk, if_neg hno, Option.bind_some]
                  · obtain ⟨i, c, r⟩ := u'
                    simp only at hi hc hr'
                    subst hi hc hr'
                    rfl
                · exact absurd hr hb.1
              · simp [writtenAs, hr] at hw
      | some q =>
        have hpw := written_of htk hv hw
        have hm : fileOf tk.1 ∈ PyDict.keys dir'' := hkp.mem_iff.mpr (hin _ hpw)
        obtain ⟨lines, h5, h6, h7⟩ := h3 (tk.1, q.1) (List.mem_map.mpr ⟨_, hpw, rfl⟩)
        have hlb := h7 tk htk rfl v' hv'
        obtain ⟨t, k⟩ := tk
        cases k with
        | generator c => exact absurd (hok.noGen _ htk) (by simp [TabKind.isGenerator])
        | plain c => cases v' with
          | frame u => exact hlb.elim
          | gen _ _ => exact hlb.elim
          | tab u =>
            obtain ⟨hws, x, h8, h9, h10⟩ := hlb
            refine ⟨(if x.size = 0 then none else some (.tab x)), ?_, ?_⟩
            · simp only [csvKindFind, csvFind, hpath _ htk, if_pos hm, Option.bind_some, hget, h5, h8, Option.map_some]
              split <;> rfl
            · by_cases hz : x.size = 0
              · exact .inl ⟨if_pos hz, by simp [emptyAttr, emptyTable_of_size c u hws (h10 ▸ hz)]⟩
              · refine .inr ⟨.tab x, if_neg hz, by simp [initAttr, h9], ?_⟩
                intro n hn
                cases hn
                simp [OutTab.len, h10]
        | generic => cases v' with
          | tab u => exact hlb.elim
          | gen _ _ => exact hlb.elim
          | frame u =>
            obtain ⟨rows, h8, h9, h10, h11⟩ := hlb
            refine ⟨some (.tab (.seq rows)), ?_, .inr ⟨_, rfl, by simp [initAttr, h10], ?_⟩⟩
            · simp only [csvKindFind, hpath _ htk, if_pos hm, Option.bind_some, hget, h5, h8, Option.map_some, if_neg h9]
            · intro n hn
              cases hn
              simp [OutTab.len, TableIn.size, h11]
    obtain ⟨input, h5, h6, h7, h8⟩ := gatherKinds_get (csvKindFind env cenv cf dv true dir'') kinds hnames
      (fun tk => (csvKindFind env cenv cf dv true dir'' tk).getD none) (fun tk htk => by
        obtain ⟨v', hv'⟩ := hget' tk htk
        obtain ⟨a, h9, _⟩ := hfind tk htk v' hv'
        rw [h9]
        rfl)
    unfold csvCreateKinds
    rw [h5, Option.bind_some, initKinds_of frameOfDicts policy kinds hnames input obj' h6 h7 hk' (fun tk htk v hv => by
      obtain ⟨a, h9, h10⟩ := hfind tk htk v hv
      have h11 := h8 tk htk
      rw [h9] at h11
      rcases h10 with ⟨rfl, h⟩ | ⟨y, rfl, h12, h13⟩
      · exact .inl ⟨h11, h⟩
      · exact .inr ⟨y, h11, h12, h13⟩)]
    rfl

theorem generic_cell_survives {env : TextEnv} (hT : CsvTextOK env) (cf : IOConf) (hflag : cf.flag = .na) (t f : String)
    (hty : typeOf cf.types t f = none) (x : Cell) (h : GenericSafe env x) : GenericCell env cf t f x x := by
  have hr : ∀ y, readCell env cf t f y = some y := by
    intro y
    unfold readCell
    split
    · rfl
    · rw [at_eq_typeOf, hty]
      simp [hflag]
  unfold GenericCell csvGenericCell
  simp only [hr, Option.map_some]
  cases x with
  | num q =>
    have hne : ¬ Cell.str (env.text (.num q)) = .str "" := by
      intro e
      have h1 := hT.num q
      rw [Cell.str.inj e, hT.empty] at h1
      cases h1
    simp only [if_neg hne, Option.map_some, Bool.false_eq_true, if_false, hT.num, Option.getD_some, Option.bind_some, hr]
    rfl
  | nan =>
    have hne : ¬ Cell.str (env.text .nan) = .str "" := by
      intro e
      have h1 := hT.nan
      rw [Cell.str.inj e, hT.empty] at h1
      cases h1
    simp only [if_neg hne, Option.map_some, Bool.false_eq_true, if_false, hT.nan, Option.getD_some, Option.bind_some, hr]
    rfl
  | str s =>
    have h : env.float s = none := h
    rw [hT.str]
    have hn : Cell.none.numericish = false := rfl
    by_cases he : s = ""
    · subst he
      simp only [if_true, hn, Option.map_some, Bool.false_eq_true, if_false, h, Option.map_none, Option.getD_none,
        Option.bind_some, hr]
    · have he' : ¬ Cell.str s = .str "" := fun e => he (Cell.str.inj e)
      simp only [if_neg he', Option.map_some, Bool.false_eq_true, if_false, h, Option.map_none, Option.getD_none,
        Option.bind_some, hr]
  | none => exact h.elim
  | bool b => exact h.elim
  | dt d => exact h.elim
  | other o => exact h.elim

theorem kind_unique {kinds : List (String × TabKind)} (hn : (kinds.map Prod.fst).Nodup) {a b : String × TabKind}
    (ha : a ∈ kinds) (hb : b ∈ kinds) (e : a.1 = b.1) : a = b := by
  obtain ⟨i, hi⟩ := List.mem_iff_getElem?.mp ha
  obtain ⟨j, hj⟩ := List.mem_iff_getElem?.mp hb
  have := getElem?_nodup_inj hn (i := i) (j := j) (a := b.1) (by simp [hi]; exact e) (by simp [hj])
  subst this
  rw [hi] at hj
  exact Option.some.inj hj

/-- A parameters table in a text file: it is read as some table that the adjustment after reading makes the same again. -/
theorem params_view_one (env : TextEnv) (params : Params) (g : Cell → Cell) (hpar : params ≠ []) (c : TabClass)
    (hf : c.fields.Nodup) (tab : TabVal) (hw : WellShaped c tab) (C : String → Cell → Cell → Prop) (P : Cell → Cell → Prop)
    (hp : ParamEntries P tab)
    (hP : ∀ f f' k v, P k v → C f k k ∧ C f' v (g v) ∧ fixParam env params k (g v) = v) :
    ∃ tab', WellShaped c tab' ∧ TabRel c C tab tab' ∧ (OutTab.tab tab').adjust env params = .tab tab := by
  obtain ⟨dat', h1, h2, h3⟩ := params_view env params g [("parameters", c)] (by simp)
    (fun tc htc => by simp at htc; subst htc; exact hf) [("parameters", tab)] rfl
    (fun tc htc tab' hget => by
      simp at htc; subst htc
      simp [PyDict.get?] at hget
      subst hget; exact hw)
    (fun _ => C) (fun tc htc _ _ hnp => by simp at htc; subst htc; exact absurd ⟨hpar, rfl⟩ hnp) P
    (fun tab' hget _ => by simp [PyDict.get?] at hget; subst hget; exact hp) (fun _ => hP)
  obtain ⟨tab0, tab', h4, h5, _, h6, h7⟩ := h3 ("parameters", c) (by simp)
  simp [PyDict.get?] at h4
  subst h4
  refine ⟨tab', h6, h7, ?_⟩
  cases dat' with
  | nil => cases h5
  | cons p rest =>
    obtain ⟨t, x⟩ := p
    simp [PyDict.keys] at h1
    obtain ⟨rfl, rfl⟩ := h1
    simp [PyDict.get?] at h5
    subst h5
    unfold postRead at h2
    rw [if_neg hpar] at h2
    cases x with
    | keyed d => simp at h2; simp [OutTab.adjust, h2]
    | plain rows => simp at h2; simp [OutTab.adjust, h2]

/-- **C76, round trip.**  For a factory without infinity flag, writing an object with generic tables into a directory and
reading the directory gives the same tables, with the same keys, rows, columns and cells in the same order, and the same
parameters.  What generic tables lose is in `frameBack`: their index, and the columns of empty ones. -/
theorem csv_generic_round_trip (env : TextEnv) (hT : CsvTextOK env) (cenv : CaseEnv) (laws : CaseLaws cenv) (cf : IOConf)
    (hflag : cf.flag = .na) (dv : Defaults) (policy : DupPolicy) (allowOverwrite : Bool)
    (kinds : List (String × TabKind)) (hg : goodTableNames cenv (kinds.map (fun tk => tk.1.toList)) = true)
    (hrt : ∀ tk ∈ kinds, CaseRoundTrip cenv tk.1.toList)
    (hf : ∀ tk ∈ kinds, ∀ c, tk.2 = .plain c → c.fields ≠ [] ∧ ((c.fields.map String.toList).map cenv.lower).Nodup)
    (obj : PyDict String OutTab) (hok : FreeOK cenv kinds obj)
    (hc : ∀ tk ∈ kinds, ∀ c tab, tk.2 = .plain c → PyDict.get? obj tk.1 = some (.tab tab) → ¬ IsParams cf.params tk.1 →
      ∀ f x, HasCell c tab f x → CsvSafe env cf dv tk.1 f x)
    (hp : ∀ tab, PyDict.get? obj "parameters" = some (.tab tab) → cf.params ≠ [] →
      ParamEntries (TextParam env cf.params) tab)
    (hgc : ∀ tk ∈ kinds, ∀ v, PyDict.get? obj tk.1 = some (.frame v) → (∀ r ∈ v.rows, ∀ x ∈ r.2, GenericSafe env x) ∧
      ∀ f, typeOf cf.types tk.1 f = none)
    (dir : PyDict (List Char) CsvFile) (hd : (PyDict.keys dir).Nodup)
    (hover : allowOverwrite = true ∨ ∀ tk ∈ kinds, fileOf tk.1 ∉ PyDict.keys dir)
    (hother : ∀ k ∈ PyDict.keys dir, ∀ tk ∈ kinds, csvMatches cenv tk.1.toList k = true → k = fileOf tk.1)
    (hstale : ∀ tk ∈ kinds, ∀ v, PyDict.get? obj tk.1 = some (.frame v) → v.rows = [] → fileOf tk.1 ∉ PyDict.keys dir) :
    ∃ dir', csvWriteGeneric env cenv allowOverwrite true kinds obj dir = some dir' ∧
      (∀ k, (∀ p ∈ written kinds obj, k ≠ fileOf p.1) → PyDict.get? dir' k = PyDict.get? dir k) ∧
      ∀ dir'', List.Perm dir'' dir' → csvCreateKinds env cenv cf dv policy true kinds dir'' =
        some (obj.map (fun p => (p.1, tableBack p.2))) := by
  -- a table as it is before the adjustment of the parameters
  have hback : ∀ tk ∈ kinds, ∀ v, PyDict.get? obj tk.1 = some v → ∃ v', ObjectBack env cf dv tk.1 tk.2 v v' ∧
      (if cf.params ≠ [] ∧ tk.1 = "parameters" then v'.adjust env cf.params else v') = tableBack v := by
    intro tk htk v hv
    have hsh := hok.shape.2 tk htk v hv
    have hgk := hok.noGen tk htk
    obtain ⟨t, k⟩ := tk
    cases k with
    | generator c => cases hgk
    | plain c => cases v with
      | frame u => exact hsh.elim
      | gen _ _ => exact hsh.elim
      | tab u =>
        have hfn := nodup_of_map _ (nodup_of_map _ (hf _ htk c rfl).2)
        by_cases hpar : cf.params ≠ [] ∧ t = "parameters"
        · obtain ⟨hpar, rfl⟩ := hpar
          obtain ⟨u', h1, h2, h3⟩ := params_view_one env cf.params (textParam env) hpar c hfn u hsh
            (fun f x y => ∃ w, writeCell env newConf "parameters" f x = some w ∧
              csvReadCell env cf dv "parameters" f (.str (env.text w)) = some y)
            (TextParam env cf.params) (hp u hv hpar) (fun f f' k v hkv => by
              refine ⟨?_, ?_, text_param_survives hT.toTextOK cf.params k v hkv⟩
              · obtain ⟨⟨s, rfl⟩, _⟩ := hkv
                refine ⟨.str s, by simp [writeCell, newConf], ?_⟩
                simp [csvReadCell, hpar, readCell, hT.str]
              · refine ⟨v, by simp [writeCell, newConf], ?_⟩
                have : textParam env v = .str (env.text v) := by
                  obtain ⟨_, h⟩ := hkv
                  cases v <;> first | rfl | exact h.elim
                rw [this]
                simp [csvReadCell, hpar, readCell])
          refine ⟨.tab u', ⟨h1, h2⟩, ?_⟩
          rw [if_pos ⟨hpar, rfl⟩, h3]
          rfl
        · refine ⟨.tab u, ⟨hsh, tabRel_refl c hfn u hsh _ (fun f x hx => ?_)⟩, by rw [if_neg hpar]; rfl⟩
          obtain ⟨w, h5, h6⟩ := csv_cell_survives hT cf dv t f x hpar (hc _ htk c u rfl hv hpar f x hx)
          refine ⟨x, by simp [writeCell, newConf], ?_⟩
          have : w = x := by
            have hpar' : ¬ (t = "parameters" ∧ ¬ cf.params = []) := fun h => hpar ⟨h.2, h.1⟩
            simp [writeCell, hpar', hflag] at h5
            exact h5.symm
          rw [this] at h6
          exact h6
    | generic => cases v with
      | tab u => exact hsh.elim
      | gen _ _ => exact hsh.elim
      | frame u =>
        refine ⟨.frame (frameBack u), ?_, by split <;> rfl⟩
        by_cases hr : u.rows = []
        · simp only [frameBack, if_pos hr]
          exact ⟨rfl, .inl ⟨hr, rfl, rfl⟩⟩
        · simp only [frameBack, if_neg hr]
          refine ⟨rfl, .inr ⟨hr, rfl, ?_⟩⟩
          rcases hok.frames _ htk u hv with h' | ⟨names, hn1, _⟩
          · exact absurd h' hr
          · rw [columnNames_eq hn1.1]
            obtain ⟨hsafe, hty⟩ := hgc _ htk u hv
            have : ∀ l : List (List Cell × List Cell), (∀ r ∈ l, r ∈ u.rows) → Pairwise2 (fun r r' => r'.1 = [] ∧
                RowRel names (GenericCell env cf t) r.2 r'.2) l (l.map (fun r => (([] : List Cell), r.2))) := by
              intro l hl
              induction l with
              | nil => exact .nil
              | cons r l ih =>
                refine .cons ⟨rfl, ?_⟩ (ih (fun q hq => hl q (List.mem_cons_of_mem _ hq)))
                have hrm := hl r List.mem_cons_self
                refine ⟨hn1.2 r hrm, hn1.2 r hrm, fun i f x y _ hx hy => ?_⟩
                simp only at hy
                rw [hx] at hy
                cases hy
                exact generic_cell_survives hT cf hflag t f (hty f) x (hsafe r hrm x (List.mem_of_getElem? hx))
            exact this u.rows (fun _ h => h)
  -- the object before the adjustment
  have hobj : ∃ obj' : PyDict String OutTab, PyDict.keys obj' = kinds.map Prod.fst ∧
      (∀ tk ∈ kinds, ∀ v v', PyDict.get? obj tk.1 = some v → PyDict.get? obj' tk.1 = some v' →
        ObjectBack env cf dv tk.1 tk.2 v v') ∧
      postReadKinds env cf.params obj' = obj.map (fun p => (p.1, tableBack p.2)) := by
    have hn := hok.names
    have hk := hok.shape.1
    clear hc hp hgc hstale hother hover hg hrt hf
    have hmem : ∀ p ∈ obj, ∃ v', (∀ tk ∈ kinds, tk.1 = p.1 → ObjectBack env cf dv tk.1 tk.2 p.2 v') ∧
        (if cf.params ≠ [] ∧ p.1 = "parameters" then v'.adjust env cf.params else v') = tableBack p.2 := by
      rintro ⟨t, v⟩ hpo
      have hg := PyDict.get?_of_mem (by rw [hk]; exact hn) hpo
      have : t ∈ kinds.map Prod.fst := by rw [← hk]; exact List.mem_map.mpr ⟨_, hpo, rfl⟩
      obtain ⟨tk, htk, rfl⟩ := List.mem_map.mp this
      obtain ⟨v', h1, h2⟩ := hback tk htk v hg
      refine ⟨v', fun tk' htk' e => ?_, h2⟩
      cases kind_unique hn htk' htk e
      exact h1
    have hlist : ∀ l : List (String × OutTab), (∀ p ∈ l, p ∈ obj) → ∃ l' : List (String × OutTab),
        l'.map Prod.fst = l.map Prod.fst ∧
        (∀ t v', PyDict.get? l' t = some v' → ∃ v, PyDict.get? l t = some v ∧
          ∀ tk ∈ kinds, tk.1 = t → ObjectBack env cf dv tk.1 tk.2 v v') ∧
        postReadKinds env cf.params l' = l.map (fun p => (p.1, tableBack p.2)) := by
      intro l hl
      induction l with
      | nil => exact ⟨[], rfl, fun t v' h => (by cases h), by unfold postReadKinds; split <;> rfl⟩
      | cons p l ih =>
        obtain ⟨l', h1, h2, h3⟩ := ih (fun q hq => hl q (List.mem_cons_of_mem _ hq))
        obtain ⟨v', h4, h5⟩ := hmem p (hl p List.mem_cons_self)
        refine ⟨(p.1, v') :: l', by simp [h1], ?_, ?_⟩
        · intro t w hw
          obtain ⟨t0, v0⟩ := p
          simp only [PyDict.get?] at hw ⊢
          by_cases e : t0 = t
          · rw [if_pos e] at hw ⊢
            cases hw
            exact ⟨v0, rfl, fun tk htk e' => h4 tk htk (e'.trans e.symm)⟩
          · rw [if_neg e] at hw ⊢
            exact h2 t w hw
        · unfold postReadKinds at h3 ⊢
          by_cases hpar : cf.params = []
          · rw [if_pos hpar] at h3 ⊢
            rw [if_neg (fun h => h.1 hpar)] at h5
            rw [h3, h5]
            rfl
          · rw [if_neg hpar] at h3 ⊢
            rw [List.map_cons, List.map_cons, h3]
            congr 1
            by_cases ht : p.1 = "parameters"
            · rw [if_pos ⟨hpar, ht⟩] at h5
              simp only [if_pos ht, h5]
            · rw [if_neg (fun h => ht h.2)] at h5
              simp only [if_neg ht, h5]
    obtain ⟨obj', h1, h2, h3⟩ := hlist obj (fun _ h => h)
    refine ⟨obj', h1.trans hk, ?_, h3⟩
    intro tk htk v v' hv hv'
    obtain ⟨w, h4, h5⟩ := h2 tk.1 v' hv'
    rw [hv] at h4
    cases h4
    exact h5 tk htk rfl
  obtain ⟨obj', hk', hrel, hpost⟩ := hobj
  obtain ⟨dir', h1, h2, _, h4⟩ := csv_generic_read_back env cenv laws cf dv policy allowOverwrite kinds hg hrt hf obj
    obj' hok hk' hrel dir hd hover hother hstale
  refine ⟨dir', h1, h2, fun dir'' hp => ?_⟩
  rw [h4 dir'' hp, hpost]

/-! ### What cannot be written -/

theorem freeSchema_none (cenv : CaseEnv) (obj : PyDict String OutTab) (kinds : List (String × TabKind)) (tk : String × TabKind)
    (htk : tk ∈ kinds) (v : OutTab) (hv : PyDict.get? obj tk.1 = some v) (h : freeClass cenv tk.2 v = none) :
    freeSchema cenv obj kinds = none := by
  induction kinds with
  | nil => cases htk
  | cons a rest ih =>
    rw [freeSchema]
    rcases List.mem_cons.mp htk with rfl | h'
    · rw [hv, Option.bind_some, h]; rfl
    · rw [ih h']
      cases (PyDict.get? obj a.1).bind (freeClass cenv a.2) <;> rfl

theorem freeSchema_mem (cenv : CaseEnv) (obj : PyDict String OutTab) (kinds : List (String × TabKind))
    (s : List (String × TabClass)) (h : freeSchema cenv obj kinds = some s) (tk : String × TabKind) (htk : tk ∈ kinds) (v : OutTab)
    (hv : PyDict.get? obj tk.1 = some v) (c : TabClass) (hc : freeClass cenv tk.2 v = some (some c)) : (tk.1, c) ∈ s := by
  induction kinds generalizing s with
  | nil => cases htk
  | cons a rest ih =>
    rw [freeSchema] at h
    cases ha : (PyDict.get? obj a.1).bind (freeClass cenv a.2) with
    | none => rw [ha] at h; cases h
    | some x =>
      rw [ha, Option.bind_some] at h
      cases hr : freeSchema cenv obj rest with
      | none => rw [hr] at h; cases h
      | some r =>
        rw [hr, Option.map_some] at h
        cases h
        rcases List.mem_cons.mp htk with rfl | h'
        · rw [hv, Option.bind_some, hc] at ha
          cases ha
          exact List.mem_cons_self
        · have := ih r hr h'
          cases x with
          | none => exact this
          | some x => exact List.mem_cons_of_mem _ this

theorem free_tab_none (cenv : CaseEnv) (kinds : List (String × TabKind)) (obj : PyDict String OutTab)
    (tk : String × TabKind) (htk : tk ∈ kinds) (v : OutTab) (hv : PyDict.get? obj tk.1 = some v)
    (h : ∀ c, freeClass cenv tk.2 v = some (some c) → freeTab c v = none) (h' : freeClass cenv tk.2 v ≠ some none) :
    createGenericFree cenv kinds obj = none := by
  unfold createGenericFree
  cases hs : freeSchema cenv obj kinds with
  | none => rfl
  | some s =>
    rw [Option.bind_some]
    cases hc : freeClass cenv tk.2 v with
    | none => rw [freeSchema_none cenv obj kinds tk htk v hv hc] at hs; cases hs
    | some x => cases x with
      | none => exact absurd hc h'
      | some c =>
        have hm := freeSchema_mem cenv obj kinds s hs tk htk v hv c hc
        rw [mapM_none_of hm (by simp only [hv, Option.bind_some, h c hc]; rfl)]
        rfl

/-- Finding: an object with a generic table that has rows and a column called `name` is written to no csv directory and no
SQLite database: the new factory takes no DataFrame for a table with a data field of that name. -/
theorem generic_name_column (cenv : CaseEnv) (kinds : List (String × TabKind)) (obj : PyDict String OutTab) (t : String)
    (htk : (t, TabKind.generic) ∈ kinds) (v : Frame) (hv : PyDict.get? obj t = some (.frame v)) (hr : v.rows ≠ [])
    (hn : Label.name "name" ∈ v.cols) :
    createGenericFree cenv kinds obj = none ∧
      (∀ env ow hd dir, csvWriteGeneric env cenv ow hd kinds obj dir = none) ∧
      ∀ env senv ow db, sqlWriteGeneric env senv cenv ow kinds obj db = none := by
  have key : createGenericFree cenv kinds obj = none := by
    refine free_tab_none cenv kinds obj _ htk _ hv (fun c hc => ?_) ?_
    · simp only [freeClass, if_neg hr] at hc
      cases hm : v.cols.mapM Label.text with
      | none => rw [hm] at hc; cases hc
      | some names =>
        rw [hm, Option.bind_some] at hc
        split at hc
        · cases hc
          have : "name" ∈ names := by
            rw [mapM_eq_some_iff] at hm
            have h1 : some "name" ∈ names.map some := by
              rw [← hm]
              exact List.mem_map.mpr ⟨_, hn, rfl⟩
            obtain ⟨a, ha, e⟩ := List.mem_map.mp h1
            cases e
            exact ha
          show initFrame _ v = none
          unfold initFrame
          rw [if_neg]
          unfold frameGood
          simp [this]
        · cases hc
    · simp only [freeClass, if_neg hr]
      intro e
      cases hm : v.cols.mapM Label.text with
      | none => rw [hm] at e; cases e
      | some names =>
        rw [hm, Option.bind_some] at e
        split at e <;> cases e
  refine ⟨key, fun env ow hd dir => ?_, fun env senv ow db => ?_⟩
  · unfold csvWriteGeneric; rw [key]; rfl
  · unfold sqlWriteGeneric; rw [key]; rfl

/-- Finding: an object with a generic table that has rows and two columns that agree up to case, or a column whose label is
no text, is written to no csv directory and no SQLite database. -/
theorem generic_bad_columns (cenv : CaseEnv) (kinds : List (String × TabKind)) (obj : PyDict String OutTab) (t : String)
    (htk : (t, TabKind.generic) ∈ kinds) (v : Frame) (hv : PyDict.get? obj t = some (.frame v)) (hr : v.rows ≠ [])
    (hn : (∃ n, Label.pos n ∈ v.cols) ∨ ¬ ((columnNames v).map (fun f => cenv.lower f.toList)).Nodup) :
    createGenericFree cenv kinds obj = none ∧
      (∀ env ow hd dir, csvWriteGeneric env cenv ow hd kinds obj dir = none) ∧
      ∀ env senv ow db, sqlWriteGeneric env senv cenv ow kinds obj db = none := by
  have hc : freeClass cenv .generic (.frame v) = none := by
    simp only [freeClass, if_neg hr]
    cases hm : v.cols.mapM Label.text with
    | none => rfl
    | some names =>
      rw [Option.bind_some, if_neg]
      have hm' := (mapM_eq_some_iff _ _ _).mp hm
      rcases hn with ⟨n, hn⟩ | hn
      · have h1 : (none : Option String) ∈ names.map some := by
          rw [← hm']
          exact List.mem_map.mpr ⟨_, hn, rfl⟩
        obtain ⟨a, _, e⟩ := List.mem_map.mp h1
        cases e
      · have : columnNames v = names := by
          unfold columnNames
          have : v.cols.filterMap Label.text = (v.cols.map Label.text).filterMap id := by rw [List.filterMap_map]; rfl
          rw [this, hm', List.filterMap_map]
          induction names with
          | nil => rfl
          | cons a l _ => simp [Function.comp_def]
        rw [this] at hn
        simp [goodDecl, hn]
  have key : createGenericFree cenv kinds obj = none := by
    unfold createGenericFree
    rw [freeSchema_none cenv obj kinds _ htk _ hv hc]
    rfl
  refine ⟨key, fun env ow hd dir => ?_, fun env senv ow db => ?_⟩
  · unfold csvWriteGeneric; rw [key]; rfl
  · unfold sqlWriteGeneric; rw [key]; rfl

/-- Finding: an object of a schema with a generic table and a generator table is written to no csv directory and no SQLite
database: the generator function is passed for a table that is no generator table of the new factory. -/
theorem generic_with_generator (cenv : CaseEnv) (kinds : List (String × TabKind)) (obj : PyDict String OutTab) (t : String)
    (c : TabClass) (htk : (t, TabKind.generator c) ∈ kinds) (c' : TabClass) (rows : List RowIn)
    (hv : PyDict.get? obj t = some (.gen c' rows)) :
    createGenericFree cenv kinds obj = none ∧
      (∀ env ow hd dir, csvWriteGeneric env cenv ow hd kinds obj dir = none) ∧
      ∀ env senv ow db, sqlWriteGeneric env senv cenv ow kinds obj db = none := by
  have key : createGenericFree cenv kinds obj = none :=
    free_tab_none cenv kinds obj _ htk _ hv (fun c hc => rfl) (fun e => by cases e)
  refine ⟨key, fun env ow hd dir => ?_, fun env senv ow db => ?_⟩
  · unfold csvWriteGeneric; rw [key]; rfl
  · unfold sqlWriteGeneric; rw [key]; rfl

theorem writeAll_keeps {K V : Type} [DecidableEq K] (name : String × TabClass → K) (content : String × TabClass → Option V)
    (s : List (String × TabClass)) (dir dir' : PyDict K V) (h : writeAll name content s dir = some dir') (k : K)
    (hk : ∀ tc ∈ s, k ≠ name tc) : PyDict.get? dir' k = PyDict.get? dir k := by
  induction s generalizing dir with
  | nil => cases h; rfl
  | cons tc rest ih =>
    rw [writeAll] at h
    cases hc : content tc with
    | none => rw [hc] at h; cases h
    | some v =>
      rw [hc, Option.bind_some] at h
      rw [ih _ h (fun tc' h' => hk tc' (List.mem_cons_of_mem _ h')), PyDict.get?_set,
        if_neg (fun e => hk tc List.mem_cons_self e.symm)]

/-- Without headers no file with a generic table can be read. -/
theorem csv_generic_needs_headers (env : TextEnv) (cenv : CaseEnv) (cf : IOConf) (dv : Defaults) (policy : DupPolicy)
    (kinds : List (String × TabKind)) (t : String) (htk : (t, TabKind.generic) ∈ kinds) (dir : PyDict (List Char) CsvFile)
    (f : List Char) (hf : csvFilePath cenv (PyDict.keys dir) t.toList = some (some f)) (l : List String) (lines : CsvFile)
    (hl : PyDict.get? dir f = some (l :: lines)) : csvCreateKinds env cenv cf dv policy false kinds dir = none := by
  have h : csvKindFind env cenv cf dv false dir (t, .generic) = none := by
    simp only [csvKindFind, hf, Option.bind_some, hl]
    rfl
  have : gatherKinds (csvKindFind env cenv cf dv false dir) kinds = none := by
    induction kinds with
    | nil => cases htk
    | cons a rest ih =>
      rw [gatherKinds]
      rcases List.mem_cons.mp htk with rfl | h'
      · rw [h]; rfl
      · rw [ih h']
        cases csvKindFind env cenv cf dv false dir a <;> rfl
  unfold csvCreateKinds
  rw [this]
  rfl

example : csvCreateKinds unaryText asciiEnv newConf (fun _ _ => none) .assert false [("raw", .generic)]
    [("raw.csv".toList, [["a"], ["b"]])] = none :=
  csv_generic_needs_headers unaryText asciiEnv newConf _ .assert _ "raw" (by simp) _ "raw.csv".toList (by decide +kernel) ["a"]
    [["b"]] (by decide +kernel)

/-- A number as infinity flag applies to generic tables when they are read, although it is not used when they are written:
numbers that are at least the flag come back as infinity, those that are at most minus the flag as minus infinity. -/
theorem csv_generic_flag {env : TextEnv} (hT : CsvTextOK env) (cf : IOConf) (n : Rat) (hflag : cf.flag = .num n)
    (t f : String) (ht : t ≠ "parameters") (hty : typeOf cf.types t f = none) (q : Rat) :
    (n ≤ q → GenericCell env cf t f (.num (.fin q)) (.num .pinf)) ∧
      (¬ n ≤ q → q ≤ -n → GenericCell env cf t f (.num (.fin q)) (.num .ninf)) ∧
      (¬ n ≤ q → ¬ q ≤ -n → GenericCell env cf t f (.num (.fin q)) (.num (.fin q))) := by
  have hne : ¬ Cell.str (env.text (.num (.fin q))) = .str "" := by
    intro e
    have h1 := hT.num (.fin q)
    rw [Cell.str.inj e, hT.empty] at h1
    cases h1
  unfold GenericCell csvGenericCell
  simp only [if_neg hne, Option.map_some, Bool.false_eq_true, if_false, hT.num, Option.getD_some, Option.bind_some, floatCell]
  unfold readCell
  rw [if_neg ht, at_eq_typeOf, hty]
  simp only [Option.map_none, Option.getD_none, Bool.false_and, Bool.false_eq_true, if_false, hflag]
  have hle : ∀ a b : Rat, XNum.le (.fin a) (.fin b) = decide (a ≤ b) := by
    intro a b
    by_cases h : a ≤ b
    · simp [XNum.le, XNum.lt, h, Rat.not_lt.mpr h]
    · simp [XNum.le, XNum.lt, h, Rat.not_le.mp h]
  simp only [hle]
  refine ⟨fun h => ?_, fun h h' => ?_, fun h h' => ?_⟩
  · simp [h]
  · simp [h, h']
  · simp [h, h']

example : GenericCell unaryText ⟨[], .num 100, true, []⟩ "raw" "Qty" (.num (.fin 100)) (.num .pinf) :=
  (csv_generic_flag unaryText_csv_ok ⟨[], .num 100, true, []⟩ 100 rfl "raw" "Qty" (by decide) rfl 100).1 (by decide)

/-- Finding: an old file of a generic table stays as it is if the table is empty, although overwriting is allowed. -/
theorem csv_generic_stale (env : TextEnv) (cenv : CaseEnv) (allowOverwrite headers : Bool) (kinds : List (String × TabKind))
    (obj : PyDict String OutTab) (hok : FreeOK cenv kinds obj) (t : String) (htk : (t, TabKind.generic) ∈ kinds) (v : Frame)
    (hv : PyDict.get? obj t = some (.frame v)) (hr : v.rows = []) (dir dir' : PyDict (List Char) CsvFile)
    (hw : csvWriteGeneric env cenv allowOverwrite headers kinds obj dir = some dir') :
    PyDict.get? dir' (fileOf t) = PyDict.get? dir (fileOf t) := by
  unfold csvWriteGeneric at hw
  rw [generic_free cenv kinds obj hok, Option.bind_some] at hw
  unfold csvWrite at hw
  cases hcw : csvWriteFiles cenv (PyDict.keys dir) (((written kinds obj).map (fun p => (p.1, p.2.1))).map (fun tc => tc.1.toList))
      allowOverwrite false with
  | none => rw [hcw] at hw; cases hw
  | some x =>
    rw [hcw, Option.bind_some] at hw
    refine writeAll_keeps _ _ _ dir dir' hw _ (fun tc htc e => ?_)
    obtain ⟨p, hp, rfl⟩ := List.mem_map.mp htc
    obtain ⟨tk, htk', w, h1, h2, h3⟩ := written_mem hp
    have e' : t = tk.1 := by
      simp only [csvFileName, tableNameOut, Bool.false_and, Bool.false_eq_true, if_false, fileOf] at e
      rw [List.append_cancel_right_eq] at e
      rw [← h3]
      exact String.toList_injective e
    have := kind_unique hok.names htk' htk e'.symm
    subst this
    rw [hv] at h1
    cases h1
    simp [writtenAs, hr] at h2

/-! ### SQLite -/

/-- No text is a number, for the examples. -/
def noNumbers : SqlEnv := ⟨fun _ => none⟩

/-- Finding: in a database written for an object with generic tables every data field of every table is declared INT, so
text that SQLite reads as a number is stored as that number: a zip code `"007"` is 7. -/
theorem sql_generic_text_becomes_number (env : TextEnv) (senv : SqlEnv) (cenv : CaseEnv) (kinds : List (String × TabKind))
    (obj : PyDict String OutTab) (hok : FreeOK cenv kinds obj) (p : String × TabClass × TabVal) (hp : p ∈ written kinds obj)
    (f : String) (hf : f ∈ p.2.1.dfs) (s : String) (x : XNum) (hs : senv.num s = some x) (keyed : Bool) :
    sqlCell env senv newConf (fun t f => (PyDict.get? ((written kinds obj).map (fun p => (p.1, p.2.1))) t).bind
      (fun c => PyDict.get? c.defaults f)) false keyed p.1 f (.str s) = some (.num x) := by
  obtain ⟨tk, htk, v, h1, h2, h3⟩ := written_mem hp
  have hwn : ((written kinds obj).map Prod.fst).Nodup := List.Nodup.sublist (written_names_sub kinds obj) hok.names
  have hg : PyDict.get? ((written kinds obj).map (fun p => (p.1, p.2.1))) p.1 = some p.2.1 := by
    refine PyDict.get?_of_mem ?_ (List.mem_map.mpr ⟨_, hp, rfl⟩)
    simpa [PyDict.keys, List.map_map, Function.comp_def] using hwn
  have hz : p.2.1.defaults = zeros p.2.1.dfs := by
    obtain ⟨t, c, tab⟩ := p
    obtain ⟨t', k⟩ := tk
    cases k with
    | generator c' => cases v <;> cases h2
    | plain c' => cases v with
      | tab u => cases h2; rfl
      | frame u => cases h2
      | gen _ _ => cases h2
    | generic => cases v with
      | tab u => cases h2
      | gen _ _ => cases h2
      | frame u =>
        simp only [writtenAs] at h2
        split at h2
        · cases h2
        · cases h2; rfl
  have hd : PyDict.get? (zeros p.2.1.dfs) f = some (.num (.fin 0)) := by
    generalize p.2.1.dfs = dfs at hf
    unfold zeros
    induction dfs with
    | nil => cases hf
    | cons a l ih =>
      simp only [List.map_cons, PyDict.get?]
      by_cases e : a = f
      · rw [if_pos e]
      · rw [if_neg e]
        exact ih ((List.mem_cons.mp hf).resolve_left (fun h => e h.symm))
  have haff : sqlAffinity newConf (fun t f => (PyDict.get? ((written kinds obj).map (fun p => (p.1, p.2.1))) t).bind
      (fun c => PyDict.get? c.defaults f)) p.1 f = true := by
    unfold sqlAffinity
    simp only [hg, Option.bind_some, hz, hd]
    simp [newConf, Cell.numericish]
  unfold sqlCell
  have hwc : (if keyed = true then sqlWriteCell env newConf p.1 f (.str s) else some (.str s)) = some (.str s) := by
    split
    · simp [sqlWriteCell, writeCell, newConf]
    · rfl
  rw [hwc, Option.bind_some, haff]
  simp [sqlStore, sqlStoreText, hs]

theorem mapM_zip_cells (names : List String) (cells : List Cell) (hl : cells.length = names.length)
    (g : String → Cell → Option Cell) (h : ∀ f, ∀ x ∈ cells, g f x = some x) :
    mapCells g names cells = some cells ∧
      (names.zip cells).mapM (fun p => (g p.1 p.2).map (fun x => (p.1, x))) = some (names.zip cells) := by
  constructor
  · unfold mapCells
    have : (names.zip cells).mapM (fun p => g p.1 p.2) = some ((names.zip cells).map Prod.snd) := by
      apply mapM_eq_map
      rintro ⟨f, x⟩ hp
      exact h f x (List.of_mem_zip hp).2
    rw [this, List.map_snd_zip (by omega)]
  · have : (names.zip cells).mapM (fun p => (g p.1 p.2).map (fun x => (p.1, x))) = some ((names.zip cells).map id) := by
      apply mapM_eq_map
      rintro ⟨f, x⟩ hp
      simp [h f x (List.of_mem_zip hp).2]
    rw [this, List.map_id]

/-- **C76, SQLite.**  The rows that are written into a SQLite database for a generic table, read back as a generic table by a
factory without infinity flag, are the same DataFrame without its index. -/
theorem sql_generic_table (env : TextEnv) (senv : SqlEnv) (cenv : CaseEnv) (cf : IOConf) (hflag : cf.flag = .na) (dv : Defaults)
    (fromSql : Bool) (t : String) (hty : ∀ f, typeOf cf.types t f = none) (v : Frame) (names : List String) (hv : HasColumns v names)
    (hne : names ≠ []) (hn : names.Nodup) (hr : v.rows ≠ [])
    (hsafe : ∀ r ∈ v.rows, ∀ x ∈ r.2, GenericSqlSafe senv cenv x) :
    ∃ rows dicts, sqlRows env senv newConf dv false t ⟨[], names, zeros names⟩ (.plain (frameRows v)) = some rows ∧
      sqlGenericRows env cenv cf fromSql t (some (names, rows)) = some (some dicts) ∧
      frameOfDicts (.tab (.seq dicts)) = some (frameBack v) := by
  have hrd : ∀ f y, readCell env cf t f y = some y := by
    intro f y
    unfold readCell
    split
    · rfl
    · rw [at_eq_typeOf, hty]
      simp [hflag]
  have hstore : ∀ f x, GenericSqlSafe senv cenv x → sqlCell env senv newConf dv false false t f x = some x := by
    intro f x hx
    unfold sqlCell
    simp only [Bool.false_eq_true, if_false, Option.bind_some]
    cases x with
    | num q => cases q <;> rfl
    | none => rfl
    | str s =>
      have h1 : senv.num s = none := hx.1
      simp only [sqlStore, sqlStoreText, h1, Bool.false_eq_true, if_false, Option.map_some]
      split <;> rfl
    | nan => exact hx.elim
    | bool b => exact hx.elim
    | dt d => exact hx.elim
    | other o => exact hx.elim
  have hread : ∀ f x, GenericSqlSafe senv cenv x → sqlReadCell env cenv cf t f x = some x := by
    intro f x hx
    cases x with
    | num q => exact hrd f _
    | none => exact hrd f _
    | str s =>
      have h2 := hx.2
      have ha := h2 "inf" (by simp)
      have hb := h2 "-inf" (by simp)
      have hc := h2 "true" (by simp)
      have hd := h2 "false" (by simp)
      unfold sqlReadCell
      simp only [ha, hb, hc, hd, or_self, false_and, if_false]
      exact hrd f _
    | nan => exact hx.elim
    | bool b => exact hx.elim
    | dt d => exact hx.elim
    | other o => exact hx.elim
  refine ⟨v.rows.map (fun r => r.2), v.rows.map (fun r => RowIn.dict (names.zip r.2)), ?_, ?_, ?_⟩
  · unfold sqlRows
    rw [flatRows_eq _ hn _ (frameRows_shape v names hv), Option.bind_some]
    have : (tabRows (.plain (frameRows v))).mapM (mapCells (sqlCell env senv newConf dv false
        (TabVal.plain (frameRows v)).isKeyed t) (TabClass.fields ⟨[], names, zeros names⟩)) = some (v.rows.map (fun r => r.2)) := by
      simp only [tabRows, frameRows, columnNames_eq hv.1, List.map_map, List.mapM_map]
      apply mapM_eq_map
      intro r hrm
      have hs : (names.zip r.2).map Prod.snd = r.2 := List.map_snd_zip (by simp [hv.2 r hrm])
      simp only [Function.comp_def, hs]
      exact (mapM_zip_cells names r.2 (hv.2 r hrm) _ (fun f x hx => hstore f x (hsafe r hrm x hx))).1
    rw [this]
    rfl
  · unfold sqlGenericRows
    simp only [if_neg hne]
    have : (v.rows.map (fun r => r.2)).mapM (fun row => ((names.zip row).mapM (fun p =>
        (sqlReadCell env cenv cf t p.1 p.2).map (fun x => (p.1, x)))).map (fun l => RowIn.dict (PyDict.ofList l))) =
        some (v.rows.map (fun r => RowIn.dict (names.zip r.2))) := ?_
    · rw [this]
      rfl
    rw [List.mapM_map]
    apply mapM_eq_map
    intro r hrm
    simp only [Function.comp_def]
    rw [(mapM_zip_cells names r.2 (hv.2 r hrm) _ (fun f x hx => hread f x (hsafe r hrm x hx))).2, Option.map_some,
      PyDict.ofList_of_nodup]
    unfold PyDict.keys
    rw [List.map_fst_zip (by simp [hv.2 r hrm])]
    exact hn
  · have := frameOfDicts_rows names (v.rows.map (fun r => (([] : List Cell), r.2))) (by simpa using hr) (by
      intro r hrm
      obtain ⟨q, hq, rfl⟩ := List.mem_map.mp hrm
      exact ⟨rfl, hv.2 q hq⟩)
    rw [List.map_map] at this
    unfold frameBack
    rw [if_neg hr, hv.1]
    exact this

example : ∃ rows dicts, sqlRows unaryText noNumbers newConf (fun _ _ => none) false "raw" ⟨[], ["a", "b"], zeros ["a", "b"]⟩
      (.plain (frameRows ⟨["i"], [.name "a", .name "b"], [([.none], [.str "x", .num .pinf])]⟩)) = some rows ∧
    sqlGenericRows unaryText asciiEnv newConf false "raw" (some (["a", "b"], rows)) = some (some dicts) ∧
    frameOfDicts (.tab (.seq dicts)) = some ⟨[], [.name "a", .name "b"], [([], [.str "x", .num .pinf])]⟩ :=
  sql_generic_table unaryText noNumbers asciiEnv newConf rfl _ false "raw" (fun _ => rfl) _ ["a", "b"] ⟨rfl, by decide⟩ (by simp)
    (by decide) (by simp) (by
      intro r hr x hx
      simp at hr
      subst hr
      simp at hx
      rcases hx with rfl | rfl
      · exact ⟨rfl, by decide +kernel⟩
      · trivial)

/-- Finding: for an object with an empty generic table no such table is written, and a .sql file without it cannot be read;
a database file without it can. -/
theorem sql_generic_missing (env : TextEnv) (cenv : CaseEnv) (cf : IOConf) (kinds : List (String × TabKind))
    (obj : PyDict String OutTab) (hok : FreeOK cenv kinds obj) (t : String) (htk : (t, TabKind.generic) ∈ kinds) (v : Frame)
    (hv : PyDict.get? obj t = some (.frame v)) (hr : v.rows = []) :
    (∃ schema dat, createGenericFree cenv kinds obj = some (schema, dat) ∧ t ∉ schema.map Prod.fst) ∧
      sqlGenericRows env cenv cf true t none = none ∧ sqlGenericRows env cenv cf false t none = some none := by
  refine ⟨⟨_, _, generic_free cenv kinds obj hok, ?_⟩, rfl, rfl⟩
  intro hm
  rw [List.map_map] at hm
  obtain ⟨p, hp, e⟩ := List.mem_map.mp hm
  obtain ⟨tk, htk', w, h1, h2, h3⟩ := written_mem hp
  have e' : t = tk.1 := by rw [← h3]; exact e.symm
  have := kind_unique hok.names htk' htk e'.symm
  subst this
  rw [hv] at h1
  cases h1
  simp [writtenAs, hr] at h2

/-- Unless overwriting is allowed, nothing is written into a database that has rows in the table of a generic table. -/
theorem sql_generic_no_overwrite (env : TextEnv) (senv : SqlEnv) (cenv : CaseEnv) (kinds : List (String × TabKind))
    (obj : PyDict String OutTab) (hok : FreeOK cenv kinds obj) (p : String × TabClass × TabVal) (hp : p ∈ written kinds obj)
    (db : SqlDb) (rows : List (List Cell)) (hrows : sqlSelect cenv db p.1 = some rows) (hne : rows ≠ []) :
    sqlWriteGeneric env senv cenv false kinds obj (some db) = none := by
  unfold sqlWriteGeneric
  rw [generic_free cenv kinds obj hok, Option.bind_some]
  unfold sqlWriteDb
  simp only [sqlOpen, Option.bind_some]
  refine if_neg ?_
  intro h
  have := List.all_eq_true.mp h (p.1, p.2.1) (List.mem_map.mpr ⟨p, hp, rfl⟩)
  simp [hrows] at this
  exact hne this.2

/-! ### Concrete cases -/

/-- A schema with a table and two generic tables. -/
def roughKinds : List (String × TabKind) :=
  [("food_list", .plain ⟨["food"], ["cost", "kind"], []⟩), ("raw", .generic), ("extra", .generic)]

/-- A DataFrame with an index. -/
def roughFrame : Frame := ⟨["i"], [.name "zip", .name "Qty"], [([.num (.fin 0)], [.str "a", .num (.fin 3)]),
  ([.num (.fin 1)], [.str "", .nan])]⟩

def roughObj : PyDict String OutTab :=
  [("food_list", .tab (.keyed [(.one (.str "milk"), [("cost", .num (.fin 2)), ("kind", .none)])])),
    ("raw", .frame roughFrame), ("extra", .frame ⟨[], [.name "x"], []⟩)]

theorem roughObj_ok : FreeOK asciiEnv roughKinds roughObj where
  names := by decide
  fields := by
    intro tk h
    simp only [roughKinds, List.mem_cons, List.not_mem_nil, or_false] at h
    rcases h with rfl | rfl | rfl
    · exact ⟨by decide, by simp [PyDict.keys]⟩
    · trivial
    · trivial
  noGen := by
    intro tk h
    simp only [roughKinds, List.mem_cons, List.not_mem_nil, or_false] at h
    rcases h with rfl | rfl | rfl <;> rfl
  shape := by
    refine ⟨rfl, ?_⟩
    intro tk h v hv
    simp only [roughKinds, List.mem_cons, List.not_mem_nil, or_false] at h
    rcases h with rfl | rfl | rfl <;> cases hv
    · refine ⟨by simp, by decide, ?_⟩
      intro p hp
      simp at hp
      subst hp
      exact ⟨rfl, rfl⟩
    · trivial
    · trivial
  frames := by
    intro tk h v hv
    simp only [roughKinds, List.mem_cons, List.not_mem_nil, or_false] at h
    rcases h with rfl | rfl | rfl <;> cases hv
    · refine .inr ⟨["zip", "Qty"], ⟨rfl, by decide⟩, by decide, by decide +kernel, by decide⟩
    · exact .inl rfl

example : ∃ dir', csvWriteGeneric unaryText asciiEnv false true roughKinds roughObj [("note.txt".toList, [])] = some dir' ∧
    ∀ dir'', List.Perm dir'' dir' → csvCreateKinds unaryText asciiEnv ⟨[], .na, true, []⟩ csvExampleDefaults .assert true
      roughKinds dir'' = some [("food_list", .tab (.keyed [(.one (.str "milk"), [("cost", .num (.fin 2)), ("kind", .none)])])),
        ("raw", .frame ⟨[], [.name "zip", .name "Qty"], [([], [.str "a", .num (.fin 3)]), ([], [.str "", .nan])]⟩),
        ("extra", .frame ⟨[], [], []⟩)] := by
  obtain ⟨dir', h1, _, h2⟩ := csv_generic_round_trip unaryText unaryText_csv_ok asciiEnv asciiLaws ⟨[], .na, true, []⟩ rfl
    csvExampleDefaults .assert false roughKinds (by decide +kernel) (fun tk _ => asciiRoundTrip _)
    (by
      intro tk h c hc
      simp only [roughKinds, List.mem_cons, List.not_mem_nil, or_false] at h
      rcases h with rfl | rfl | rfl <;> cases hc
      exact ⟨by simp [TabClass.fields], by decide +kernel⟩) roughObj roughObj_ok
    (by
      intro tk h c tab hc htab _ f x hx
      simp only [roughKinds, List.mem_cons, List.not_mem_nil, or_false] at h
      rcases h with rfl | rfl | rfl <;> cases hc
      cases htab
      have hcell : (f = "food" ∧ x = .str "milk") ∨ (f = "cost" ∧ x = .num (.fin 2)) ∨ (f = "kind" ∧ x = .none) := by
        simp only [HasCell, List.mem_cons, List.not_mem_nil, or_false] at hx
        obtain ⟨p, rfl, h⟩ := hx
        rcases h with ⟨i, hf, hi⟩ | h
        · rcases i with _ | i <;> simp [keyCells] at hi hf
          subst hi hf; simp
        · simp only [PyDict.get?] at h
          split at h
          · rename_i e; cases h; exact .inr (.inl ⟨e.symm, rfl⟩)
          · split at h
            · rename_i e; cases h; exact .inr (.inr ⟨e.symm, rfl⟩)
            · cases h
      have hty : ∀ f, typeOf ([] : DataTypes) "food_list" f = none := fun f => rfl
      rcases hcell with ⟨rfl, rfl⟩ | ⟨rfl, rfl⟩ | ⟨rfl, rfl⟩ <;> refine ⟨⟨by simp, ?_⟩, ?_⟩ <;>
        simp [ReadAsIs, FlagSafe, hty, CsvNumField, CsvNullField, csvExampleDefaults, Cell.numericish])
    (fun tab htab => by cases htab)
    (by
      intro tk h v hv
      simp only [roughKinds, List.mem_cons, List.not_mem_nil, or_false] at h
      rcases h with rfl | rfl | rfl <;> cases hv
      · refine ⟨?_, fun _ => rfl⟩
        intro r hr x hx
        simp [roughFrame] at hr
        rcases hr with rfl | rfl <;> simp at hx <;> rcases hx with rfl | rfl
        · show unaryText.float "a" = none
          decide +kernel
        · trivial
        · show unaryText.float "" = none
          decide +kernel
        · trivial
      · exact ⟨by simp, fun _ => rfl⟩)
    [("note.txt".toList, [])] (by simp [PyDict.keys])
    (.inr (by
      intro tk h
      simp only [roughKinds, List.mem_cons, List.not_mem_nil, or_false] at h
      rcases h with rfl | rfl | rfl <;> decide +kernel))
    (by
      intro k hk tk h hm
      simp [PyDict.keys] at hk
      subst hk
      simp only [roughKinds, List.mem_cons, List.not_mem_nil, or_false] at h
      rcases h with rfl | rfl | rfl <;> exact absurd hm (by decide +kernel))
    (by
      intro tk h v hv hr
      simp only [roughKinds, List.mem_cons, List.not_mem_nil, or_false] at h
      rcases h with rfl | rfl | rfl <;> decide +kernel)
  exact ⟨dir', h1, h2⟩

/-- The old rows of `extra.csv` are read back as rows of the empty generic table. -/
example : (csvWriteGeneric unaryText asciiEnv true true roughKinds roughObj
      [("extra.csv".toList, [["y"], ["old"]])]).bind (fun dir' =>
        csvCreateKinds unaryText asciiEnv ⟨[], .na, true, []⟩ csvExampleDefaults .assert true [("extra", .generic)] dir') =
    some [("extra", .frame ⟨[], [.name "y"], [([], [.str "old"])]⟩)] := by rfl

/-- Text that is a number comes back as a number. -/
example : (csvWriteGeneric unaryText asciiEnv true true [("raw", .generic)]
      [("raw", .frame ⟨[], [.name "zip"], [([], [.str (unaryText.text (.num (.fin 2)))])]⟩)] []).bind (fun dir' =>
        csvCreateKinds unaryText asciiEnv ⟨[], .na, true, []⟩ csvExampleDefaults .assert true [("raw", .generic)] dir') =
    some [("raw", .frame ⟨[], [.name "zip"], [([], [.num (.fin 2)])]⟩)] := by rfl

example : createGenericFree asciiEnv [("raw", .generic)] [("raw", .frame ⟨[], [.name "name"], [([], [.str "a"])]⟩)] = none :=
  (generic_name_column asciiEnv _ _ "raw" (by simp) _ rfl (by simp) (by simp)).1

example : createGenericFree asciiEnv [("raw", .generic)]
    [("raw", .frame ⟨[], [.name "Ab", .name "aB"], [([], [.str "a", .str "b"])]⟩)] = none :=
  (generic_bad_columns asciiEnv _ _ "raw" (by simp) _ rfl (by simp) (.inr (by decide +kernel))).1

example : createGenericFree asciiEnv mixedKinds [("items", .tab (.keyed [])), ("log", .gen logClass []),
    ("raw", .frame ⟨[], [], []⟩)] = none :=
  (generic_with_generator asciiEnv mixedKinds _ "log" logClass (by simp [mixedKinds]) logClass [] rfl).1

/-- The numbers SQLite sees in texts, for the example below. -/
def zipNums : SqlEnv := ⟨fun s => if s = "007" then some (.fin 7) else none⟩

/-- A table whose data field holds text (its default value is text), in a schema with a generic table: the zip code is
stored as a number, although it is stored as text for the same schema without the generic table. -/
example : sqlWriteGeneric unaryText zipNums asciiEnv false
      [("shop", .plain ⟨["food"], ["zip"], [("zip", .str "")]⟩), ("raw", .generic)]
      [("shop", .tab (.keyed [(.one (.str "milk"), [("zip", .str "007")])])), ("raw", .frame ⟨[], [], []⟩)] none =
      some [("shop", [[.str "milk", .num (.fin 7)]])] ∧
    sqlWriteDb unaryText zipNums asciiEnv newConf (fun _ _ => some (.str "")) false
      [("shop", ⟨["food"], ["zip"], [("zip", .str "")]⟩)]
      [("shop", .keyed [(.one (.str "milk"), [("zip", .str "007")])])] none =
      some [("shop", [[.str "milk", .str "007"]])] := by
  constructor <;> decide +kernel

example : sqlWriteGeneric unaryText noNumbers asciiEnv false roughKinds roughObj
    (some [("food_list", []), ("raw", [[.str "x", .num (.fin 1)]])]) = none :=
  sql_generic_no_overwrite unaryText noNumbers asciiEnv roughKinds roughObj roughObj_ok
    ("raw", ⟨[], ["zip", "Qty"], zeros ["zip", "Qty"]⟩, .plain (frameRows roughFrame)) (by decide +kernel) _
    [[.str "x", .num (.fin 1)]] (by decide +kernel) (by simp)

/-- With a declared parameter, beside a generic table: the number is read back from its text. -/
example : (csvWriteGeneric unaryText asciiEnv true true
      [("parameters", .plain ⟨["key"], ["value"], []⟩), ("raw", .generic)]
      [("parameters", .tab (.keyed [(.one (.str "gap"), [("value", .num (.fin 2))])])),
        ("raw", .frame ⟨[], [.name "zip"], [([], [.str "a"])]⟩)] []).bind (fun dir' =>
        csvCreateKinds unaryText asciiEnv ⟨[], .na, true, [(.str "gap", (some ⟨true, true, false, .fin 0, .pinf, false, .oneOf [], false, false⟩, .num (.fin 1)))]⟩ (fun _ _ => none) .assert true
          [("parameters", .plain ⟨["key"], ["value"], []⟩), ("raw", .generic)] dir') =
    some [("parameters", .tab (.keyed [(.one (.str "gap"), [("value", .num (.fin 2))])])),
      ("raw", .frame ⟨[], [.name "zip"], [([], [.str "a"])]⟩)] := by rfl

end Ticdat

import Verif.Spec.PanSame
import Verif.Props.SameData
import Verif.Props.GenericFiles
import Verif.Props.PanInit
import Verif.Props.AmplData
import Verif.Props.Implied
/-!
# C78: comparing and copying `PanDat` objects
-/
namespace Ticdat
open Spec

set_option linter.unusedSectionVars false
set_option linter.unusedSimpArgs false

/-! ## One table -/

theorem fieldName_mapM (names : List String) : (names.map Label.name).mapM Label.fieldName = some names := by
  rw [mapM_eq_some_iff, List.map_map]
  rfl

/-- What the copy has for a table, from its DataFrame. -/
def copiedTab (c : TabClass) (v : Frame) : TabVal := rowsTable c v.rows (fieldCell v)

theorem rowsTable_of_cells (c : TabClass) (v : Frame) (cell : List Cell × List Cell → String → Cell)
    (h : ∀ r ∈ v.rows, ∀ f ∈ c.fields, cell r f = fieldCell v r f) : rowsTable c v.rows cell = copiedTab c v := by
  have := rowsTable_congr c v.rows id cell (fieldCell v) h
  rwa [List.map_id] at this

theorem fresh_fits {c : TabClass} {v : Frame} (hname : NoNameField c) (hcol : ∀ f ∈ c.fields, Label.name f ∈ v.cols) :
    FrameFits (freshClass c.pks c.dfs) v :=
  ⟨hname.1, hname.2, fun f hf => .inl (hcol f (List.mem_append_right _ hf)), .inl (fun f hf => .inl (hcol f (List.mem_append_left _ hf)))⟩

theorem fresh_defaults (pks dfs : List String) (h : dfs.Nodup) : (PyDict.keys (freshClass pks dfs).defaults).Nodup := by
  unfold freshClass PyDict.keys
  rw [List.map_map]
  have : dfs.map (Prod.fst ∘ fun f => (f, Cell.num (.fin 0))) = dfs := by
    rw [show (Prod.fst ∘ fun f : String => (f, Cell.num (.fin 0))) = id from rfl, List.map_id]
  rw [this]
  exact h

/-- The table that is built from the DataFrame of an ordinary table. -/
theorem init_plain_frame {c : TabClass} (hn : c.fields.Nodup) {v : Frame} (hv : FrameOK v)
    (hcol : ∀ f ∈ c.fields, Label.name f ∈ v.cols) (hname : NoNameField c) :
    initFrame (freshClass c.pks c.dfs) v = some (copiedTab (freshClass c.pks c.dfs) v) := by
  have hdn : c.dfs.Nodup := (List.nodup_append.mp hn).2.1
  rw [initFrame_fits (freshClass c.pks c.dfs) hn (fresh_defaults _ _ hdn) v hv (fresh_fits hname hcol)]
  congr 1
  apply rowsTable_of_cells
  intro r _ f hf
  unfold frameCell fieldCell
  rw [if_pos (hcol f hf)]

theorem copied_size (c : TabClass) (v : Frame) (hk : DistinctKeys c v) : (copiedTab c v).size = v.rows.length := by
  have h1 := rowsTable_size c v.rows (fieldCell v)
  have h2 : (copiedTab c v).size ≤ v.rows.length := by
    unfold copiedTab rowsTable
    split
    · simp [TabVal.size]
    · obtain ⟨h, _⟩ := ofList_length (v.rows.map (fun r => (keyFrom c.pks (fieldCell v r), dataFrom c.dfs (fieldCell v r))))
      simpa [TabVal.size] using h
  refine Nat.le_antisymm h2 (Nat.le_of_not_lt (fun hlt => ?_))
  obtain ⟨hp, hd⟩ := h1.mp hlt
  exact hk.elim hp hd

/-- The table that is built from the rows of a generic table. -/
theorem init_generic_rows {names : List String} (hn : names.Nodup) {v : Frame} (hv : FrameOK v) (hc : v.cols = names.map .name) :
    initTable (freshClass [] names) (.seq (v.rows.map (fun r => .seq r.2))) = some (copiedTab (freshClass [] names) v) := by
  have hcells : ∀ r ∈ v.rows, (dataFrom names (fieldCell v r)).map Prod.snd = r.2 := by
    intro r hr
    unfold dataFrom
    rw [List.map_map]
    have h := map_idxOf_self v.cols hv.cols r.2 (hv.rows r hr).2 (.num (.fin 0))
    rw [hc, List.map_map, ← hc] at h
    exact h
  have hrow : ∀ r ∈ v.rows, initRow (freshClass [] names) (.seq r.2) = some (dataFrom names (fieldCell v r)) := by
    intro r hr
    have := initRow_flat (freshClass [] names) (dataFrom names (fieldCell v r)) (dataFrom_keys _ _) hn
    rwa [hcells r hr] at this
  have hgood : goodTableForInit (freshClass [] names) (.seq (v.rows.map (fun r => .seq r.2))) = true := by
    unfold goodTableForInit
    rw [if_neg (by simp [freshClass])]
    simp only [List.all_map, List.all_eq_true]
    intro r hr
    have := (hv.rows r hr).2
    rw [hc, List.length_map] at this
    exact decide_eq_true this
  unfold initTable
  rw [if_pos hgood, if_neg (by simp [freshClass])]
  simp only
  rw [List.mapM_map]
  show Option.map TabVal.plain (v.rows.mapM (fun r => initRow (freshClass [] names) (.seq r.2))) = _
  rw [mapM_eq_map (k := fun r => dataFrom names (fieldCell v r)) hrow]
  rfl

/-! ## The comparison of two copies -/

theorem keyFrom_inj (pks : List String) (g h : String → Cell) : keyFrom pks g = keyFrom pks h ↔ ∀ f ∈ pks, g f = h f := by
  have hm : ∀ l : List String, l.map g = l.map h ↔ ∀ f ∈ l, g f = h f := fun l => List.map_inj_left
  match pks with
  | [] => simp [keyFrom]
  | [p] => simp [keyFrom]
  | p :: q :: l => simp only [keyFrom, KeyArg.tup.injEq]; exact hm _

theorem dataFrom_agree (o : SameOpts) (d1 d2 : List String) (hd : ∀ f, f ∈ d1 ↔ f ∈ d2) (g h : String → Cell) :
    RowsAgree o (dataFrom d1 g) (dataFrom d2 h) ↔ ∀ f ∈ d1, CellsAgree o (g f) (h f) := by
  unfold RowsAgree
  rw [dataFrom_keys, dataFrom_keys]
  constructor
  · rintro ⟨_, h2⟩ f hf
    exact h2 f _ _ (get?_dataFrom d1 g f hf) (get?_dataFrom d2 h f ((hd f).mp hf))
  · intro hall
    refine ⟨hd, fun f a b ha hb => ?_⟩
    have hf : f ∈ d1 := by
      have := (PyDict.has_iff (dataFrom d1 g) f).mp (by simp [PyDict.has, ha])
      rwa [dataFrom_keys] at this
    rw [get?_dataFrom d1 g f hf] at ha
    rw [get?_dataFrom d2 h f ((hd f).mp hf)] at hb
    cases ha; cases hb
    exact hall f hf

theorem subset_of_length {A : Type} [DecidableEq A] (l1 l2 : List A) (h1 : l1.Nodup) (hl : l1.length = l2.length)
    (hs : ∀ a ∈ l1, a ∈ l2) : ∀ a ∈ l2, a ∈ l1 := by
  intro a ha
  refine Classical.byContradiction (fun hc => ?_)
  have := nodup_length_le (a :: l1) l2 (List.nodup_cons.mpr ⟨hc, h1⟩) (fun x hx => by
    rcases List.mem_cons.mp hx with rfl | hx
    · exact ha
    · exact hs x hx)
  simp at this
  omega

/-- Two copied tables, from DataFrames with as many rows, compare as the rows of the DataFrames do. -/
theorem copied_agree (o : SameOpts) (c1 c2 : TabClass) (hp : c1.pks = c2.pks) (hd : ∀ f, f ∈ c1.dfs ↔ f ∈ c2.dfs)
    (hn : c1.dfs.Nodup) (v w : Frame) (hl : v.rows.length = w.rows.length) (k1 : DistinctKeys c1 v) (k2 : DistinctKeys c2 w) :
    ∃ b, sameTab o (.tab (copiedTab c1 v)) (.tab (copiedTab c2 w)) = some b ∧
      (b = true ↔ ∀ r ∈ v.rows, ∃ s ∈ w.rows, PanRowsAgree o c1.pks c1.dfs v r w s) := by
  unfold copiedTab rowsTable
  by_cases hpk : c1.pks = []
  · rw [if_pos hpk, if_pos (hp ▸ hpk)]
    refine ⟨_, rfl, ?_⟩
    have h := plain_iff o (v.rows.map (fun r => dataFrom c1.dfs (fieldCell v r)))
      (w.rows.map (fun r => dataFrom c2.dfs (fieldCell w r))) (by
        intro r hr
        obtain ⟨x, _, rfl⟩ := List.mem_map.mp hr
        rw [dataFrom_keys]; exact hn)
    refine Iff.trans h ?_
    constructor
    · rintro ⟨_, h2⟩ r hr
      obtain ⟨y, hy, hyr⟩ := h2 _ (List.mem_map.mpr ⟨r, hr, rfl⟩)
      obtain ⟨s, hs, rfl⟩ := List.mem_map.mp hy
      refine ⟨s, hs, by rw [hpk]; exact fun f hf => absurd hf List.not_mem_nil, ?_⟩
      exact (dataFrom_agree o _ _ hd _ _).mp hyr
    · intro h2
      refine ⟨by simp [hl], fun x hx => ?_⟩
      obtain ⟨r, hr, rfl⟩ := List.mem_map.mp hx
      obtain ⟨s, hs, _, hrs⟩ := h2 r hr
      exact ⟨_, List.mem_map.mpr ⟨s, hs, rfl⟩, (dataFrom_agree o _ _ hd _ _).mpr hrs⟩
  · rw [if_neg hpk, if_neg (hp ▸ hpk)]
    have k1 := k1.resolve_left hpk
    have k2 := k2.resolve_left (hp ▸ hpk)
    have hk : ∀ (c : TabClass) (v : Frame), PyDict.keys (v.rows.map (fun r => (keyFrom c.pks (fieldCell v r),
        dataFrom c.dfs (fieldCell v r)))) = v.rows.map (fun r => keyFrom c.pks (fieldCell v r)) := by
      intro c v; unfold PyDict.keys; rw [List.map_map]; rfl
    have e1 := PyDict.ofList_of_nodup (v.rows.map (fun r => (keyFrom c1.pks (fieldCell v r), dataFrom c1.dfs (fieldCell v r))))
      (by rw [hk c1 v]; exact k1)
    have e2 := PyDict.ofList_of_nodup (w.rows.map (fun r => (keyFrom c2.pks (fieldCell w r), dataFrom c2.dfs (fieldCell w r))))
      (by rw [hk c2 w]; exact k2)
    rw [e1, e2]
    have g1 : ∀ r ∈ v.rows, PyDict.get? (v.rows.map (fun r => (keyFrom c1.pks (fieldCell v r), dataFrom c1.dfs (fieldCell v r))))
        (keyFrom c1.pks (fieldCell v r)) = some (dataFrom c1.dfs (fieldCell v r)) := fun r hr =>
      PyDict.get?_of_mem (by rw [hk]; exact k1) (List.mem_map.mpr ⟨r, hr, rfl⟩)
    have g2 : ∀ r ∈ w.rows, PyDict.get? (w.rows.map (fun r => (keyFrom c2.pks (fieldCell w r), dataFrom c2.dfs (fieldCell w r))))
        (keyFrom c2.pks (fieldCell w r)) = some (dataFrom c2.dfs (fieldCell w r)) := fun r hr =>
      PyDict.get?_of_mem (by rw [hk]; exact k2) (List.mem_map.mpr ⟨r, hr, rfl⟩)
    refine ⟨_, rfl, (keyed_iff o _ _ (by rw [hk]; exact k1) (by
      intro p hp
      obtain ⟨x, _, rfl⟩ := List.mem_map.mp hp
      rw [dataFrom_keys]; exact hn)).trans ?_⟩
    simp only [TabsAgree, hk]
    constructor
    · rintro ⟨h1, h2⟩ r hr
      obtain ⟨s, hs, he⟩ := List.mem_map.mp ((h1 _).mp (List.mem_map.mpr ⟨r, hr, rfl⟩))
      refine ⟨s, hs, ?_, ?_⟩
      · rw [← hp] at he
        exact (keyFrom_inj _ _ _).mp he.symm
      · have := h2 _ _ _ (g1 r hr) (by rw [← he]; exact g2 s hs)
        exact (dataFrom_agree o _ _ hd _ _).mp this
    · intro h
      have hsub : ∀ k ∈ v.rows.map (fun r => keyFrom c1.pks (fieldCell v r)), k ∈ w.rows.map (fun r => keyFrom c2.pks (fieldCell w r)) := by
        intro k hk
        obtain ⟨r, hr, rfl⟩ := List.mem_map.mp hk
        obtain ⟨s, hs, he, _⟩ := h r hr
        refine List.mem_map.mpr ⟨s, hs, ?_⟩
        rw [← hp]
        exact ((keyFrom_inj _ _ _).mpr he).symm
      refine ⟨fun k => ⟨hsub k, subset_of_length _ _ k1 (by simp [hl]) hsub k⟩, fun k r1 r2 h1 h2 => ?_⟩
      obtain ⟨r, hr, he⟩ := List.mem_map.mp (PyDict.get?_mem h1)
      obtain ⟨s, hs, hkey, hrs⟩ := h r hr
      cases he
      have hks : keyFrom c1.pks (fieldCell v r) = keyFrom c2.pks (fieldCell w s) := by
        rw [← hp]; exact (keyFrom_inj _ _ _).mpr hkey
      rw [hks, g2 s hs] at h2
      cases h2
      exact (dataFrom_agree o _ _ hd _ _).mpr hrs

/-! ## Whole objects -/

/-- The class of the table in the copy. -/
def copiedClass (k : TabKind) (v : Frame) : TabClass :=
  match k with
  | .generic => freshClass [] (v.cols.filterMap Label.fieldName)
  | .generator c => freshClass c.pks c.dfs
  | .plain c => freshClass c.pks c.dfs

theorem filterMap_fieldName (names : List String) : (names.map Label.name).filterMap Label.fieldName = names := by
  rw [List.filterMap_map]
  induction names with
  | nil => rfl
  | cons a l ih => simp [Label.fieldName, Function.comp_def] at ih ⊢

/-- The kind of the table in the copy. -/
def copiedKind (keep : Bool) (k : TabKind) (v : Frame) : TabKind :=
  if k.isGeneric && keep then .generic else .plain (copiedClass k v)

/-- The table in the copy. -/
def copiedOut (keep : Bool) (k : TabKind) (v : Frame) : OutTab :=
  if k.isGeneric && keep then .frame v else .tab (copiedTab (copiedClass k v) v)

/-- The DataFrame of a table. -/
def frameOf (obj : PyDict String Frame) (t : String) : Frame := (PyDict.get? obj t).getD ⟨[], [], []⟩

theorem frameOf_get {kinds : List (String × TabKind)} {obj : PyDict String Frame} (hk : PyDict.keys obj = kinds.map Prod.fst)
    {tk : String × TabKind} (htk : tk ∈ kinds) : PyDict.get? obj tk.1 = some (frameOf obj tk.1) := by
  have : tk.1 ∈ PyDict.keys obj := by rw [hk]; exact List.mem_map.mpr ⟨tk, htk, rfl⟩
  obtain ⟨v, hv⟩ := Option.isSome_iff_exists.mp ((PyDict.has_iff obj tk.1).mpr this)
  unfold frameOf
  rw [hv]; rfl

/-- What one table must be like for the copy. -/
def Copyable (env : FactoryEnv) (keep : Bool) (k : TabKind) (v : Frame) : Prop :=
  match k with
  | .generic => keep = true ∨ FieldColumns env v
  | .generator _ => False
  | .plain c => NoNameField c

theorem lower_nodup {env : FactoryEnv} {l : List String} (h : (l.map (fun f => env.case.lower f.toList)).Nodup) : l.Nodup :=
  nodup_of_map _ h

theorem goodDecl_of {env : FactoryEnv} {c : TabClass} (h1 : c.fields ≠ []) (h2 : (c.fields.map (fun f => env.case.lower f.toList)).Nodup) :
    goodDecl env.case (.fields c.pks c.dfs) = true := by
  unfold goodDecl
  rw [Bool.and_eq_true, Bool.and_eq_true]
  exact ⟨⟨decide_eq_true h1, decide_eq_true (lower_nodup h2)⟩, decide_eq_true h2⟩

/-- What is passed for a table. -/
def passedArg (keep : Bool) (k : TabKind) (v : Frame) : AttrVal :=
  if k.isGeneric && !keep then .tab (.seq (v.rows.map (fun r => .seq r.2))) else .frame v

theorem passedArg_len (keep : Bool) (k : TabKind) (v : Frame) : (passedArg keep k v).len = some v.rows.length := by
  unfold passedArg
  split <;> simp [AttrVal.len, TableIn.size]

/-- One table of the copy. -/
theorem copy_entry {env : FactoryEnv} {kinds : List (String × TabKind)} (hs : PanSchema env kinds) (keep : Bool)
    {obj : PyDict String Frame} (ho : PanObj kinds obj) {tk : String × TabKind} (htk : tk ∈ kinds)
    (hc : Copyable env keep tk.2 (frameOf obj tk.1)) :
    copyKind keep obj tk = some (tk.1, copiedKind keep tk.2 (frameOf obj tk.1)) ∧
      goodDecl env.case (copiedKind keep tk.2 (frameOf obj tk.1)).decl = true ∧
      copyArg keep obj tk = some (tk.1, passedArg keep tk.2 (frameOf obj tk.1)) ∧
      initAttr frameAsIs (copiedKind keep tk.2 (frameOf obj tk.1)) (passedArg keep tk.2 (frameOf obj tk.1)) =
        some (copiedOut keep tk.2 (frameOf obj tk.1)) := by
  have hg := frameOf_get ho.1 htk
  obtain ⟨hv, hcol⟩ := ho.2 tk htk _ hg
  have hf := hs.fields tk htk
  generalize frameOf obj tk.1 = v at hc hg hv hcol
  obtain ⟨t, k⟩ := tk
  cases k with
  | generic =>
    cases keep with
    | true =>
      refine ⟨rfl, rfl, ?_, rfl⟩
      unfold copyArg
      rw [hg]; rfl
    | false =>
      obtain ⟨hne, names, hnames, hlow⟩ := hc.resolve_left (by simp)
      have hnn : names.Nodup := lower_nodup hlow
      have hcls : copiedClass .generic v = freshClass [] names := by
        unfold copiedClass
        simp only
        rw [hnames, filterMap_fieldName]
      have hck : copiedKind false .generic v = .plain (freshClass [] names) := by
        unfold copiedKind
        simp only [Bool.and_false, Bool.false_eq_true, if_false, hcls]
      refine ⟨?_, ?_, ?_, ?_⟩
      · rw [hck]
        unfold copyKind
        simp only [Bool.false_eq_true, if_false, hg, Option.bind_some]
        rw [hnames, fieldName_mapM]
        rfl
      · rw [hck]
        refine goodDecl_of (c := freshClass [] names) ?_ hlow
        intro e
        have : names = [] := e
        exact hne (by rw [hnames, this]; rfl)
      · unfold copyArg
        rw [hg]; rfl
      · rw [hck]
        show (initTable (freshClass [] names) (.seq (v.rows.map (fun r => .seq r.2)))).map OutTab.tab = _
        rw [init_generic_rows hnn hv hnames]
        simp only [copiedOut, Bool.and_false, Bool.false_eq_true, if_false, hcls, Option.map_some]
  | generator c => exact hc.elim
  | plain c =>
    obtain ⟨c', hc', hne, hlow⟩ := hf.resolve_left (by simp)
    cases hc'
    have hck : copiedKind keep (.plain c) v = .plain (freshClass c.pks c.dfs) := rfl
    refine ⟨by rw [hck]; rfl, ?_, ?_, ?_⟩
    · rw [hck]
      exact goodDecl_of (c := freshClass c.pks c.dfs) hne hlow
    · unfold copyArg
      rw [hg]; rfl
    · rw [hck]
      show (initFrame (freshClass c.pks c.dfs) v).map OutTab.tab = _
      rw [init_plain_frame (lower_nodup hlow) hv hcol hc]
      rfl

/-- `TicDatFactory(**sch)`. -/
theorem copy_factory {env : FactoryEnv} {kinds : List (String × TabKind)} (hs : PanSchema env kinds) (keep : Bool)
    {obj : PyDict String Frame} (ho : PanObj kinds obj) (hc : ∀ tk ∈ kinds, Copyable env keep tk.2 (frameOf obj tk.1)) :
    copyFactory env keep kinds obj = some (kinds.map (fun tk => (tk.1, copiedKind keep tk.2 (frameOf obj tk.1)))) := by
  unfold copyFactory
  rw [mapM_eq_map (k := fun tk => (tk.1, copiedKind keep tk.2 (frameOf obj tk.1)))
    (fun tk htk => (copy_entry hs keep ho htk (hc tk htk)).1)]
  simp only [Option.bind_some]
  rw [if_pos]
  rw [List.all_map, List.all_eq_true]
  exact fun tk htk => (copy_entry hs keep ho htk (hc tk htk)).2.1


theorem get?_map_names {A : Type} (kinds : List (String × TabKind)) (hn : (kinds.map Prod.fst).Nodup) (g : String × TabKind → A)
    {tk : String × TabKind} (htk : tk ∈ kinds) : PyDict.get? (kinds.map (fun tk => (tk.1, g tk))) tk.1 = some (g tk) := by
  apply PyDict.get?_of_mem
  · unfold PyDict.keys
    rw [List.map_map]
    exact hn
  · exact List.mem_map.mpr ⟨tk, htk, rfl⟩

theorem copied_lost {keep : Bool} {k : TabKind} {v : Frame} :
    v.rows.length > ((copiedOut keep k v).len).getD 0 ↔ ∃ c, k.isGeneric = false ∧ copiedClass k v = c ∧ ¬ DistinctKeys c v := by
  unfold copiedOut
  split
  · rename_i h
    have hg : k.isGeneric = true := by rw [Bool.and_eq_true] at h; exact h.1
    simp [OutTab.len, hg]
  · show v.rows.length > (copiedTab (copiedClass k v) v).size ↔ _
    refine (rowsTable_size (copiedClass k v) v.rows (fieldCell v)).trans ?_
    constructor
    · rintro ⟨hp, hd⟩
      refine ⟨_, ?_, rfl, fun h => h.elim hp hd⟩
      cases k with
      | generic => exact absurd rfl hp
      | _ => rfl
    · rintro ⟨c, _, rfl, hd⟩
      exact ⟨fun h => hd (.inl h), fun h => hd (.inr h)⟩

/-- The copy of an object whose tables can be copied: with the default policy it raises exactly if two rows of a table have
the same primary key. -/
theorem pan_to_tic {env : FactoryEnv} (policy : DupPolicy) {kinds : List (String × TabKind)} (hs : PanSchema env kinds) (keep : Bool)
    {obj : PyDict String Frame} (ho : PanObj kinds obj) (hc : ∀ tk ∈ kinds, Copyable env keep tk.2 (frameOf obj tk.1)) :
    ((policy = .assert ∧ ∃ tk ∈ kinds, ∃ c, tk.2 = .plain c ∧ ¬ DistinctKeys c (frameOf obj tk.1)) ∧
        panToTic env policy keep kinds obj = none) ∨
      (¬ (policy = .assert ∧ ∃ tk ∈ kinds, ∃ c, tk.2 = .plain c ∧ ¬ DistinctKeys c (frameOf obj tk.1)) ∧
        panToTic env policy keep kinds obj = some (kinds.map (fun tk => (tk.1, copiedOut keep tk.2 (frameOf obj tk.1))))) := by
  have hnm : ((kinds.map (fun tk => (tk.1, copiedKind keep tk.2 (frameOf obj tk.1)))).map Prod.fst) = kinds.map Prod.fst := by
    rw [List.map_map]; rfl
  have hinput : kinds.mapM (copyArg keep obj) = some (kinds.map (fun tk => (tk.1, passedArg keep tk.2 (frameOf obj tk.1)))) :=
    mapM_eq_map (fun tk htk => (copy_entry hs keep ho htk (hc tk htk)).2.2.1)
  have hall : (kinds.map (fun tk => (tk.1, passedArg keep tk.2 (frameOf obj tk.1)))).all (fun p => decide (p.1 ∈
      (kinds.map (fun tk => (tk.1, copiedKind keep tk.2 (frameOf obj tk.1)))).map Prod.fst)) = true := by
    rw [hnm, List.all_map, List.all_eq_true]
    intro tk htk
    exact decide_eq_true (List.mem_map.mpr ⟨tk, htk, rfl⟩)
  have hentry : (kinds.map (fun tk => (tk.1, copiedKind keep tk.2 (frameOf obj tk.1)))).mapM (initKindEntry frameAsIs
      (kinds.map (fun tk => (tk.1, passedArg keep tk.2 (frameOf obj tk.1))))) =
        some (kinds.map (fun tk => (tk.1, copiedOut keep tk.2 (frameOf obj tk.1)))) := by
    rw [List.mapM_map]
    apply mapM_eq_map
    intro tk htk
    show initKindEntry _ _ (tk.1, copiedKind keep tk.2 (frameOf obj tk.1)) = _
    unfold initKindEntry
    rw [get?_map_names kinds hs.names (fun tk => passedArg keep tk.2 (frameOf obj tk.1)) htk]
    simp only
    rw [(copy_entry hs keep ho htk (hc tk htk)).2.2.2]
    rfl
  have hlost : (kinds.map (fun tk => (tk.1, passedArg keep tk.2 (frameOf obj tk.1)))).any (lostRows
      (kinds.map (fun tk => (tk.1, copiedOut keep tk.2 (frameOf obj tk.1))))) = true ↔
        ∃ tk ∈ kinds, ∃ c, tk.2 = .plain c ∧ ¬ DistinctKeys c (frameOf obj tk.1) := by
    rw [List.any_map, List.any_eq_true]
    refine exists_congr fun tk => and_congr_right fun htk => ?_
    have e1 : (lostRows (kinds.map (fun tk => (tk.1, copiedOut keep tk.2 (frameOf obj tk.1)))) ∘
        fun tk => (tk.1, passedArg keep tk.2 (frameOf obj tk.1))) tk =
        decide ((frameOf obj tk.1).rows.length > ((copiedOut keep tk.2 (frameOf obj tk.1)).len).getD 0) := by
      show lostRows _ (tk.1, _) = _
      unfold lostRows
      rw [passedArg_len]
      simp only
      rw [get?_map_names kinds hs.names (fun tk => copiedOut keep tk.2 (frameOf obj tk.1)) htk]
      rfl
    rw [e1, decide_eq_true_eq, copied_lost]
    have hcp := hc tk htk
    constructor
    · rintro ⟨c, hg, he, hd⟩
      cases hk : tk.2 with
      | generic => rw [hk] at hg; cases hg
      | generator c => rw [hk] at hcp; exact hcp.elim
      | plain c' =>
        rw [hk] at he
        refine ⟨c', rfl, fun h => hd ?_⟩
        rw [← he]
        exact h
    · rintro ⟨c, hk, hd⟩
      rw [hk]
      exact ⟨_, rfl, rfl, hd⟩
  have heq : panToTic env policy keep kinds obj = if (policy = .assert && (kinds.map (fun tk => (tk.1, passedArg keep tk.2
      (frameOf obj tk.1)))).any (lostRows (kinds.map (fun tk => (tk.1, copiedOut keep tk.2 (frameOf obj tk.1)))))) = true then none
      else some (kinds.map (fun tk => (tk.1, copiedOut keep tk.2 (frameOf obj tk.1)))) := by
    unfold panToTic
    rw [copy_factory hs keep ho hc, Option.bind_some, hinput, Option.bind_some]
    unfold initKinds
    rw [if_pos hall, hentry]
  rw [heq]
  by_cases h : policy = .assert ∧ ∃ tk ∈ kinds, ∃ c, tk.2 = .plain c ∧ ¬ DistinctKeys c (frameOf obj tk.1)
  · refine .inl ⟨h, if_pos ?_⟩
    rw [Bool.and_eq_true]
    exact ⟨decide_eq_true h.1, hlost.mpr h.2⟩
  · refine .inr ⟨h, if_neg ?_⟩
    rw [Bool.and_eq_true]
    rintro ⟨h1, h2⟩
    exact h ⟨of_decide_eq_true h1, hlost.mp h2⟩


/-! ## When the copy raises -/

theorem copyKind_of_not {env : FactoryEnv} {obj : PyDict String Frame} {t : String} {v : Frame} (hv : FrameOK v)
    (hg : PyDict.get? obj t = some v) (hc : ¬ FieldColumns env v) :
    ∀ tk', copyKind false obj (t, .generic) = some tk' → goodDecl env.case tk'.2.decl = false := by
  intro tk' h
  unfold copyKind at h
  simp only [Bool.false_eq_true, if_false, hg, Option.bind_some] at h
  cases hm : v.cols.mapM Label.fieldName with
  | none => rw [hm] at h; cases h
  | some names =>
    rw [hm] at h
    cases h
    have hcols : v.cols = names.map .name := by
      rw [mapM_eq_some_iff] at hm
      clear hc hv hg
      generalize v.cols = cols at hm
      induction cols generalizing names with
      | nil => cases names with
        | nil => rfl
        | cons a l => cases hm
      | cons l cols ih => cases names with
        | nil => cases hm
        | cons a names =>
          rw [List.map_cons, List.map_cons, List.cons.injEq] at hm
          rw [List.map_cons, ih names hm.2]
          cases l with
          | name s => have := hm.1; simp [Label.fieldName] at this; rw [this]
          | pos n => have := hm.1; simp [Label.fieldName] at this
    rw [Bool.eq_false_iff]
    intro hgd
    have hgd : (decide ([] ++ names ≠ []) && decide (([] ++ names).Nodup) &&
      decide ((([] ++ names).map (fun f : String => env.case.lower f.toList)).Nodup)) = true := hgd
    rw [Bool.and_eq_true, Bool.and_eq_true] at hgd
    obtain ⟨⟨h1, _⟩, h3⟩ := hgd
    have h1 := of_decide_eq_true h1
    have h3 := of_decide_eq_true h3
    rw [List.nil_append] at h1 h3
    exact hc ⟨by rw [hcols]; intro e; exact h1 (List.map_eq_nil_iff.mp e), names, hcols, h3⟩

theorem copy_args (keep : Bool) {kinds : List (String × TabKind)} {obj : PyDict String Frame} (ho : PanObj kinds obj) :
    kinds.mapM (copyArg keep obj) = some (kinds.map (fun tk => (tk.1, passedArg keep tk.2 (frameOf obj tk.1)))) := by
  apply mapM_eq_map
  intro tk htk
  unfold copyArg
  rw [frameOf_get ho.1 htk]
  rfl

/-- A table that cannot be copied makes the copy raise. -/
theorem pan_to_tic_raises {env : FactoryEnv} (policy : DupPolicy) {kinds : List (String × TabKind)} (hs : PanSchema env kinds)
    (keep : Bool) {obj : PyDict String Frame} (ho : PanObj kinds obj) {tk : String × TabKind} (htk : tk ∈ kinds)
    (hc : ¬ Copyable env keep tk.2 (frameOf obj tk.1)) : panToTic env policy keep kinds obj = none := by
  have hg := frameOf_get ho.1 htk
  obtain ⟨hv, hcol⟩ := ho.2 tk htk _ hg
  have hf := hs.fields tk htk
  obtain ⟨t, k⟩ := tk
  cases k with
  | generator c => exact absurd hf (by simp)
  | generic =>
    have hc' : keep = false ∧ ¬ FieldColumns env (frameOf obj t) := by
      constructor
      · rw [← Bool.not_eq_true]; exact fun h => hc (.inl h)
      · exact fun h => hc (.inr h)
    obtain ⟨rfl, hfc⟩ := hc'
    have hnone : copyFactory env false kinds obj = none := by
      unfold copyFactory
      cases hm : kinds.mapM (copyKind false obj) with
      | none => rfl
      | some ks =>
        rw [Option.bind_some, if_neg]
        rw [List.all_eq_true]
        intro hall
        rw [mapM_eq_some_iff] at hm
        have hmem : copyKind false obj (t, .generic) ∈ ks.map some := hm ▸ List.mem_map.mpr ⟨_, htk, rfl⟩
        obtain ⟨tk', hk', he⟩ := List.mem_map.mp hmem
        have := copyKind_of_not hv hg hfc tk' he.symm
        rw [hall tk' hk'] at this
        cases this
    unfold panToTic
    rw [hnone]; rfl
  | plain c =>
    have hc' : ¬ NoNameField c := hc
    obtain ⟨c', e, hne, hlow⟩ := hf.resolve_left (by simp)
    cases e
    have hn : c.fields.Nodup := lower_nodup hlow
    have hinit : initFrame (freshClass c.pks c.dfs) (frameOf obj t) = none := by
      refine Classical.byContradiction (fun h => hc' ?_)
      have := (init_from_frame (freshClass c.pks c.dfs) hn (fresh_defaults _ _ (List.nodup_append.mp hn).2.1) _ hv).1.mp h
      exact ⟨this.1, this.2.1⟩
    unfold panToTic
    cases hfac : copyFactory env keep kinds obj with
    | none => rfl
    | some ks =>
      rw [Option.bind_some]
      cases hin : kinds.mapM (copyArg keep obj) with
      | none => rfl
      | some input =>
        rw [Option.bind_some]
        unfold initKinds
        split
        · have hks : kinds.mapM (copyKind keep obj) = some ks := by
            unfold copyFactory at hfac
            cases hm : kinds.mapM (copyKind keep obj) with
            | none => rw [hm] at hfac; cases hfac
            | some ks' =>
              rw [hm, Option.bind_some] at hfac
              split at hfac
              · exact hfac
              · cases hfac
          have hmem : (t, TabKind.plain (freshClass c.pks c.dfs)) ∈ ks := by
            rw [mapM_eq_some_iff] at hks
            have : copyKind keep obj (t, .plain c) ∈ ks.map some := hks ▸ List.mem_map.mpr ⟨_, htk, rfl⟩
            obtain ⟨tk', hk', he⟩ := List.mem_map.mp this
            have : copyKind keep obj (t, .plain c) = some (t, .plain (freshClass c.pks c.dfs)) := rfl
            rw [this] at he
            cases he
            exact hk'
          have hga : PyDict.get? input t = some (.frame (frameOf obj t)) := by
            rw [copy_args keep ho] at hin
            cases hin
            exact get?_map_names kinds hs.names (fun tk => passedArg keep tk.2 (frameOf obj tk.1)) htk
          rw [mapM_none_of hmem]
          unfold initKindEntry
          rw [hga]
          show ((initFrame (freshClass c.pks c.dfs) (frameOf obj t)).map OutTab.tab).map _ = none
          rw [hinit]; rfl
        · rfl

/-! ## The theorems -/

theorem goodPanObject_of {kinds : List (String × TabKind)} {obj : PyDict String Frame} (ho : PanObj kinds obj) :
    goodPanObject kinds obj = true := by
  unfold goodPanObject
  rw [List.all_eq_true]
  intro tk htk
  have hg := frameOf_get ho.1 htk
  rw [hg]
  simp only [List.all_eq_true]
  intro f hf
  exact decide_eq_true ((ho.2 tk htk _ hg).2 f hf)

/-- **C78, good objects.**  `good_pan_dat_object` accepts an object exactly if it has a DataFrame for every table, with all
the fields as columns.  Any other object is refused by `copy_pan_dat` and `copy_to_tic_dat`. -/
theorem good_pan_dat_object_iff (env : FactoryEnv) (policy : DupPolicy) (kinds : List (String × TabKind)) (obj : PyDict String Frame) :
    (goodPanObject kinds obj = true ↔ ∀ tk ∈ kinds, ∃ v, PyDict.get? obj tk.1 = some v ∧ ∀ f ∈ tk.2.fields, Label.name f ∈ v.cols) ∧
    (goodPanObject kinds obj = false → copyPanDat kinds obj = none ∧ copyToTicDat env policy kinds obj = none) := by
  refine ⟨?_, fun h => ?_⟩
  · unfold goodPanObject
    rw [List.all_eq_true]
    refine forall_congr' fun tk => forall_congr' fun _ => ?_
    cases PyDict.get? obj tk.1 with
    | none => simp
    | some v =>
      simp only [List.all_eq_true, Option.some.injEq, exists_eq_left']
      exact forall_congr' fun f => forall_congr' fun _ => decide_eq_true_iff
  · unfold copyPanDat copyToTicDat
    rw [h]
    exact ⟨rfl, rfl⟩

example : goodPanObject [("t", .plain ⟨["k"], ["v"], []⟩)] [("t", ⟨[], [.name "v", .name "k"], []⟩)] = true ∧
    goodPanObject [("t", .plain ⟨["k"], ["v"], []⟩)] [("t", ⟨[], [.name "k"], []⟩)] = false ∧
    goodPanObject [("t", .plain ⟨["k"], ["v"], []⟩)] [] = false := by
  refine ⟨?_, ?_, ?_⟩ <;> decide +kernel

/-- **C78, copying to a `TicDat`.**  `copy_to_tic_dat` of a good object raises exactly if a field is called "name" (other than
a primary key of its own) or, with the default policy for duplicates, two rows of a table have the same primary key.
Otherwise the copy has every table: generic tables are the DataFrames, the others have the rows of the DataFrames. -/
theorem copy_to_tic_dat_iff (env : FactoryEnv) (policy : DupPolicy) (kinds : List (String × TabKind)) (hs : PanSchema env kinds)
    (obj : PyDict String Frame) (ho : PanObj kinds obj) :
    (copyToTicDat env policy kinds obj ≠ none ↔ ∀ tk ∈ kinds, ∀ c, tk.2 = .plain c → NoNameField c ∧
      (policy = .assert → ∀ v, PyDict.get? obj tk.1 = some v → DistinctKeys c v)) ∧
    ∀ dat, copyToTicDat env policy kinds obj = some dat → PyDict.keys dat = kinds.map Prod.fst ∧
      ∀ tk ∈ kinds, ∀ v, PyDict.get? obj tk.1 = some v →
        (tk.2 = .generic → PyDict.get? dat tk.1 = some (.frame v)) ∧
        ∀ c, tk.2 = .plain c → ∃ tab, PyDict.get? dat tk.1 = some (.tab tab) ∧ TableOfRows c v.rows (fieldCell v) tab := by
  have hdef : copyToTicDat env policy kinds obj = panToTic env policy true kinds obj := by
    unfold copyToTicDat
    rw [if_pos (goodPanObject_of ho)]
  rw [hdef]
  by_cases hc : ∀ tk ∈ kinds, Copyable env true tk.2 (frameOf obj tk.1)
  · have hname : ∀ tk ∈ kinds, ∀ c, tk.2 = .plain c → NoNameField c := by
      intro tk htk c hk
      have := hc tk htk
      rw [hk] at this
      exact this
    rcases pan_to_tic policy hs true ho hc with ⟨⟨hpol, tk, htk, c, hk, hd⟩, he⟩ | ⟨hno, he⟩
    · rw [he]
      refine ⟨⟨fun h => absurd rfl h, fun h => absurd ((h tk htk c hk).2 hpol _ (frameOf_get ho.1 htk)) hd⟩, fun dat h => ?_⟩
      cases h
    · rw [he]
      refine ⟨⟨fun _ tk htk c hk => ⟨hname tk htk c hk, fun hpol v hv => ?_⟩, fun _ => by simp⟩, fun dat h => ?_⟩
      · refine Classical.byContradiction (fun hd => hno ⟨hpol, tk, htk, c, hk, ?_⟩)
        rw [frameOf_get ho.1 htk] at hv
        cases hv
        exact hd
      · cases h
        refine ⟨by unfold PyDict.keys; rw [List.map_map]; rfl, fun tk htk v hv => ?_⟩
        rw [frameOf_get ho.1 htk] at hv
        cases hv
        have hget := get?_map_names kinds hs.names (fun tk => copiedOut true tk.2 (frameOf obj tk.1)) htk
        rw [hget]
        refine ⟨fun hk => ?_, fun c hk => ⟨copiedTab (freshClass c.pks c.dfs) (frameOf obj tk.1), ?_, ?_⟩⟩
        · rw [hk]; rfl
        · rw [hk]; rfl
        · exact rowsTable_spec (freshClass c.pks c.dfs) _ _
  · have : ∃ tk ∈ kinds, ¬ Copyable env true tk.2 (frameOf obj tk.1) :=
      Classical.byContradiction (fun h => hc (fun tk htk => Classical.byContradiction (fun hn => h ⟨tk, htk, hn⟩)))
    obtain ⟨tk, htk, hn⟩ := this
    rw [pan_to_tic_raises policy hs true ho htk hn]
    refine ⟨⟨fun h => absurd rfl h, fun h => ?_⟩, fun dat h => by cases h⟩
    exfalso
    rcases hs.fields tk htk with hk | ⟨c, hk, _⟩
    · rw [hk] at hn; exact hn (.inl rfl)
    · rw [hk] at hn; exact hn (h tk htk c hk).1

theorem sameLoop_iff (o : SameOpts) (o1 o2 : PyDict String OutTab) (R : String × TabKind → Prop) (l : List (String × TabKind))
    (h : ∀ tk ∈ l, ∃ t1 t2 b, PyDict.get? o1 tk.1 = some t1 ∧ PyDict.get? o2 tk.1 = some t2 ∧ sameTab o t1 t2 = some b ∧ (b = true ↔ R tk)) :
    ∃ b, sameLoop o o1 o2 l = some b ∧ (b = true ↔ ∀ tk ∈ l, R tk) := by
  induction l with
  | nil => exact ⟨true, rfl, by simp⟩
  | cons tk l ih =>
    obtain ⟨b', hb', hi'⟩ := ih (fun x hx => h x (List.mem_cons_of_mem _ hx))
    obtain ⟨t1, t2, b, g1, g2, hb, hi⟩ := h tk (List.mem_cons_self ..)
    have hstep : sameLoop o o1 o2 (tk :: l) = if b then some b' else some false := by
      simp only [sameLoop, g1, g2, Option.bind_some, hb]
      cases b <;> simp [hb']
    cases b with
    | false =>
      refine ⟨false, hstep, by simp, fun hh => ?_⟩
      exact absurd (hi.mpr (hh tk (List.mem_cons_self ..))) (by simp)
    | true =>
      refine ⟨b', hstep, hi'.trans ⟨fun hh x hx => ?_, fun hh x hx => hh x (List.mem_cons_of_mem _ hx)⟩⟩
      rcases List.mem_cons.mp hx with rfl | hx
      · exact hi.mp rfl
      · exact hh x hx


theorem panLen_of {kinds : List (String × TabKind)} {obj : PyDict String Frame} (ho : PanObj kinds obj) {tk : String × TabKind}
    (htk : tk ∈ kinds) : panLen obj tk.1 = (frameOf obj tk.1).rows.length := by
  unfold panLen
  rw [frameOf_get ho.1 htk]; rfl

theorem sameCols_iff {kinds : List (String × TabKind)} {o1 o2 : PyDict String Frame} (h1 : PanObj kinds o1) (h2 : PanObj kinds o2)
    {tk : String × TabKind} (htk : tk ∈ kinds) :
    sameCols o1 o2 tk.1 = true ↔ ∀ l, l ∈ (frameOf o1 tk.1).cols ↔ l ∈ (frameOf o2 tk.1).cols := by
  unfold sameCols columnsOf
  rw [frameOf_get h1.1 htk, frameOf_get h2.1 htk]
  simp only [Option.map_some, Option.getD_some, Bool.and_eq_true, List.all_eq_true, decide_eq_true_eq]
  exact ⟨fun h l => ⟨h.1 l, h.2 l⟩, fun h => ⟨fun l => (h l).mp, fun l => (h l).mpr⟩⟩

/-- The comparison after the lengths and the columns of generic tables were found to be the same. -/
theorem panSame_rest (env : FactoryEnv) (policy : DupPolicy) (eps : Rat) (nansSame : Bool) (kinds : List (String × TabKind))
    {o1 o2 : PyDict String Frame} (h1 : PanObj kinds o1) (h2 : PanObj kinds o2) :
    ((∃ tk ∈ kinds, (frameOf o1 tk.1).rows.length ≠ (frameOf o2 tk.1).rows.length ∨
        (tk.2 = .generic ∧ ¬ ∀ l, l ∈ (frameOf o1 tk.1).cols ↔ l ∈ (frameOf o2 tk.1).cols)) ∧
      panSame env policy eps nansSame kinds o1 o2 = some false) ∨
    ((∀ tk ∈ kinds, (frameOf o1 tk.1).rows.length = (frameOf o2 tk.1).rows.length ∧
        (tk.2 = .generic → ∀ l, l ∈ (frameOf o1 tk.1).cols ↔ l ∈ (frameOf o2 tk.1).cols)) ∧
      panSame env policy eps nansSame kinds o1 o2 = (copyFactory env false kinds o1).bind (fun ks =>
      (panToTic env policy false kinds o1).bind (fun t1 =>
        (panToTic env policy false kinds o2).bind (fun t2 => sameData ⟨eps, nansSame, false⟩ ks t1 t2)))) := by
  unfold panSame
  by_cases hl : kinds.all (fun tk => decide (panLen o1 tk.1 = panLen o2 tk.1)) = true
  · rw [if_neg (by simp [hl])]
    have hl' : ∀ tk ∈ kinds, (frameOf o1 tk.1).rows.length = (frameOf o2 tk.1).rows.length := by
      intro tk htk
      have := of_decide_eq_true (List.all_eq_true.mp hl tk htk)
      rwa [panLen_of h1 htk, panLen_of h2 htk] at this
    by_cases hc : (kinds.filter (fun tk => tk.2.isGeneric)).all (fun tk => sameCols o1 o2 tk.1) = true
    · rw [if_neg (by rw [hc]; simp)]
      refine .inr ⟨fun tk htk => ⟨hl' tk htk, fun hk => ?_⟩, rfl⟩
      exact (sameCols_iff h1 h2 htk).mp (List.all_eq_true.mp hc tk (List.mem_filter.mpr ⟨htk, by rw [hk]; rfl⟩))
    · rw [if_pos (by simpa using hc)]
      refine .inl ⟨?_, rfl⟩
      refine Classical.byContradiction (fun hno => hc (List.all_eq_true.mpr (fun tk htk => ?_)))
      obtain ⟨htk, hk⟩ := List.mem_filter.mp htk
      refine (sameCols_iff h1 h2 htk).mpr (Classical.byContradiction (fun hn => hno ⟨tk, htk, .inr ⟨?_, hn⟩⟩))
      cases hkk : tk.2 with
      | generic => rfl
      | _ => rw [hkk] at hk; cases hk
  · rw [if_pos (by simpa using hl)]
    refine .inl ⟨?_, rfl⟩
    refine Classical.byContradiction (fun hno => hl (List.all_eq_true.mpr (fun tk htk => decide_eq_true ?_)))
    rw [panLen_of h1 htk, panLen_of h2 htk]
    exact Classical.byContradiction (fun hn => hno ⟨tk, htk, .inl hn⟩)

theorem comparable_copyable {env : FactoryEnv} {k : TabKind} {v : Frame} (h : Comparable env k v) : Copyable env false k v := by
  cases k with
  | generic => exact .inr h
  | generator c => exact h
  | plain c => exact h.1

/-- The comparison of the copies of two tables. -/
theorem copied_tabs_agree {env : FactoryEnv} (o : SameOpts) {k : TabKind} {v w : Frame} (h1 : Comparable env k v) (h2 : Comparable env k w)
    (hn : k = .generic ∨ ∃ c, k = .plain c ∧ c.fields.Nodup) (hl : v.rows.length = w.rows.length)
    (hc : k = .generic → ∀ l, l ∈ v.cols ↔ l ∈ w.cols) :
    ∃ b, sameTab o (copiedOut false k v) (copiedOut false k w) = some b ∧ (b = true ↔ PanTabsAgree o k v w) := by
  cases k with
  | generator c => exact absurd hn (by simp)
  | generic =>
    have hc := hc rfl
    obtain ⟨_, n1, e1, l1⟩ := h1
    obtain ⟨_, n2, e2, l2⟩ := h2
    have c1 : copiedClass .generic v = freshClass [] n1 := by unfold copiedClass; simp only; rw [e1, filterMap_fieldName]
    have c2 : copiedClass .generic w = freshClass [] n2 := by unfold copiedClass; simp only; rw [e2, filterMap_fieldName]
    have hmem : ∀ (n : List String) (f : String), Label.name f ∈ n.map Label.name ↔ f ∈ n := by
      intro n f
      simp
    have hd : ∀ f, f ∈ (freshClass [] n1).dfs ↔ f ∈ (freshClass [] n2).dfs := by
      intro f
      show f ∈ n1 ↔ f ∈ n2
      rw [← hmem n1 f, ← hmem n2 f, ← e1, ← e2]
      exact hc _
    obtain ⟨b, hb, hbi⟩ := copied_agree o (freshClass [] n1) (freshClass [] n2) rfl hd (lower_nodup l1) v w hl (.inl rfl) (.inl rfl)
    refine ⟨b, ?_, hbi.trans ?_⟩
    · unfold copiedOut
      simp only [Bool.and_false, Bool.false_eq_true, if_false, c1, c2]
      exact hb
    · unfold PanTabsAgree
      constructor
      · intro h
        refine ⟨hl, hc, fun r hr => ?_⟩
        obtain ⟨s, hs, _, hcells⟩ := h r hr
        refine ⟨s, hs, fun l hlm => ?_⟩
        rw [e1] at hlm
        obtain ⟨f, hf, rfl⟩ := List.mem_map.mp hlm
        exact hcells f hf
      · rintro ⟨_, _, h⟩ r hr
        obtain ⟨s, hs, hcells⟩ := h r hr
        refine ⟨s, hs, fun f hf => absurd hf List.not_mem_nil, fun f hf => hcells (.name f) ?_⟩
        rw [e1]
        exact (hmem n1 f).mpr hf
  | plain c =>
    obtain ⟨c', e, hnd⟩ := hn.resolve_left (by simp)
    cases e
    obtain ⟨b, hb, hbi⟩ := copied_agree o (freshClass c.pks c.dfs) (freshClass c.pks c.dfs) rfl (fun f => Iff.rfl)
      (List.nodup_append.mp hnd).2.1 v w hl h1.2 h2.2
    refine ⟨b, hb, hbi.trans ?_⟩
    unfold PanTabsAgree
    exact ⟨fun h => ⟨hl, h⟩, fun h => h.2⟩

/-- **C78, comparing.**  For two good objects whose tables can be compared, `_same_data` does not raise, and it says `True`
exactly if for every table the DataFrames have as many rows and for each row of the first a row of the second with the same
primary key and agreeing values; generic tables must have the same columns.  The order of rows and columns, the index and
columns that are not fields do not matter. -/
theorem pan_same_iff (env : FactoryEnv) (policy : DupPolicy) (eps : Rat) (he : 0 ≤ eps) (nansSame : Bool)
    (kinds : List (String × TabKind)) (hs : PanSchema env kinds) (o1 o2 : PyDict String Frame) (h1 : PanObj kinds o1)
    (h2 : PanObj kinds o2) (c1 : ∀ tk ∈ kinds, ∀ v, PyDict.get? o1 tk.1 = some v → Comparable env tk.2 v)
    (c2 : ∀ tk ∈ kinds, ∀ v, PyDict.get? o2 tk.1 = some v → Comparable env tk.2 v) :
    ∃ b, panSame env policy eps nansSame kinds o1 o2 = some b ∧
      (b = true ↔ ∀ tk ∈ kinds, ∀ v w, PyDict.get? o1 tk.1 = some v → PyDict.get? o2 tk.1 = some w →
        PanTabsAgree ⟨eps, nansSame, false⟩ tk.2 v w) := by
  have k1 : ∀ tk ∈ kinds, Comparable env tk.2 (frameOf o1 tk.1) := fun tk htk => c1 tk htk _ (frameOf_get h1.1 htk)
  have k2 : ∀ tk ∈ kinds, Comparable env tk.2 (frameOf o2 tk.1) := fun tk htk => c2 tk htk _ (frameOf_get h2.1 htk)
  have hR : (∀ tk ∈ kinds, ∀ v w, PyDict.get? o1 tk.1 = some v → PyDict.get? o2 tk.1 = some w →
      PanTabsAgree ⟨eps, nansSame, false⟩ tk.2 v w) ↔
        ∀ tk ∈ kinds, PanTabsAgree ⟨eps, nansSame, false⟩ tk.2 (frameOf o1 tk.1) (frameOf o2 tk.1) := by
    refine ⟨fun h tk htk => h tk htk _ _ (frameOf_get h1.1 htk) (frameOf_get h2.1 htk), fun h tk htk v w hv hw => ?_⟩
    rw [frameOf_get h1.1 htk] at hv
    rw [frameOf_get h2.1 htk] at hw
    cases hv; cases hw
    exact h tk htk
  rw [hR]
  rcases panSame_rest env policy eps nansSame kinds h1 h2 with ⟨⟨tk, htk, hbad⟩, hsm⟩ | ⟨hgood, hsm⟩
  · refine ⟨false, hsm, by simp, fun h => ?_⟩
    have := h tk htk
    rcases hbad with hb | ⟨hk, hb⟩
    · exact absurd this.1 hb
    · rw [hk] at this
      exact absurd this.2.1 hb
  · have hcp1 := fun tk htk => comparable_copyable (k1 tk htk)
    have hcp2 := fun tk htk => comparable_copyable (k2 tk htk)
    have hno : ∀ {o : PyDict String Frame}, (∀ tk ∈ kinds, Comparable env tk.2 (frameOf o tk.1)) →
        ¬ (policy = .assert ∧ ∃ tk ∈ kinds, ∃ c, tk.2 = .plain c ∧ ¬ DistinctKeys c (frameOf o tk.1)) := by
      rintro o hk ⟨_, tk, htk, c, e, hd⟩
      have := hk tk htk
      rw [e] at this
      exact hd this.2
    have e1 : panToTic env policy false kinds o1 = _ :=
      ((pan_to_tic policy hs false h1 hcp1).resolve_left (fun h => hno k1 h.1)).2
    have e2 : panToTic env policy false kinds o2 = _ :=
      ((pan_to_tic policy hs false h2 hcp2).resolve_left (fun h => hno k2 h.1)).2
    rw [hsm, copy_factory hs false h1 hcp1, e1, e2]
    simp only [Option.bind_some]
    unfold sameData
    rw [if_neg (by show ¬ eps < 0; grind)]
    have := sameLoop_iff ⟨eps, nansSame, false⟩ (kinds.map (fun tk => (tk.1, copiedOut false tk.2 (frameOf o1 tk.1))))
      (kinds.map (fun tk => (tk.1, copiedOut false tk.2 (frameOf o2 tk.1))))
      (fun tk' => ∀ tk ∈ kinds, tk.1 = tk'.1 → PanTabsAgree ⟨eps, nansSame, false⟩ tk.2 (frameOf o1 tk.1) (frameOf o2 tk.1))
      (kinds.map (fun tk => (tk.1, copiedKind false tk.2 (frameOf o1 tk.1)))) (by
        intro tk' htk'
        obtain ⟨tk, htk, rfl⟩ := List.mem_map.mp htk'
        have hnd : tk.2 = .generic ∨ ∃ c, tk.2 = .plain c ∧ c.fields.Nodup :=
          (hs.fields tk htk).imp id (fun ⟨c, e, _, h⟩ => ⟨c, e, lower_nodup h⟩)
        obtain ⟨b, hb, hbi⟩ := copied_tabs_agree ⟨eps, nansSame, false⟩ (k1 tk htk) (k2 tk htk) hnd (hgood tk htk).1 (hgood tk htk).2
        have q1 := get?_map_names kinds hs.names (fun tk => copiedOut false tk.2 (frameOf o1 tk.1)) htk
        have q2 := get?_map_names kinds hs.names (fun tk => copiedOut false tk.2 (frameOf o2 tk.1)) htk
        refine ⟨_, _, b, q1, q2, hb, hbi.trans ?_⟩
        refine ⟨fun h tk2 htk2 e2 => ?_, fun h => h tk htk rfl⟩
        have : tk2 = tk := inj_of_nodup_map Prod.fst hs.names htk2 htk e2
        rw [this]; exact h)
    obtain ⟨b, hb, hbi⟩ := this
    refine ⟨b, hb, hbi.trans ?_⟩
    constructor
    · intro h tk htk
      exact h _ (List.mem_map.mpr ⟨tk, htk, rfl⟩) tk htk rfl
    · intro h tk' _ tk htk _
      exact h tk htk

/-- **C78, when comparing raises.**  With the default policy for duplicates, if all tables have as many rows in both objects
and the generic tables the same columns, but some table of one of the objects cannot be compared, then `_same_data` raises. -/
theorem pan_same_raises (env : FactoryEnv) (eps : Rat) (nansSame : Bool) (kinds : List (String × TabKind)) (hs : PanSchema env kinds)
    (o1 o2 : PyDict String Frame) (h1 : PanObj kinds o1) (h2 : PanObj kinds o2)
    (hsame : ∀ tk ∈ kinds, ∀ v w, PyDict.get? o1 tk.1 = some v → PyDict.get? o2 tk.1 = some w →
      v.rows.length = w.rows.length ∧ (tk.2 = .generic → ∀ l, l ∈ v.cols ↔ l ∈ w.cols))
    (hbad : ∃ tk ∈ kinds, ∃ v, (PyDict.get? o1 tk.1 = some v ∨ PyDict.get? o2 tk.1 = some v) ∧ ¬ Comparable env tk.2 v) :
    panSame env .assert eps nansSame kinds o1 o2 = none := by
  have hnone : ∀ {o : PyDict String Frame}, PanObj kinds o → (∃ tk ∈ kinds, ¬ Comparable env tk.2 (frameOf o tk.1)) →
      panToTic env .assert false kinds o = none := by
    rintro o ho ⟨tk, htk, hn⟩
    by_cases hc : ∀ tk ∈ kinds, Copyable env false tk.2 (frameOf o tk.1)
    · rcases pan_to_tic .assert hs false ho hc with ⟨_, he⟩ | ⟨hno, _⟩
      · exact he
      · exfalso
        refine hno ⟨rfl, tk, htk, ?_⟩
        have hct := hc tk htk
        rcases hs.fields tk htk with hk | ⟨c, hk, _⟩
        · rw [hk] at hct hn
          exact absurd (hct.resolve_left (by simp)) hn
        · rw [hk] at hct hn
          exact ⟨c, hk, fun hd => hn ⟨hct, hd⟩⟩
    · have : ∃ tk ∈ kinds, ¬ Copyable env false tk.2 (frameOf o tk.1) :=
        Classical.byContradiction (fun h => hc (fun tk htk => Classical.byContradiction (fun hn => h ⟨tk, htk, hn⟩)))
      obtain ⟨tk, htk, hn⟩ := this
      exact pan_to_tic_raises .assert hs false ho htk hn
  rcases panSame_rest env .assert eps nansSame kinds h1 h2 with ⟨⟨tk, htk, hb⟩, _⟩ | ⟨_, hsm⟩
  · have := hsame tk htk _ _ (frameOf_get h1.1 htk) (frameOf_get h2.1 htk)
    rcases hb with hb | ⟨hk, hb⟩
    · exact absurd this.1 hb
    · exact absurd (this.2 hk) hb
  · rw [hsm]
    obtain ⟨tk, htk, v, hv, hn⟩ := hbad
    rcases hv with hv | hv
    · rw [frameOf_get h1.1 htk] at hv
      cases hv
      rw [hnone h1 ⟨tk, htk, hn⟩]
      cases copyFactory env false kinds o1 <;> rfl
    · rw [frameOf_get h2.1 htk] at hv
      cases hv
      rw [hnone h2 ⟨tk, htk, hn⟩]
      cases copyFactory env false kinds o1 <;> cases panToTic env .assert false kinds o1 <;> rfl


/-! ## `copy_pan_dat` -/

/-- The default values are for fields of the table. -/
def PanDefaults (kinds : List (String × TabKind)) : Prop :=
  ∀ tk ∈ kinds, ∀ c, tk.2 = .plain c → (PyDict.keys c.defaults).Nodup ∧ ∀ f ∈ PyDict.keys c.defaults, f ∈ c.fields

theorem panInit_generic (v : Frame) : panInit ⟨[], [], []⟩ v = some v := by
  have h1 : panIndex ⟨[], [], []⟩ v = some v := rfl
  have h2 : panFill ⟨[], [], []⟩ v = v := by
    unfold panFill
    simp only [List.append_nil, List.length_nil, ge_iff_le, Nat.zero_le, decide_true, Bool.and_true]
    have h3 : v.rename [] = v := by
      unfold Frame.rename
      simp
    rw [h3]
    by_cases hp : v.positional = true
    · simp [hp]
    · simp [hp, Frame.withDefaults]
  unfold panInit
  rw [h1, Option.bind_some, h2]
  rfl

/-- One table of `copy_pan_dat`. -/
theorem copied_frame {c : TabClass} (hne : c.fields ≠ []) (hn : c.fields.Nodup) (hd : (PyDict.keys c.defaults).Nodup)
    (hsub : ∀ f ∈ PyDict.keys c.defaults, f ∈ c.fields) {v : Frame} (hv : FrameOK v) (hcol : ∀ f ∈ c.fields, Label.name f ∈ v.cols) :
    ∃ u, panInit c v = some u ∧ FrameOK u ∧ u.cols = c.fields.map .name ++ v.cols.filter (fun l => !decide (l ∈ c.fields.map .name)) ∧
      u.rows.length = v.rows.length ∧
      ∀ (i : Nat) r s, v.rows[i]? = some r → u.rows[i]? = some s → ∀ l ∈ v.cols, colCell u s l = colCell v r l := by
  have hni : ¬ PanIndexed c v := by
    rintro ⟨h1, h2, _⟩
    obtain ⟨p, hp⟩ := List.exists_mem_of_ne_nil _ h1
    exact h2 p hp (hcol p (List.mem_append_left _ hp))
  have hnn : ¬ Numbered v := by
    intro h
    obtain ⟨f, hf⟩ := List.exists_mem_of_ne_nil _ hne
    have := hcol f hf
    rw [h] at this
    obtain ⟨i, _, e⟩ := List.mem_map.mp this
    cases e
  have hfit : PanFits c v := .inr (.inr ⟨hni, hnn, fun f hf => .inl (hcol f hf)⟩)
  obtain ⟨hiff, hres⟩ := pan_init_iff c hn hd hsub v hv
  obtain ⟨u, hu⟩ := Option.ne_none_iff_exists'.mp (hiff.mpr hfit)
  have hr := hres u hu
  have hoth : otherCols c v = v.cols.filter (fun l => !decide (l ∈ c.fields.map .name)) := by
    unfold otherCols
    rw [if_neg (fun h => hnn h.2)]
  refine ⟨u, hu, hr.ok, by rw [hr.cols, hoth], hr.len, fun i r s h1 h2 l hl => ?_⟩
  by_cases hf : l ∈ c.fields.map .name
  · obtain ⟨f, hf', rfl⟩ := List.mem_map.mp hf
    rw [hr.fields i r s h1 h2 f hf']
    unfold panCell
    rw [if_neg (fun h => hni h.1), if_neg (fun h => hnn h.2), if_pos hl]
  · apply hr.others i r s h1 h2 l
    rw [hoth, List.mem_filter]
    exact ⟨hl, by simpa using hf⟩

/-- **C78, copying.**  `copy_pan_dat` of a good object succeeds.  The copy is a good object with the same rows in each table:
in every row it has the same value in every column.  Fields come first, and nothing changes if they did already.  If the
tables can be compared, the copy is the same data as the object. -/
theorem copy_pan_dat_same (env : FactoryEnv) (policy : DupPolicy) (kinds : List (String × TabKind)) (hs : PanSchema env kinds)
    (hdef : PanDefaults kinds) (obj : PyDict String Frame) (ho : PanObj kinds obj) :
    ∃ obj', copyPanDat kinds obj = some obj' ∧ PanObj kinds obj' ∧
      (∀ tk ∈ kinds, ∀ v u, PyDict.get? obj tk.1 = some v → PyDict.get? obj' tk.1 = some u →
        u.cols = tk.2.fields.map .name ++ v.cols.filter (fun l => !decide (l ∈ tk.2.fields.map .name)) ∧
        u.rows.length = v.rows.length ∧
        (∀ (i : Nat) r s, v.rows[i]? = some r → u.rows[i]? = some s → ∀ l ∈ v.cols, colCell u s l = colCell v r l) ∧
        (∀ rest, v.cols = tk.2.fields.map .name ++ rest → u = v)) ∧
      ((∀ tk ∈ kinds, ∀ v, PyDict.get? obj tk.1 = some v → Comparable env tk.2 v) →
        ∀ eps, 0 ≤ eps → panSame env policy eps true kinds obj obj' = some true) := by
  have hone : ∀ tk ∈ kinds, ∃ u, panInit tk.2.cls (frameOf obj tk.1) = some u ∧ FrameOK u ∧
      u.cols = tk.2.fields.map .name ++ (frameOf obj tk.1).cols.filter (fun l => !decide (l ∈ tk.2.fields.map .name)) ∧
      u.rows.length = (frameOf obj tk.1).rows.length ∧
      (∀ (i : Nat) r s, (frameOf obj tk.1).rows[i]? = some r → u.rows[i]? = some s → ∀ l ∈ (frameOf obj tk.1).cols,
        colCell u s l = colCell (frameOf obj tk.1) r l) ∧
      (∀ rest, (frameOf obj tk.1).cols = tk.2.fields.map .name ++ rest → u = frameOf obj tk.1) := by
    intro tk htk
    obtain ⟨hv, hcol⟩ := ho.2 tk htk _ (frameOf_get ho.1 htk)
    rcases hs.fields tk htk with hk | ⟨c, hk, hne, hlow⟩
    · rw [hk]
      refine ⟨frameOf obj tk.1, panInit_generic _, hv, (List.filter_eq_self.mpr (fun _ _ => rfl)).symm, rfl, fun i r s h1 h2 l _ => ?_, fun _ _ => rfl⟩
      rw [h1] at h2; cases h2; rfl
    · rw [hk] at hcol ⊢
      obtain ⟨hd, hsub⟩ := hdef tk htk c hk
      obtain ⟨u, hu, h1, h2, h3, h4⟩ := copied_frame hne (lower_nodup hlow) hd hsub hv hcol
      refine ⟨u, hu, h1, h2, h3, h4, fun rest he => ?_⟩
      have := pan_copy_same c hd hsub (frameOf obj tk.1) rest he
      rw [this] at hu
      exact (Option.some.inj hu).symm
  obtain ⟨g, hg⟩ : ∃ g : String × TabKind → Frame, ∀ tk ∈ kinds, panInit tk.2.cls (frameOf obj tk.1) = some (g tk) :=
    ⟨fun tk => (panInit tk.2.cls (frameOf obj tk.1)).getD ⟨[], [], []⟩, fun tk htk => by
      obtain ⟨u, hu, _⟩ := hone tk htk
      simp only [hu, Option.getD_some]⟩
  have hcopy : copyPanDat kinds obj = some (kinds.map (fun tk => (tk.1, g tk))) := by
    unfold copyPanDat
    rw [if_pos (goodPanObject_of ho)]
    apply mapM_eq_map
    intro tk htk
    rw [frameOf_get ho.1 htk, Option.bind_some, hg tk htk]
    rfl
  have hget : ∀ tk ∈ kinds, PyDict.get? (kinds.map (fun tk => (tk.1, g tk))) tk.1 = some (g tk) :=
    fun tk htk => get?_map_names kinds hs.names g htk
  have hfacts : ∀ tk ∈ kinds, FrameOK (g tk) ∧
      (g tk).cols = tk.2.fields.map .name ++ (frameOf obj tk.1).cols.filter (fun l => !decide (l ∈ tk.2.fields.map .name)) ∧
      (g tk).rows.length = (frameOf obj tk.1).rows.length ∧
      (∀ (i : Nat) r s, (frameOf obj tk.1).rows[i]? = some r → (g tk).rows[i]? = some s → ∀ l ∈ (frameOf obj tk.1).cols,
        colCell (g tk) s l = colCell (frameOf obj tk.1) r l) ∧
      (∀ rest, (frameOf obj tk.1).cols = tk.2.fields.map .name ++ rest → g tk = frameOf obj tk.1) := by
    intro tk htk
    obtain ⟨u, hu, h⟩ := hone tk htk
    rw [hg tk htk] at hu
    cases hu
    exact h
  have ho' : PanObj kinds (kinds.map (fun tk => (tk.1, g tk))) := by
    refine ⟨by unfold PyDict.keys; rw [List.map_map]; rfl, fun tk htk v hv => ?_⟩
    rw [hget tk htk] at hv
    cases hv
    obtain ⟨h1, h2, _⟩ := hfacts tk htk
    refine ⟨h1, fun f hf => ?_⟩
    rw [h2]
    exact List.mem_append_left _ (List.mem_map.mpr ⟨f, hf, rfl⟩)
  refine ⟨_, hcopy, ho', fun tk htk v u hv hu => ?_, fun hcmp eps he => ?_⟩
  · rw [frameOf_get ho.1 htk] at hv
    rw [hget tk htk] at hu
    cases hv; cases hu
    exact (hfacts tk htk).2
  · -- the rows of the copy
    have hmemcols : ∀ tk ∈ kinds, ∀ l, l ∈ (frameOf obj tk.1).cols ↔ l ∈ (g tk).cols := by
      intro tk htk l
      obtain ⟨_, h2, _⟩ := hfacts tk htk
      have hcol := (ho.2 tk htk _ (frameOf_get ho.1 htk)).2
      rw [h2, List.mem_append, List.mem_filter]
      by_cases hf : l ∈ tk.2.fields.map .name
      · obtain ⟨f, hf', rfl⟩ := List.mem_map.mp hf
        exact ⟨fun _ => .inl hf, fun _ => hcol f hf'⟩
      · simp [hf]
    have hpair : ∀ tk ∈ kinds, ∀ r ∈ (frameOf obj tk.1).rows, ∃ s ∈ (g tk).rows, ∀ l ∈ (frameOf obj tk.1).cols,
        colCell (g tk) s l = colCell (frameOf obj tk.1) r l := by
      intro tk htk r hr
      obtain ⟨_, _, h3, h4, _⟩ := hfacts tk htk
      obtain ⟨i, hi⟩ := List.mem_iff_getElem?.mp hr
      have hlt : i < (g tk).rows.length := by
        rw [h3]
        exact (List.getElem?_eq_some_iff.mp hi).1
      exact ⟨_, List.getElem_mem hlt, h4 i r _ hi (List.getElem?_eq_getElem hlt)⟩
    have hcmp' : ∀ tk ∈ kinds, ∀ v, PyDict.get? (kinds.map (fun tk => (tk.1, g tk))) tk.1 = some v → Comparable env tk.2 v := by
      intro tk htk v hv
      rw [hget tk htk] at hv
      cases hv
      have hc := hcmp tk htk _ (frameOf_get ho.1 htk)
      have hcol := (ho.2 tk htk _ (frameOf_get ho.1 htk)).2
      obtain ⟨_, h2, h3, h4, _⟩ := hfacts tk htk
      rcases hs.fields tk htk with hk | ⟨c, hk, _⟩
      · have hu : g tk = frameOf obj tk.1 := by
          have := hg tk htk
          rw [hk, show TabKind.generic.cls = ⟨[], [], []⟩ from rfl, panInit_generic] at this
          exact (Option.some.inj this).symm
        rw [hu]
        exact hc
      · rw [hk] at hc hcol ⊢
        refine ⟨hc.1, hc.2.imp id (fun hnd => ?_)⟩
        have hmap : (g tk).rows.map (fun r => keyFrom c.pks (fieldCell (g tk) r)) =
            (frameOf obj tk.1).rows.map (fun r => keyFrom c.pks (fieldCell (frameOf obj tk.1) r)) := by
          apply List.ext_getElem
          · simp [h3]
          · intro i hi1 hi2
            rw [List.getElem_map, List.getElem_map]
            refine (keyFrom_inj _ _ _).mpr (fun f hf => ?_)
            exact h4 i _ _ (List.getElem?_eq_getElem (by simpa using hi2)) (List.getElem?_eq_getElem (by simpa using hi1)) _
              (hcol f (List.mem_append_left _ hf))
        rw [hmap]
        exact hnd
    obtain ⟨b, hb, hbi⟩ := pan_same_iff env policy eps he true kinds hs obj _ ho ho' hcmp hcmp'
    rw [hb, hbi.mpr]
    intro tk htk v w hv hw
    rw [frameOf_get ho.1 htk] at hv
    rw [hget tk htk] at hw
    cases hv; cases hw
    have hcol := (ho.2 tk htk _ (frameOf_get ho.1 htk)).2
    refine ⟨(hfacts tk htk).2.2.1.symm, ?_⟩
    rcases hs.fields tk htk with hk | ⟨c, hk, _⟩
    · rw [hk]
      refine ⟨hmemcols tk htk, fun r hr => ?_⟩
      obtain ⟨s, hs', hcell⟩ := hpair tk htk r hr
      refine ⟨s, hs', fun l hl => ?_⟩
      rw [hcell l hl]
      exact cells_refl _ rfl _
    · rw [hk] at hcol ⊢
      intro r hr
      obtain ⟨s, hs', hcell⟩ := hpair tk htk r hr
      refine ⟨s, hs', fun f hf => ?_, fun f hf => ?_⟩
      · exact (hcell _ (hcol f (List.mem_append_left _ hf))).symm
      · unfold fieldCell
        rw [hcell _ (hcol f (List.mem_append_right _ hf))]
        exact cells_refl _ rfl _

/-! ## Findings and examples -/

/-- Finding: a generic table without columns cannot be compared, so two objects for which nothing was passed for a generic
table (it is then an empty DataFrame, pandatfactory.py:1011-1012) cannot be compared either, not even an object with itself. -/
theorem pan_same_empty_generic (env : FactoryEnv) (eps : Rat) (nansSame : Bool) (kinds : List (String × TabKind))
    (hs : PanSchema env kinds) (obj : PyDict String Frame) (ho : PanObj kinds obj) (t : String) (hk : (t, TabKind.generic) ∈ kinds)
    (v : Frame) (hv : PyDict.get? obj t = some v) (hc : v.cols = []) : panSame env .assert eps nansSame kinds obj obj = none := by
  refine pan_same_raises env eps nansSame kinds hs obj obj ho ho (fun tk htk v w h1 h2 => ?_) ⟨_, hk, v, .inl hv, fun h => h.1 hc⟩
  rw [h1] at h2
  cases h2
  exact ⟨rfl, fun _ _ => Iff.rfl⟩

/-- A table with a key, a log, and a generic table. -/
def panKinds : List (String × TabKind) :=
  [("ship", .plain ⟨["from", "to"], ["cost"], [("cost", .num (.fin 0))]⟩), ("log", .plain ⟨[], ["line"], []⟩), ("raw", .generic)]

/-- An object with an extra column and columns in another order. -/
def panObj1 (x : Cell) : PyDict String Frame :=
  [("ship", ⟨[], [.name "cost", .name "memo", .name "to", .name "from"],
      [([], [.num (.fin 3), .str "m", .str "b", .str "a"]), ([], [x, .none, .str "c", .str "a"])]⟩),
   ("log", ⟨[], [.name "line"], [([], [.str "p"]), ([], [.str "q"])]⟩),
   ("raw", ⟨[], [.name "u", .name "v"], [([], [.num (.fin 1), .str "z"])]⟩)]

/-- The same with the fields first and the rows turned around. -/
def panObj2 : PyDict String Frame :=
  [("ship", ⟨[], [.name "from", .name "to", .name "cost"],
      [([], [.str "a", .str "c", .nan]), ([], [.str "a", .str "b", .num (.fin 3)])]⟩),
   ("log", ⟨[], [.name "line"], [([], [.str "q"]), ([], [.str "p"])]⟩),
   ("raw", ⟨[], [.name "v", .name "u"], [([], [.str "z", .num (.fin 1)])]⟩)]

/-- Upper case letters of ASCII. -/
def panEnv : FactoryEnv := ⟨⟨fun _ => none, fun _ => none, fun _ => ""⟩, asciiEnv, fun _ => false⟩

theorem panKinds_ok : PanSchema panEnv panKinds where
  names := by decide
  fields := by
    intro tk htk
    simp only [panKinds, List.mem_cons, List.not_mem_nil, or_false] at htk
    rcases htk with rfl | rfl | rfl
    · exact .inr ⟨_, rfl, by decide, by decide⟩
    · exact .inr ⟨_, rfl, by decide, by decide⟩
    · exact .inl rfl


theorem panObj1_ok (x : Cell) : PanObj panKinds (panObj1 x) := by
  refine ⟨rfl, fun tk htk v hv => ?_⟩
  simp only [panKinds, List.mem_cons, List.not_mem_nil, or_false] at htk
  rcases htk with rfl | rfl | rfl <;> cases hv
  · refine ⟨⟨show [Label.name "cost", .name "memo", .name "to", .name "from"].Nodup by decide, List.nodup_nil, ?_⟩,
      show ∀ f ∈ ["from", "to", "cost"], Label.name f ∈ [Label.name "cost", .name "memo", .name "to", .name "from"] by decide⟩
    intro r hr
    simp only [List.mem_cons, List.not_mem_nil, or_false] at hr
    rcases hr with rfl | rfl <;> exact ⟨rfl, rfl⟩
  · exact ⟨⟨by decide, by decide, by decide⟩, by decide⟩
  · exact ⟨⟨by decide, by decide, by decide⟩, by decide⟩

theorem panObj2_ok : PanObj panKinds panObj2 := by
  refine ⟨rfl, fun tk htk v hv => ?_⟩
  simp only [panKinds, List.mem_cons, List.not_mem_nil, or_false] at htk
  rcases htk with rfl | rfl | rfl <;> cases hv <;> exact ⟨⟨by decide, by decide, by decide⟩, by decide⟩

theorem panObj1_comparable (x : Cell) : ∀ tk ∈ panKinds, ∀ v, PyDict.get? (panObj1 x) tk.1 = some v → Comparable panEnv tk.2 v := by
  intro tk htk v hv
  simp only [panKinds, List.mem_cons, List.not_mem_nil, or_false] at htk
  rcases htk with rfl | rfl | rfl <;> cases hv
  · refine ⟨⟨by decide, by decide⟩, .inr ?_⟩
    show [KeyArg.tup [.str "a", .str "b"], KeyArg.tup [.str "a", .str "c"]].Nodup
    decide
  · exact ⟨⟨by decide, by decide⟩, .inl rfl⟩
  · exact ⟨by decide, ["u", "v"], rfl, by decide⟩

theorem panObj2_comparable : ∀ tk ∈ panKinds, ∀ v, PyDict.get? panObj2 tk.1 = some v → Comparable panEnv tk.2 v := by
  intro tk htk v hv
  simp only [panKinds, List.mem_cons, List.not_mem_nil, or_false] at htk
  rcases htk with rfl | rfl | rfl <;> cases hv
  · refine ⟨⟨by decide, by decide⟩, .inr ?_⟩
    show [KeyArg.tup [.str "a", .str "c"], KeyArg.tup [.str "a", .str "b"]].Nodup
    decide
  · exact ⟨⟨by decide, by decide⟩, .inl rfl⟩
  · exact ⟨by decide, ["v", "u"], rfl, by decide⟩

/-- The hypotheses of `pan_same_iff` are met, by objects that are the same (if NaNs are) and by objects that are not. -/
example : ∃ b, panSame panEnv .assert 0 true panKinds (panObj1 .nan) panObj2 = some b := by
  obtain ⟨b, h, _⟩ := pan_same_iff panEnv .assert 0 (by decide) true panKinds panKinds_ok _ _ (panObj1_ok .nan) panObj2_ok
    (panObj1_comparable _) panObj2_comparable
  exact ⟨b, h⟩

example : panSame panEnv .assert 0 true panKinds (panObj1 .nan) panObj2 = some true ∧
    panSame panEnv .assert 0 false panKinds (panObj1 .nan) panObj2 = some false ∧
    panSame panEnv .assert 0 true panKinds (panObj1 (.num (.fin 4))) panObj2 = some false := by
  refine ⟨?_, ?_, ?_⟩ <;> decide +kernel

example : ∃ obj', copyPanDat panKinds (panObj1 .nan) = some obj' ∧
    panSame panEnv .assert 0 true panKinds (panObj1 .nan) obj' = some true := by
  obtain ⟨obj', h1, _, _, h2⟩ := copy_pan_dat_same panEnv .assert panKinds panKinds_ok (by
    intro tk htk c hk
    simp only [panKinds, List.mem_cons, List.not_mem_nil, or_false] at htk
    rcases htk with rfl | rfl | rfl <;> cases hk <;> exact ⟨by decide, by decide⟩) _ (panObj1_ok .nan)
  exact ⟨obj', h1, h2 (panObj1_comparable .nan) 0 (by decide)⟩

example : copyToTicDat panEnv .assert panKinds (panObj1 .nan) ≠ none :=
  (copy_to_tic_dat_iff panEnv .assert panKinds panKinds_ok _ (panObj1_ok .nan)).1.mpr (by
    intro tk htk c hk
    have hc := panObj1_comparable .nan tk htk
    rw [hk] at hc
    refine ⟨?_, fun _ v hv => (hc v hv).2⟩
    obtain ⟨v, hv⟩ : ∃ v, PyDict.get? (panObj1 .nan) tk.1 = some v := ⟨_, frameOf_get (panObj1_ok .nan).1 htk⟩
    exact (hc v hv).1)

/-- Two rows with the same key: the comparison raises, whatever the tolerance. -/
example (eps : Rat) (ns : Bool) :
    let obj : PyDict String Frame := [("t", ⟨[], [.name "k"], [([], [.str "a"]), ([], [.str "a"])]⟩)]
    panSame panEnv .assert eps ns [("t", .plain ⟨["k"], [], []⟩)] obj obj = none := by
  intro obj
  refine pan_same_raises panEnv eps ns _ ⟨by decide, ?_⟩ obj obj ?_ ?_ ?_ ?_
  · intro tk htk
    simp only [List.mem_cons, List.not_mem_nil, or_false] at htk
    subst htk
    exact .inr ⟨_, rfl, by decide, by decide⟩
  · refine ⟨rfl, fun tk htk v hv => ?_⟩
    simp only [List.mem_cons, List.not_mem_nil, or_false] at htk
    subst htk
    cases hv
    exact ⟨⟨by decide, by decide, by decide⟩, by decide⟩
  · refine ⟨rfl, fun tk htk v hv => ?_⟩
    simp only [List.mem_cons, List.not_mem_nil, or_false] at htk
    subst htk
    cases hv
    exact ⟨⟨by decide, by decide, by decide⟩, by decide⟩
  · intro tk htk v w h1 h2
    rw [h1] at h2
    cases h2
    exact ⟨rfl, fun _ _ => Iff.rfl⟩
  · refine ⟨_, List.mem_cons_self .., _, .inl rfl, fun h => ?_⟩
    have h : [KeyArg.one (.str "a"), KeyArg.one (.str "a")].Nodup := h.2.resolve_left (by decide)
    exact absurd h (by decide)

/-- Finding: two objects with the same data for which nothing was passed for a generic table. -/
example : panSame panEnv .assert 0 true panKinds
    [("ship", ⟨[], [.name "from", .name "to", .name "cost"], []⟩), ("log", ⟨[], [.name "line"], []⟩), ("raw", ⟨[], [], []⟩)]
    [("ship", ⟨[], [.name "from", .name "to", .name "cost"], []⟩), ("log", ⟨[], [.name "line"], []⟩), ("raw", ⟨[], [], []⟩)] = none := by
  decide +kernel

end Ticdat

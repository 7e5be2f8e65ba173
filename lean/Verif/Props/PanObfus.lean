import Verif.Spec.PanObfus
import Verif.Props.ObfusTotal
import Verif.Props.PanSame
import Verif.Props.PanInit
import Verif.Props.PanAdjust
import Verif.Props.AmplSend
import Verif.Props.PanFiles
/-!
# C82: `obfusimplify` of a `PanDatFactory`
-/
set_option linter.unusedSimpArgs false
set_option linter.unusedSectionVars false
namespace Ticdat
open Spec

/-- The kinds of the tables: none is a generic or generator table. -/
abbrev plainKinds (schema : List (String × TabClass)) : List (String × TabKind) := schema.map (fun tc => (tc.1, TabKind.plain tc.2))

/-- The rows of a DataFrame as a table. -/
def frameTable (c : TabClass) (v : Frame) : TableData Cell :=
  if c.pks = [] then .list (v.rows.map (fun r => c.dfs.map (fieldCell v r)))
  else .dict (v.rows.map (fun r => ((keyFrom c.pks (fieldCell v r)).toPKey, c.dfs.map (fieldCell v r))))

theorem dataFrom_cells (dfs : List String) (cell : String → Cell) :
    dfs.map (fun f => (PyDict.get? (dataFrom dfs cell) f).getD .none) = dfs.map cell := by
  apply List.map_congr_left
  intro f hf
  rw [get?_dataFrom dfs cell f hf, Option.getD_some]

theorem tabToData_frame {c : TabClass} {v : Frame} {tab : TabVal} (h : TableOfRows c v.rows (fieldCell v) tab) (hd : DistinctKeys c v) :
    tabToData c tab = frameTable c v := by
  unfold TableOfRows at h
  unfold frameTable
  by_cases hp : c.pks = []
  · rw [if_pos hp] at h ⊢
    subst h
    simp only [tabToData, List.map_map]
    congr 1
    apply List.map_congr_left
    intro r _
    exact dataFrom_cells c.dfs (fieldCell v r)
  · rw [if_neg hp] at h ⊢
    obtain ⟨d, rfl, _, _, h⟩ := h
    rw [h (hd.resolve_left hp)]
    simp only [tabToData, List.map_map]
    congr 1
    apply List.map_congr_left
    intro r _
    simp only [Function.comp_apply, Prod.mk.injEq, true_and]
    exact dataFrom_cells c.dfs (fieldCell v r)

theorem keyVals_keyFrom (pks : List String) (cell : String → Cell) : keyVals (keyFrom pks cell).toPKey = pks.map cell := by
  match pks with
  | [] => rfl
  | [p] => rfl
  | p :: q :: ps => rfl

theorem toPKey_inj {a b : KeyArg} (h : a.toPKey = b.toPKey) : a = b := by
  cases a <;> cases b <;> simp_all [KeyArg.toPKey]

theorem keyFrom_ok (pks : List String) (hp : pks ≠ []) (cell : String → Cell) : KeyOK pks.length (keyFrom pks cell).toPKey := by
  match pks with
  | [] => exact absurd rfl hp
  | [p] => rfl
  | p :: q :: ps => exact ⟨by simp, by simp⟩

theorem frameTable_ok {c : TabClass} {v : Frame} (hd : DistinctKeys c v) : TableOK ⟨c.pks, c.dfs⟩ (frameTable c v) := by
  unfold frameTable
  by_cases hp : c.pks = []
  · rw [if_pos hp]
    refine ⟨hp, fun r hr => ?_⟩
    obtain ⟨x, _, rfl⟩ := List.mem_map.1 hr
    simp
  · rw [if_neg hp]
    refine ⟨hp, ?_, fun p hpm => ?_⟩
    · have := hd.resolve_left hp
      rw [List.map_map]
      rw [List.Nodup, List.pairwise_map] at this ⊢
      exact this.imp (fun hne e => hne (toPKey_inj e))
    · obtain ⟨x, _, rfl⟩ := List.mem_map.1 hpm
      exact ⟨keyFrom_ok c.pks hp _, by simp⟩

theorem pairwise2_zipIdx_map {A B : Type} (g : A → B) (l : List A) :
    ∀ n, Pairwise2 (fun a (p : B × Nat) => p.1 = g a) l ((l.map g).zipIdx n) := by
  induction l with
  | nil => intro n; exact .nil
  | cons a l ih => intro n; exact .cons rfl (ih (n + 1))

/-- The items of the table are the rows of the DataFrame. -/
theorem frameTable_items {c : TabClass} {v : Frame} :
    Pairwise2 (fun r (p : PKey Cell × List Cell) => keyVals p.1 = c.pks.map (fieldCell v r) ∧ p.2 = c.dfs.map (fieldCell v r))
      v.rows (frameTable c v).items := by
  unfold frameTable
  by_cases hp : c.pks = []
  · rw [if_pos hp]
    simp only [TableData.items]
    refine pairwise2_to_map (pairwise2_zipIdx_map (fun r => c.dfs.map (fieldCell v r)) v.rows 0) ?_
    intro r _ p hpr
    rw [hp]
    exact ⟨rfl, hpr⟩
  · rw [if_neg hp]
    exact pairwise2_refl_map _ (fun r _ => ⟨keyVals_keyFrom _ _, rfl⟩)

theorem recOf_cells {c : TabClass} {pk : PKey Cell} {row : List Cell} (h1 : (keyVals pk).length = c.pks.length)
    (h2 : row.length = c.dfs.length) {f : String} (hf : f ∈ c.fields) :
    recOf ⟨c.pks, c.dfs⟩ pk row f = (keyVals pk ++ row)[c.fields.idxOf f]? := by
  unfold recOf
  simp only
  rw [← List.zip_append h1.symm, lookup_zip _ _ _ (by simp [h1, h2])]
  rw [if_pos (show f ∈ c.pks ++ c.dfs from hf)]
  rfl

theorem map_idxOf {A : Type} (l : List String) (g : String → A) {f : String} (hf : f ∈ l) : (l.map g)[l.idxOf f]? = some (g f) := by
  rw [List.getElem?_map]
  have : l[l.idxOf f]? = some f := by
    rw [List.getElem?_eq_getElem (List.idxOf_lt_length_iff.2 hf)]
    simp
  rw [this]
  rfl

/-- The records of the table are the rows of the DataFrame. -/
theorem frameTable_rows {c : TabClass} {v : Frame} :
    Pairwise2 (fun r (p : PKey Cell × Rec Cell) => ∀ f ∈ c.fields, p.2 f = some (fieldCell v r f))
      v.rows (rows ⟨c.pks, c.dfs⟩ (frameTable c v)) := by
  rw [rows_eq_items]
  refine pairwise2_to_map frameTable_items ?_
  rintro r _ p ⟨h1, h2⟩ f hf
  simp only
  rw [recOf_cells (by rw [h1]; simp) (by rw [h2]; simp) hf, h1, h2, ← List.map_append]
  exact map_idxOf c.fields _ hf

theorem keyOf_frame {c : TabClass} {v : Frame} {f : String} (hp : c.pks = [f]) (x : Cell) :
    (∃ row, (PKey.one x, row) ∈ (frameTable c v).items) ↔ x ∈ v.rows.map (fun r => fieldCell v r f) := by
  unfold frameTable
  rw [if_neg (by rw [hp]; simp), hp]
  simp only [TableData.items, List.mem_map, keyFrom, KeyArg.toPKey, Prod.mk.injEq, PKey.one.injEq]
  constructor
  · rintro ⟨row, r, hr, h, _⟩
    exact ⟨r, hr, h⟩
  · rintro ⟨r, hr, h⟩
    exact ⟨_, r, hr, h, rfl⟩

theorem keyCells_toArg {n : Nat} {pk : PKey Cell} (h : KeyOK n pk) : keyCells pk.toArg = keyVals pk := by
  cases pk with
  | one v => rfl
  | many vs => rfl
  | idx i => exact h.elim

theorem keyVals_length {n : Nat} {pk : PKey Cell} (h : KeyOK n pk) : (keyVals pk).length = n := by
  cases pk with
  | one v => exact h.symm
  | many vs => exact h.1
  | idx i => exact h.elim

theorem zip_snd {dfs : List String} {row : List Cell} (h : row.length = dfs.length) : (dfs.zip row).map Prod.snd = row := by
  rw [List.map_snd_zip (by omega)]

theorem zip_fst {dfs : List String} {row : List Cell} (h : row.length = dfs.length) : (dfs.zip row).map Prod.fst = dfs := by
  rw [List.map_fst_zip (by omega)]

theorem dataCells_zip {c : TabClass} (hn : c.dfs.Nodup) {row : List Cell} (h : row.length = c.dfs.length) :
    dataCells c (c.dfs.zip row) = some row := by
  rw [dataCells_eq c hn _ (zip_fst h), zip_snd h]

theorem dataToTab_flat {c : TabClass} (hn : c.dfs.Nodup) {d : TableData Cell} (h : TableOK ⟨c.pks, c.dfs⟩ d) :
    flatRows c (dataToTab c d) = some (d.items.map (fun p => keyVals p.1 ++ p.2)) := by
  cases d with
  | dict rs =>
    simp only [dataToTab, flatRows, TableData.items]
    rw [mapM_eq_some_iff, List.map_map, List.map_map]
    apply List.map_congr_left
    intro p hp
    obtain ⟨h1, h2⟩ := h.2.2 p hp
    simp only [Function.comp_apply]
    rw [dataCells_zip hn h2, keyCells_toArg h1]
    rfl
  | list rs =>
    simp only [dataToTab, flatRows, TableData.items]
    rw [mapM_eq_some_iff, List.map_map, List.map_map, List.map_map]
    have : ∀ (l : List (List Cell)) n, (∀ r ∈ l, r.length = c.dfs.length) →
        l.map (dataCells c ∘ fun r => c.dfs.zip r) =
          (l.zipIdx n).map (some ∘ (fun p : PKey Cell × List Cell => keyVals p.1 ++ p.2) ∘ fun p : List Cell × Nat => (PKey.idx p.2, p.1)) := by
      intro l
      induction l with
      | nil => intro n _; rfl
      | cons r l ih =>
        intro n hl
        rw [List.zipIdx_cons, List.map_cons, List.map_cons, ih (n + 1) (fun r hr => hl r (List.mem_cons_of_mem _ hr))]
        congr 1
        exact dataCells_zip hn (hl r List.mem_cons_self)
    exact this rs 0 h.2

theorem dataToTab_size {c : TabClass} (d : TableData Cell) : (dataToTab c d).size = 0 ↔ d.items = [] := by
  cases d with
  | dict rs => simp [dataToTab, TabVal.size, TableData.items]
  | list rs => simp [dataToTab, TabVal.size, TableData.items]

theorem items_length {c : TabClass} {d : TableData Cell} (h : TableOK ⟨c.pks, c.dfs⟩ d) {p : PKey Cell × List Cell} (hp : p ∈ d.items) :
    (keyVals p.1).length = c.pks.length ∧ p.2.length = c.dfs.length := by
  cases d with
  | dict rs =>
    obtain ⟨h1, h2⟩ := h.2.2 p hp
    exact ⟨keyVals_length h1, h2⟩
  | list rs =>
    simp only [TableData.items, List.mem_map] at hp
    obtain ⟨⟨r, i⟩, hr, rfl⟩ := hp
    have hz : c.pks = [] := h.1
    rw [hz]
    exact ⟨rfl, h.2 r (List.fst_mem_of_mem_zipIdx hr)⟩

/-- A table of the copy as a DataFrame: its fields are the columns and its rows the records. -/
theorem backToPan_frame {penv : PandasEnv} (hpe : KeepsRows penv) {c : TabClass} (hf : c.fields.Nodup)
    (hdn : (PyDict.keys c.defaults).Nodup) (hds : ∀ f ∈ PyDict.keys c.defaults, f ∈ c.fields)
    {d : TableData Cell} (h : TableOK ⟨c.pks, c.dfs⟩ d) :
    ∃ v, copyToPandas penv c none true (dataToTab c d) = some v ∧ panInit c v = some v ∧ v.cols = c.fields.map .name ∧
      Pairwise2 (fun (p : PKey Cell × Rec Cell) r => ∀ f ∈ c.fields, ∃ x, p.2 f = some x ∧ Stored x (fieldCell v r f))
        (rows ⟨c.pks, c.dfs⟩ d) v.rows := by
  have hn : c.dfs.Nodup := (List.nodup_append.1 hf).2.1
  have hplain : ∀ rs, dataToTab c d = .plain rs → c.pks = [] := by
    intro rs e
    cases d with
    | dict rs' => simp [dataToTab] at e
    | list rs' => exact h.1
  suffices hv : ∃ v, copyToPandas penv c none true (dataToTab c d) = some v ∧ v.cols = c.fields.map .name ∧
      Pairwise2 (fun (p : PKey Cell × Rec Cell) r => ∀ f ∈ c.fields, ∃ x, p.2 f = some x ∧ Stored x (fieldCell v r f))
        (rows ⟨c.pks, c.dfs⟩ d) v.rows by
    obtain ⟨v, h1, h2, h3⟩ := hv
    exact ⟨v, h1, (to_pandas_good_pan penv c hdn hds none true (.inl rfl) _ hplain v h1).2, h2, h3⟩
  unfold copyToPandas
  by_cases hz : (dataToTab c d).size = 0
  · rw [if_pos hz]
    refine ⟨_, rfl, rfl, ?_⟩
    rw [rows_eq_items, (dataToTab_size d).1 hz]
    exact .nil
  · rw [if_neg hz, dataToTab_flat hn h]
    have hrows : ∀ (v : Frame), v.cols = c.fields.map .name →
        v.rows = (penv.store (d.items.map (fun p => keyVals p.1 ++ p.2))).map (fun r => ([], r)) →
        Pairwise2 (fun (p : PKey Cell × Rec Cell) r => ∀ f ∈ c.fields, ∃ x, p.2 f = some x ∧ Stored x (fieldCell v r f))
          (rows ⟨c.pks, c.dfs⟩ d) v.rows := by
      intro v hcols hr
      rw [hr, rows_eq_items]
      have hst := hpe (d.items.map (fun p => keyVals p.1 ++ p.2))
      rw [pairwise2_map_left] at hst
      rw [pairwise2_map_left]
      refine pairwise2_to_map hst ?_
      intro p hp r hpr f hfm
      obtain ⟨h1, h2⟩ := items_length h hp
      simp only
      rw [recOf_cells h1 h2 hfm]
      have hlt : c.fields.idxOf f < (keyVals p.1 ++ p.2).length := by
        have := List.idxOf_lt_length_iff.2 hfm
        rw [List.length_append, h1, h2]
        rwa [TabClass.fields, List.length_append] at this
      have hlt' : c.fields.idxOf f < r.length := by rw [pairwise2_length hpr]; exact hlt
      refine ⟨_, List.getElem?_eq_getElem hlt, ?_⟩
      unfold fieldCell colCell
      rw [hcols, idxOf_name]
      simp only
      rw [List.getElem?_eq_getElem hlt', Option.getD_some]
      exact pairwise2_get hpr (List.getElem?_eq_getElem hlt) (List.getElem?_eq_getElem hlt')
    cases d with
    | dict rs => exact ⟨_, rfl, rfl, hrows _ rfl rfl⟩
    | list rs =>
      have hp : c.pks = [] := h.1
      have hfe : c.dfs = c.fields := by unfold TabClass.fields; rw [hp]; rfl
      have hc : c.dfs.map Label.name = c.fields.map Label.name := by rw [hfe]
      exact ⟨_, rfl, hc, hrows _ hc rfl⟩

section schema
variable {schema : List (String × TabClass)}

theorem tablesSchema_get (t : String) : PyDict.get? (tablesSchema schema) t = (PyDict.get? schema t).map (fun c => ⟨c.pks, c.dfs⟩) :=
  get?_map_second (fun c : TabClass => (⟨c.pks, c.dfs⟩ : TSchema)) schema t

theorem tablesSchema_keys : PyDict.keys (tablesSchema schema) = schema.map Prod.fst := by
  simp [PyDict.keys, tablesSchema, Function.comp_def]

theorem tablesSchema_table (hn : (schema.map Prod.fst).Nodup) {tc : String × TabClass} (htc : tc ∈ schema) :
    (tablesSchema schema).pks tc.1 = tc.2.pks ∧ (tablesSchema schema).dfs tc.1 = tc.2.dfs := by
  have : PyDict.get? (tablesSchema schema) tc.1 = some ⟨tc.2.pks, tc.2.dfs⟩ := by
    rw [tablesSchema_get, PyDict.get?_of_mem hn htc]
    rfl
  simp [Schema.pks, Schema.dfs, this]

theorem tablesSchema_other {t : String} (h : ∀ c, (t, c) ∉ schema) : (tablesSchema schema).pks t = [] ∧ (tablesSchema schema).dfs t = [] := by
  have : PyDict.get? (tablesSchema schema) t = none := by
    rw [tablesSchema_get]
    cases hg : PyDict.get? schema t with
    | none => rfl
    | some c => exact absurd (PyDict.get?_mem hg) (h c)
  simp [Schema.pks, Schema.dfs, this]

theorem tablesSchema_ok (hn : (schema.map Prod.fst).Nodup) (hf : ∀ tc ∈ schema, tc.2.fields.Nodup) : SchemaOK (tablesSchema schema) := by
  refine ⟨by rw [tablesSchema_keys]; exact hn, fun t => ?_⟩
  by_cases h : ∃ c, (t, c) ∈ schema
  · obtain ⟨c, hc⟩ := h
    rw [(tablesSchema_table hn hc).1, (tablesSchema_table hn hc).2]
    exact hf _ hc
  · have := tablesSchema_other (t := t) (fun c hc => h ⟨c, hc⟩)
    rw [this.1, this.2]
    exact List.nodup_nil

end schema

section main
variable {env : FactoryEnv} {penv : PandasEnv} {iter : List String → List String} {upper : String → List Char}
  {sort : List Cell → Option (List Cell)} {schema : List (String × TabClass)} {fks0 fks : List FK} {obj : PyDict String Frame}
  {tp : PyDict String String} {skip : List String}

theorem plainKinds_names (schema : List (String × TabClass)) : (plainKinds schema).map Prod.fst = schema.map Prod.fst := by
  simp [plainKinds, Function.comp_def]

theorem plainKinds_fields (hs : PanSchema env (plainKinds schema)) : ∀ tc ∈ schema, tc.2.fields.Nodup := by
  intro tc htc
  rcases hs.fields (tc.1, .plain tc.2) (List.mem_map.2 ⟨tc, htc, rfl⟩) with h | ⟨c, h, _, hn⟩
  · cases h
  · cases h
    exact nodup_of_map _ hn

/-- The frame of every table. -/
theorem panObj_get (ho : PanObj (plainKinds schema) obj) {tc : String × TabClass} (htc : tc ∈ schema) :
    PyDict.get? obj tc.1 = some (frameOf obj tc.1) :=
  frameOf_get ho.1 (tk := (tc.1, .plain tc.2)) (List.mem_map.2 ⟨tc, htc, rfl⟩)

theorem copy_tables (hs : PanSchema env (plainKinds schema)) (ho : PanObj (plainKinds schema) obj) {dat : PyDict String OutTab}
    (h : copyToTicDat env .assert (plainKinds schema) obj = some dat) :
    ∀ tc ∈ schema, DistinctKeys tc.2 (frameOf obj tc.1) ∧ ticTables schema dat tc.1 = frameTable tc.2 (frameOf obj tc.1) := by
  intro tc htc
  have htk : (tc.1, TabKind.plain tc.2) ∈ plainKinds schema := List.mem_map.2 ⟨tc, htc, rfl⟩
  have hi := copy_to_tic_dat_iff env .assert (plainKinds schema) hs obj ho
  have hd := (hi.1.1 (by rw [h]; simp) _ htk tc.2 rfl).2 rfl _ (panObj_get ho htc)
  obtain ⟨tab, ht, hr⟩ := ((hi.2 dat h).2 _ htk _ (panObj_get ho htc)).2 tc.2 rfl
  refine ⟨hd, ?_⟩
  unfold ticTables
  rw [PyDict.get?_of_mem (by have := hs.names; rwa [plainKinds_names] at this) htc, ht]
  exact tabToData_frame hr hd

theorem ticTables_ok (hs : PanSchema env (plainKinds schema)) (ho : PanObj (plainKinds schema) obj) {dat : PyDict String OutTab}
    (h : copyToTicDat env .assert (plainKinds schema) obj = some dat) : DBOK (tablesSchema schema) (ticTables schema dat) := by
  intro t ts hts
  obtain ⟨tc, htc, e⟩ := List.mem_map.1 hts
  cases e
  rw [(copy_tables hs ho h tc htc).2]
  exact frameTable_ok (copy_tables hs ho h tc htc).1

theorem keyOf_iff (hs : PanSchema env (plainKinds schema)) (ho : PanObj (plainKinds schema) obj) {dat : PyDict String OutTab}
    (h : copyToTicDat env .assert (plainKinds schema) obj = some dat) {E : String} (hE : Entity (tablesSchema schema) fks skip E) (x : Cell) :
    KeyOf (ticTables schema dat) E x ↔ PanKeyOf schema obj E x := by
  have hn : (schema.map Prod.fst).Nodup := by have := hs.names; rwa [plainKinds_names] at this
  obtain ⟨hm, _, f, hf, _⟩ := hE
  rw [tablesSchema_keys] at hm
  obtain ⟨⟨E', c⟩, htc, rfl⟩ := List.mem_map.1 hm
  simp only at hf ⊢
  rw [(tablesSchema_table hn htc).1] at hf
  unfold KeyOf
  rw [(copy_tables hs ho h _ htc).2, keyOf_frame hf]
  constructor
  · intro hx
    exact ⟨c, f, _, htc, hf, panObj_get ho htc, hx⟩
  · rintro ⟨c', f', u, hc', hf', hu, hx⟩
    have := PyDict.get?_of_mem hn hc'
    rw [PyDict.get?_of_mem hn htc] at this
    cases this
    simp only at hf
    rw [hf] at hf'
    cases hf'
    have hu' := panObj_get ho htc
    simp only at hu'
    rw [hu] at hu'
    rwa [Option.some.inj hu'] at hx

/-- **C82.**  Whenever `obfusimplify` of a `PanDatFactory` returns, the object it returns is the data with every entity renamed
consistently, in the same tables, rows and order. -/
theorem pan_obfusimplify_renames (hpe : KeepsRows penv) (hs : PanSchema env (plainKinds schema)) (hdef : ClassDefaults schema)
    (ho : PanObj (plainKinds schema) obj) (hk : ∀ k ∈ fks, FKOK (tablesSchema schema) k ∧ ForeignDistinct k) (hn : fks.Nodup)
    (htp : (PyDict.keys tp).Nodup) (hiter : ∀ l : List String, (iter l).Perm l) (hsort : ∀ l l', sort l = some l' → l'.Perm l)
    {obj' : PyDict String Frame} {ren : PyDict String (String × Cell)}
    (h : panObfusimplify env penv .assert iter upper sort schema fks0 fks obj tp skip = some (obj', ren)) :
    ∃ name ent, PanObfuscates schema fks skip obj obj' ren name ent := by
  have hns : (schema.map Prod.fst).Nodup := by have := hs.names; rwa [plainKinds_names] at this
  have hfs := plainKinds_fields hs
  unfold panObfusimplify at h
  rw [if_pos (goodPanObject_of ho)] at h
  obtain ⟨dat, hdat, h⟩ := Option.bind_eq_some_iff.1 h
  obtain ⟨⟨tabs, ren'⟩, hob, h⟩ := Option.bind_eq_some_iff.1 h
  obtain ⟨frames, hfr, h⟩ := Option.map_eq_some_iff.1 h
  simp only [Prod.mk.injEq] at h hfr
  obtain ⟨rfl, rfl⟩ := h
  obtain ⟨hkeys, name, ent, hO⟩ := obfusimplify_renames (tablesSchema_ok hns hfs) (ticTables_ok hs ho hdat) hk hn htp hiter hsort
    (fun a b e => by cases e; rfl) hob
  have hpw := pairwise2_mapM_mem hfr
  have hout : ∀ tc fr, backToPan penv tabs tc = some fr → fr.1 = tc.1 := by
    intro tc fr e
    obtain ⟨_, _, e⟩ := Option.bind_eq_some_iff.1 e
    obtain ⟨_, _, e⟩ := Option.bind_eq_some_iff.1 e
    obtain ⟨_, _, rfl⟩ := Option.map_eq_some_iff.1 e
    rfl
  have hkeys' : PyDict.keys frames = schema.map Prod.fst := by
    clear hfr
    unfold PyDict.keys
    have : ∀ (l : List (String × TabClass)) (l' : List (String × Frame)),
        Pairwise2 (fun a b => a ∈ schema ∧ backToPan penv tabs a = some b) l l' → l'.map Prod.fst = l.map Prod.fst := by
      intro l l' hp
      induction hp with
      | nil => rfl
      | cons h _ ih => rw [List.map_cons, List.map_cons, ih, hout _ _ h.2]
    exact this _ _ hpw
  refine ⟨name, ent, ?_, ?_, ?_, ?_, hkeys', ?_⟩
  · intro t f E he
    obtain ⟨h1, h2⟩ := hO.shows t f E he
    refine ⟨h1, h2.imp id ?_⟩
    rintro ⟨rfl, hp⟩
    by_cases hc : ∃ c, (E, c) ∈ schema
    · obtain ⟨c, hc⟩ := hc
      exact ⟨c, hc, rfl, by rw [← (tablesSchema_table hns hc).1]; exact hp⟩
    · rw [(tablesSchema_other (fun c h => hc ⟨c, h⟩)).1] at hp
      cases hp
  · intro t f he E hE
    obtain ⟨h1, h2⟩ := hO.hides t f he E hE
    refine ⟨h1, fun c hc hh => h2 ⟨hh.1, ?_⟩⟩
    rw [(tablesSchema_table hns hc).1]
    exact hh.2
  · intro E v E' v' hE hv hE' hv' e
    exact hO.distinct E v E' v' hE ((keyOf_iff hs ho hdat hE v).2 hv) hE' ((keyOf_iff hs ho hdat hE' v').2 hv') e
  · intro l E v
    rw [hO.renamings]
    constructor
    · rintro ⟨h1, h2, h3⟩
      exact ⟨h1, (keyOf_iff hs ho hdat h1 v).1 h2, h3⟩
    · rintro ⟨h1, h2, h3⟩
      exact ⟨h1, (keyOf_iff hs ho hdat h1 v).2 h2, h3⟩
  · intro tc htc
    obtain ⟨fr, hfm, _, hback⟩ := pairwise2_left hpw htc
    have hname := hout _ _ hback
    obtain ⟨d, hd, e⟩ := Option.bind_eq_some_iff.1 hback
    have hts := tablesSchema_table hns htc
    have htab : tableOf (tablesSchema schema) tc.1 = ⟨tc.2.pks, tc.2.dfs⟩ := by unfold tableOf; rw [hts.1, hts.2]
    have hdok : TableOK ⟨tc.2.pks, tc.2.dfs⟩ d := by
      have := hO.good tc.1 ⟨tc.2.pks, tc.2.dfs⟩ (List.mem_map.2 ⟨tc, htc, rfl⟩)
      simpa [hd] using this
    obtain ⟨v', hv', hinit, hcols, hrows⟩ := backToPan_frame hpe (hfs tc htc) (hdef tc htc).1 (hdef tc htc).2 hdok
    rw [hv', Option.bind_some, hinit, Option.map_some] at e
    cases e
    refine ⟨frameOf obj tc.1, v', panObj_get ho htc, PyDict.get?_of_mem (by rw [hkeys']; exact hns) hfm, hcols, ?_⟩
    have hmid := hO.rows tc.1 (by rw [tablesSchema_keys]; exact List.mem_map.2 ⟨tc, htc, rfl⟩)
    rw [htab, (copy_tables hs ho hdat tc htc).2, hts.1, hts.2] at hmid
    simp only [hd, Option.getD_some] at hmid
    have h12 := pairwise2_compose (g := id) (T := fun r (q : PKey Cell × Rec Cell) => ∀ f ∈ tc.2.fields,
      ShownAs Cell.str (ticTables schema dat) name (ent tc.1 f) (some (fieldCell (frameOf obj tc.1) r f)) (q.2 f))
      frameTable_rows hmid (by
        intro r p q h1 h2 f hf
        have := h2 f hf
        rwa [h1 f hf] at this)
    rw [List.map_id] at h12
    have h123 := pairwise2_compose (g := id) (T := fun r r' => ∀ f ∈ tc.2.fields,
      PanShownAs schema obj name (ent tc.1 f) (fieldCell (frameOf obj tc.1) r f) (fieldCell v' r' f)) h12 hrows (by
        intro r q r' h1 h2 f hf
        obtain ⟨x, hx, hst⟩ := h2 f hf
        have := h1 f hf
        rw [hx] at this
        cases he : ent tc.1 f with
        | none =>
          rw [he] at this
          have hxe : some x = some (fieldCell (frameOf obj tc.1) r f) := this
          cases hxe
          exact hst
        | some E =>
          rw [he] at this
          obtain ⟨w, hw, hkey, hx2⟩ := this
          cases hw
          cases hx2
          refine ⟨(keyOf_iff hs ho hdat (hO.shows _ _ _ he).1 _).1 hkey, ?_⟩
          rcases hst with hst | ⟨hst, _⟩
          · exact hst.symm
          · cases hst)
    rwa [List.map_id] at h123

theorem framesConsistent_iff (hs : PanSchema env (plainKinds schema)) (ho : PanObj (plainKinds schema) obj) {dat : PyDict String OutTab}
    (h : copyToTicDat env .assert (plainKinds schema) obj = some dat) {ks : List FK} (hk : ∀ k ∈ ks, FKOK (tablesSchema schema) k) :
    Consistent (tablesSchema schema) ks (ticTables schema dat) ↔ FramesConsistent ks obj := by
  have hns : (schema.map Prod.fst).Nodup := by have := hs.names; rwa [plainKinds_names] at this
  have key : ∀ k ∈ ks, ∃ cn cf, (k.native, cn) ∈ schema ∧ (k.foreign, cf) ∈ schema ∧
      ∀ p ∈ k.mapping, p.1 ∈ cn.fields ∧ p.2 ∈ cf.fields := by
    intro k hkk
    have hok := hk k hkk
    have h1 := hok.native_mem
    have h2 := hok.foreign_mem
    rw [tablesSchema_keys] at h1 h2
    obtain ⟨⟨n, cn⟩, hn, e1⟩ := List.mem_map.1 h1
    obtain ⟨⟨f, cf⟩, hf, e2⟩ := List.mem_map.1 h2
    simp only at e1 e2
    subst e1 e2
    refine ⟨cn, cf, hn, hf, fun p hp => ⟨?_, ?_⟩⟩
    · have := hok.native_fields p hp
      rw [(tablesSchema_table hns hn).1, (tablesSchema_table hns hn).2] at this
      exact this
    · have := hok.foreign_fields p hp
      rw [(tablesSchema_table hns hf).1, (tablesSchema_table hns hf).2] at this
      exact this
  have htab : ∀ t c, (t, c) ∈ schema → tableOf (tablesSchema schema) t = ⟨c.pks, c.dfs⟩ := by
    intro t c hc
    unfold tableOf
    rw [(tablesSchema_table hns hc).1, (tablesSchema_table hns hc).2]
  constructor
  · intro hc k hkk v w hv hw r hr
    obtain ⟨cn, cf, hn, hf, hfl⟩ := key k hkk
    have ev := panObj_get ho hn
    have ew := panObj_get ho hf
    simp only at ev ew
    rw [hv] at ev
    rw [hw] at ew
    cases ev
    cases ew
    have hcn := (copy_tables hs ho h _ hn).2
    have hcf := (copy_tables hs ho h _ hf).2
    simp only at hcn hcf
    have h1 := hc k hkk
    rw [htab _ _ hn, hcn] at h1
    obtain ⟨p, hp, hpr⟩ := pairwise2_left frameTable_rows hr
    have h2 := h1 p hp
    unfold Fails at h2
    rw [htab _ _ hf, hcf] at h2
    apply Classical.byContradiction
    intro hno
    apply h2
    intro q hq hag
    obtain ⟨r', hr', hqr⟩ := pairwise2_right frameTable_rows hq
    apply hno
    refine ⟨r', hr', fun m hm => ?_⟩
    have := hag m hm
    rw [hpr _ (hfl m hm).1, hqr _ (hfl m hm).2] at this
    exact Option.some.inj this
  · intro hc k hkk p hp hfail
    obtain ⟨cn, cf, hn, hf, hfl⟩ := key k hkk
    have hcn := (copy_tables hs ho h _ hn).2
    have hcf := (copy_tables hs ho h _ hf).2
    simp only at hcn hcf
    rw [htab _ _ hn, hcn] at hp
    unfold Fails at hfail
    rw [htab _ _ hf, hcf] at hfail
    obtain ⟨r, hr, hpr⟩ := pairwise2_right frameTable_rows hp
    obtain ⟨r', hr', he⟩ := hc k hkk _ _ (panObj_get ho hn) (panObj_get ho hf) r hr
    obtain ⟨q, hq, hqr⟩ := pairwise2_left frameTable_rows hr'
    apply hfail q hq
    intro m hm
    rw [hpr _ (hfl m hm).1, hqr _ (hfl m hm).2, he m hm]

theorem clean_of_consistent {V : Type} [DecidableEq V] {s : Schema} (hs : SchemaOK s) {db : DB V} (hdb : DBOK s db) {fks : List FK}
    (hk : ∀ k ∈ fks, FKOK s k ∧ ForeignDistinct k) (hn : fks.Nodup) (h : Consistent s fks db) : findFK s fks db none = some [] := by
  obtain ⟨d, hd, _, hkey, _⟩ := find_fk_exact hs hdb hk hn
  rw [hd]
  cases d with
  | nil => rfl
  | cons p d =>
    obtain ⟨hkk, q, hq, hf⟩ := (hkey p.1).1 (by simp [PyDict.keys])
    exact absurd hf (h _ hkk q hq)

/-- **C82.**  When `obfusimplify` of a `PanDatFactory` raises: if a data field (or a field of a composite key) is called "name",
if two rows have the same primary key, or if a row fails a declared foreign key. -/
theorem pan_obfusimplify_refuses (hs : PanSchema env (plainKinds schema)) (ho : PanObj (plainKinds schema) obj)
    (hk : ∀ k ∈ fks0, FKOK (tablesSchema schema) k ∧ ForeignDistinct k) (hn : fks0.Nodup)
    (h : (∃ tc ∈ schema, ¬ NoNameField tc.2) ∨ (∃ tc ∈ schema, ∃ v, PyDict.get? obj tc.1 = some v ∧ ¬ DistinctKeys tc.2 v) ∨
      ¬ FramesConsistent fks0 obj) :
    panObfusimplify env penv .assert iter upper sort schema fks0 fks obj tp skip = none := by
  have hns : (schema.map Prod.fst).Nodup := by have := hs.names; rwa [plainKinds_names] at this
  have hfs := plainKinds_fields hs
  have hi := copy_to_tic_dat_iff env .assert (plainKinds schema) hs obj ho
  unfold panObfusimplify
  rw [if_pos (goodPanObject_of ho)]
  cases hc : copyToTicDat env .assert (plainKinds schema) obj with
  | none => rfl
  | some dat =>
    have h1 := hi.1.1 (by rw [hc]; simp)
    rcases h with ⟨tc, htc, hno⟩ | ⟨tc, htc, v, hv, hno⟩ | hno
    · exact absurd (h1 (tc.1, .plain tc.2) (List.mem_map.2 ⟨tc, htc, rfl⟩) tc.2 rfl).1 hno
    · exact absurd ((h1 (tc.1, .plain tc.2) (List.mem_map.2 ⟨tc, htc, rfl⟩) tc.2 rfl).2 rfl v hv) hno
    · rw [Option.bind_some]
      cases hob : obfusimplify iter upper sort Cell.str (tablesSchema schema) fks0 fks (ticTables schema dat) tp skip with
      | none => rfl
      | some out =>
        obtain ⟨_, _, hr, _⟩ := obfusimplify_eq_some.1 hob
        exact absurd ((framesConsistent_iff hs ho hc (fun k hkk => (hk k hkk).1)).1
          (consistent_of_clean (tablesSchema_ok hns hfs) (ticTables_ok hs ho hc) hk hn hr.clean)) hno

/-- **C82.**  `obfusimplify` of a `PanDatFactory` returns for objects without duplicate keys and foreign key failures, if the
foreign keys say clearly which entity each field stands for, the prefixes are good and there are at most 25 entity tables. -/
theorem pan_obfusimplify_returns (hpe : KeepsRows penv) (hs : PanSchema env (plainKinds schema)) (hdef : ClassDefaults schema)
    (ho : PanObj (plainKinds schema) obj) (hname : ∀ tc ∈ schema, NoNameField tc.2)
    (hdist : ∀ tc ∈ schema, ∀ v, PyDict.get? obj tc.1 = some v → DistinctKeys tc.2 v)
    (hk0 : ∀ k ∈ fks0, FKOK (tablesSchema schema) k ∧ ForeignDistinct k) (hn0 : fks0.Nodup) (hc0 : FramesConsistent fks0 obj)
    (hk : ∀ k ∈ fks, FKOK (tablesSchema schema) k ∧ ForeignDistinct k) (hn : fks.Nodup) (hc : FramesConsistent fks obj)
    (hcl : Clear (tablesSchema schema) fks skip)
    (htp : (PyDict.keys tp).Nodup) (hvals : (tp.map Prod.snd).Nodup)
    (hgiven : ∀ p ∈ tp, Entity (tablesSchema schema) fks skip p.1 ∧ (∀ c ∈ p.2.toList, c ∈ uppercase) ∧ p.2.toList.getLast? ≠ some 'I')
    (hskip : ∀ t ∈ skip, Entity (tablesSchema schema) fks [] t)
    (hiter : ∀ l : List String, (iter l).Perm l) (hsort : ∀ l l', sort l = some l' → l'.Perm l)
    (htotal : ∀ E, Entity (tablesSchema schema) fks skip E → ∀ l, (∀ v ∈ l, PanKeyOf schema obj E v) → ∃ l', sort l = some l')
    (hfew : ∀ l : List String, l.Nodup → (∀ E ∈ l, Entity (tablesSchema schema) fks skip E) → l.length ≤ 25) :
    ∃ out, panObfusimplify env penv .assert iter upper sort schema fks0 fks obj tp skip = some out := by
  have hns : (schema.map Prod.fst).Nodup := by have := hs.names; rwa [plainKinds_names] at this
  have hfs := plainKinds_fields hs
  have hi := copy_to_tic_dat_iff env .assert (plainKinds schema) hs obj ho
  obtain ⟨dat, hdat⟩ : ∃ dat, copyToTicDat env .assert (plainKinds schema) obj = some dat := by
    apply Option.ne_none_iff_exists'.1
    apply hi.1.2
    intro tk htk c hkc
    obtain ⟨tc, htc, rfl⟩ := List.mem_map.1 htk
    cases hkc
    exact ⟨hname tc htc, fun _ v hv => hdist tc htc v hv⟩
  have hsok := tablesSchema_ok hns hfs
  have hdb := ticTables_ok hs ho hdat
  obtain ⟨out, hob⟩ := obfusimplify_returns (upper := upper) (iter := iter) (sort := sort) hsok hdb hk hn
    (clean_of_consistent hsok hdb hk0 hn0 ((framesConsistent_iff hs ho hdat (fun k h => (hk0 k h).1)).2 hc0))
    ((framesConsistent_iff hs ho hdat (fun k h => (hk k h).1)).2 hc) hcl htp hvals hgiven hskip hiter hsort
    (fun E hE l hl => htotal E hE l (fun v hv => (keyOf_iff hs ho hdat hE v).1 (hl v hv)))
    (str := Cell.str) (fun a b e => by cases e; rfl) hfew
  obtain ⟨hkeys, name, ent, hO⟩ := obfusimplify_renames hsok hdb hk hn htp hiter hsort (fun a b e => by cases e; rfl) hob
  unfold panObfusimplify
  rw [if_pos (goodPanObject_of ho), hdat, Option.bind_some, hob, Option.bind_some]
  obtain ⟨frames, hfr⟩ : ∃ frames, schema.mapM (backToPan penv out.1) = some frames := by
    obtain ⟨l', h, _⟩ := pairwise2_mapM_of (R := fun _ _ => True) (g := backToPan penv out.1) schema (by
      intro tc htc
      have hmem : tc.1 ∈ PyDict.keys out.1 := by
        rw [hkeys, tablesSchema_keys]
        exact List.mem_map.2 ⟨tc, htc, rfl⟩
      obtain ⟨d, hd⟩ := Option.isSome_iff_exists.mp ((PyDict.has_iff out.1 tc.1).mpr hmem)
      have hdok : TableOK ⟨tc.2.pks, tc.2.dfs⟩ d := by
        have := hO.good tc.1 ⟨tc.2.pks, tc.2.dfs⟩ (List.mem_map.2 ⟨tc, htc, rfl⟩)
        simpa [hd] using this
      obtain ⟨v', hv', hinit, _⟩ := backToPan_frame hpe (hfs tc htc) (hdef tc htc).1 (hdef tc htc).2 hdok
      refine ⟨(tc.1, v'), ?_, trivial⟩
      unfold backToPan
      rw [hd, Option.bind_some, hv', Option.bind_some, hinit]
      rfl)
    exact ⟨l', h⟩
  rw [hfr]
  exact ⟨_, rfl⟩

end main

/-! ### An example -/

/-- Customers, orders and notes. -/
def panObSchema : List (String × TabClass) :=
  [("customers", ⟨["id"], ["town"], []⟩), ("orders", ⟨["customer", "day"], ["remark"], []⟩), ("notes", ⟨[], ["customer"], []⟩)]

def panObFKs : List FK :=
  [⟨"orders", "customers", [("customer", "id")]⟩, ⟨"notes", "customers", [("customer", "id")]⟩]

def panObDat : PyDict String Frame :=
  [("customers", ⟨[], [.name "town", .name "id"], [([], [.str "Ann", .str "Zoe"]), ([], [.none, .str "Ann"])]⟩),
   ("orders", ⟨[], [.name "customer", .name "day", .name "remark", .name "extra"],
     [([], [.str "Zoe", .num (.fin 1), .str "Zoe", .num (.fin 2)])]⟩),
   ("notes", ⟨[], [.name "customer"], [([], [.str "Ann"]), ([], [.str "Ann"])]⟩)]

/-- The text of a string. -/
def cellText : Cell → Option String
  | .str s => some s
  | _ => none

/-- Sort keys that are all strings. -/
def sortCells (l : List Cell) : Option (List Cell) :=
  (l.mapM cellText).bind (fun ss => (sortStr ss).map (·.map Cell.str))

theorem sortCells_perm (l l' : List Cell) (h : sortCells l = some l') : l'.Perm l := by
  obtain ⟨ss, h1, h⟩ := Option.bind_eq_some_iff.1 h
  obtain ⟨ss', h2, rfl⟩ := Option.map_eq_some_iff.1 h
  have hl : l = ss.map Cell.str := by
    have hp := pairwise2_mapM_mem h1
    clear h1 h2 h
    have : ∀ (l0 l : List Cell) (ss : List String), Pairwise2 (fun a b => a ∈ l0 ∧ cellText a = some b) l ss → l = ss.map Cell.str := by
      intro l0 l ss hp
      induction hp with
      | nil => rfl
      | @cons a b _ _ h _ ih =>
        rw [List.map_cons, ← ih]
        have h := h.2
        cases a <;> simp_all [cellText]
    exact this l l ss hp
  rw [hl]
  exact (sortStr_perm ss ss' h2).map _

/-- The customers are renamed in the three tables; the town and the remark with the same text stay, and so does the missing town,
as NaN or `None`.  The column that is no field is dropped. -/
theorem pan_obfusimplify_example :
    panObfusimplify panEnv plainPandas .assert id upStr sortCells panObSchema panObFKs panObFKs panObDat [] [] =
    some ([("customers", ⟨[], [.name "id", .name "town"], [([], [.str "C2", .str "Ann"]), ([], [.str "C1", .none])]⟩),
           ("orders", ⟨[], [.name "customer", .name "day", .name "remark"], [([], [.str "C2", .num (.fin 1), .str "Zoe"])]⟩),
           ("notes", ⟨[], [.name "customer"], [([], [.str "C1"]), ([], [.str "C1"])]⟩)],
          [("C1", ("customers", .str "Ann")), ("C2", ("customers", .str "Zoe"))]) := by
  decide +kernel

theorem panObSchema_ok : PanSchema panEnv (plainKinds panObSchema) where
  names := by decide
  fields := by
    intro tk htk
    simp only [plainKinds, panObSchema, List.map_cons, List.map_nil, List.mem_cons, List.not_mem_nil, or_false] at htk
    rcases htk with rfl | rfl | rfl
    · exact .inr ⟨_, rfl, by decide, by decide +kernel⟩
    · exact .inr ⟨_, rfl, by decide, by decide +kernel⟩
    · exact .inr ⟨_, rfl, by decide, by decide +kernel⟩

theorem panObDat_ok : PanObj (plainKinds panObSchema) panObDat := by
  refine ⟨by decide, ?_⟩
  intro tk htk v hv
  simp only [plainKinds, panObSchema, List.map_cons, List.map_nil, List.mem_cons, List.not_mem_nil, or_false] at htk
  rcases htk with rfl | rfl | rfl
  · cases hv
    exact ⟨⟨by decide, by decide, by decide⟩, by decide⟩
  · cases hv
    exact ⟨⟨by decide, by decide, by decide⟩, by decide⟩
  · cases hv
    exact ⟨⟨by decide, by decide, by decide⟩, by decide⟩

theorem panObFKs_ok : ∀ k ∈ panObFKs, FKOK (tablesSchema panObSchema) k ∧ ForeignDistinct k := by
  intro k h
  simp only [panObFKs, List.mem_cons, List.not_mem_nil, or_false] at h
  rcases h with rfl | rfl <;>
    exact ⟨⟨by decide, by decide, by decide, by decide, by decide, by decide⟩, by unfold ForeignDistinct; decide⟩

theorem panObSchema_defaults : ClassDefaults panObSchema := by
  unfold ClassDefaults
  decide

/-- The example meets the hypotheses of `pan_obfusimplify_renames`. -/
example : ∃ obj' ren name ent, PanObfuscates panObSchema panObFKs [] panObDat obj' ren name ent :=
  have ⟨name, ent, h⟩ := pan_obfusimplify_renames plainPandas_keeps panObSchema_ok panObSchema_defaults panObDat_ok panObFKs_ok
    (by decide) (by decide) (fun l => List.Perm.refl l) sortCells_perm pan_obfusimplify_example
  ⟨_, _, name, ent, h⟩

/-- The example meets the hypotheses of `pan_obfusimplify_returns`. -/
example : ∃ out, panObfusimplify panEnv plainPandas .assert id upStr sortCells panObSchema panObFKs panObFKs panObDat
    [("customers", "P")] [] = some out := by
  have hcons : FramesConsistent panObFKs panObDat := by
    intro k hk v w hv hw
    simp only [panObFKs, List.mem_cons, List.not_mem_nil, or_false] at hk
    rcases hk with rfl | rfl
    · cases hv
      cases hw
      decide +kernel
    · cases hv
      cases hw
      decide +kernel
  refine pan_obfusimplify_returns plainPandas_keeps panObSchema_ok panObSchema_defaults panObDat_ok (by unfold NoNameField; decide) ?_
    panObFKs_ok (by decide) hcons panObFKs_ok (by decide) hcons
    (clear_of (by decide +kernel) (by decide +kernel) (by decide +kernel)) (by decide) (by decide) ?_ (by simp)
    (fun l => List.Perm.refl l) sortCells_perm ?_ ?_
  · intro tc htc v hv
    simp only [panObSchema, List.mem_cons, List.not_mem_nil, or_false] at htc
    rcases htc with rfl | rfl | rfl
    · cases hv
      exact .inr (by decide +kernel)
    · cases hv
      exact .inr (by decide +kernel)
    · exact .inl rfl
  · intro p hp
    simp only [List.mem_cons, List.not_mem_nil, or_false] at hp
    subst hp
    exact ⟨(mem_entities _ _ _ _).1 (by decide +kernel), by decide, by decide⟩
  · intro E hE l hl
    have hE' := (mem_entities _ _ _ _).2 hE
    have : E = "customers" := by
      have h2 : (entityTables (tablesSchema panObSchema) panObFKs).filter (fun t => decide (t ∉ ([] : List String))) = ["customers"] := by
        decide +kernel
      rw [h2] at hE'
      simpa using hE'
    subst this
    have hstr : ∀ v ∈ l, ∃ s, cellText v = some s := by
      intro v hv
      obtain ⟨c, f, u, hc, hf, hu, hm⟩ := hl v hv
      simp only [panObSchema, List.mem_cons, Prod.mk.injEq, List.not_mem_nil, or_false] at hc
      rcases hc with ⟨_, rfl⟩ | ⟨h, _⟩ | ⟨h, _⟩
      · cases hf
        cases hu
        have : ∀ v ∈ [Cell.str "Zoe", Cell.str "Ann"], ∃ s, cellText v = some s := by
          intro v hv
          simp only [List.mem_cons, List.not_mem_nil, or_false] at hv
          rcases hv with rfl | rfl
          · exact ⟨_, rfl⟩
          · exact ⟨_, rfl⟩
        exact this v hm
      · exact absurd h (by decide)
      · exact absurd h (by decide)
    obtain ⟨ss, hss, _⟩ := pairwise2_mapM_of (R := fun _ _ => True) (g := cellText) l
      (fun v hv => have ⟨s, hs⟩ := hstr v hv; ⟨s, hs, trivial⟩)
    unfold sortCells
    rw [hss]
    exact ⟨_, rfl⟩
  · intro l hn hl
    exact Nat.le_trans (nodup_length_le l (entityTables (tablesSchema panObSchema) panObFKs) hn
      (fun E hE => (List.mem_filter.1 ((mem_entities _ _ _ _).2 (hl E hE))).1)) (by decide +kernel)

/-- The example of `pan_obfusimplify_refuses`: a customer that occurs twice. -/
example : panObfusimplify panEnv plainPandas .assert id upStr sortCells panObSchema panObFKs panObFKs
    (PyDict.set panObDat "customers" ⟨[], [.name "town", .name "id"], [([], [.str "Ann", .str "Zoe"]), ([], [.none, .str "Zoe"])]⟩) [] [] =
    none := by
  refine pan_obfusimplify_refuses panObSchema_ok ?_ panObFKs_ok (by decide) (.inr (.inl ⟨("customers", ⟨["id"], ["town"], []⟩),
    by decide, _, rfl, ?_⟩))
  · refine ⟨by decide, ?_⟩
    intro tk htk v hv
    simp only [plainKinds, panObSchema, List.map_cons, List.map_nil, List.mem_cons, List.not_mem_nil, or_false] at htk
    rcases htk with rfl | rfl | rfl
    · cases hv
      exact ⟨⟨by decide, by decide, by decide⟩, by decide⟩
    · cases hv
      exact ⟨⟨by decide, by decide, by decide⟩, by decide⟩
    · cases hv
      exact ⟨⟨by decide, by decide, by decide⟩, by decide⟩
  · rintro (h | h)
    · exact absurd h (by decide)
    · exact absurd h (by decide +kernel)

end Ticdat

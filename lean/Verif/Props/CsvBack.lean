import Verif.Props.CsvCells
import Verif.Props.JsonBack
/-!
# Which data objects come back from csv files
-/
namespace Ticdat
open Spec
set_option linter.unusedSimpArgs false

/-- Rows handed to the constructor, of which a table of the same size is made: the rows of the table are the rows. -/
theorem reader_rows_inv (c : TabClass) (hn : c.fields.Nodup) (rs : List (List Cell)) (hl : ∀ r ∈ rs, r.length = c.fields.length)
    (tab : TabVal) (hi : initTable c (readerTable c rs) = some tab) (hs : tab.size = rs.length) : tabRows tab = rs := by
  have hdn : c.dfs.Nodup := (List.nodup_append.mp hn).2.1
  have hlen : c.fields.length = c.pks.length + c.dfs.length := by simp [TabClass.fields]
  unfold readerTable at hi
  by_cases hpk : c.pks ≠ []
  · rw [if_pos hpk] at hi
    unfold initTable at hi
    split at hi
    case isFalse => cases hi
    simp only at hi
    split at hi
    case isFalse => cases hi
    simp only [Option.map_eq_some_iff] at hi
    obtain ⟨l, h1, rfl⟩ := hi
    have hs' : (PyDict.ofList l).length = rs.length := hs
    generalize hL : (rs.map (fun r => (splitKey c.pks.length (.seq r), RowIn.seq (r.drop c.pks.length)))) = L at h1
    have hLl : L.length = rs.length := by rw [← hL, List.length_map]
    have h2 : (PyDict.ofList l).length ≤ l.length := by
      simpa [PyDict.ofList] using (foldl_set_length l []).1
    have h3 : (PyDict.ofList L).length ≤ L.length := by
      simpa [PyDict.ofList] using (foldl_set_length L []).1
    have h4 : l.length = (PyDict.ofList L).length := by
      rw [mapM_eq_some_iff] at h1
      have := congrArg List.length h1
      simpa using this.symm
    have h5 : PyDict.ofList L = L := ofList_full L (by omega)
    have h6 : PyDict.ofList l = l := ofList_full l (by omega)
    rw [h5] at h1
    rw [h6]
    show l.map flatOf = rs
    clear h2 h3 h4 h5 h6 hs hs' hLl
    rename_i hgd hkv
    clear hgd hkv
    rw [mapM_eq_some_iff] at h1
    induction rs generalizing L l with
    | nil =>
      subst hL
      have : l = [] := by simpa using h1.symm
      rw [this]; rfl
    | cons r rs ih =>
      subst hL
      cases l with
      | nil => simp at h1
      | cons p l =>
        simp only [List.map_cons, List.cons.injEq] at h1
        rw [List.map_cons, ih (fun r h => hl r (List.mem_cons_of_mem _ h)) l _ rfl h1.2]
        congr 1
        have hlr := hl r List.mem_cons_self
        have h3 := h1.1
        simp only [Option.map_eq_some_iff] at h3
        obtain ⟨row, h4, rfl⟩ := h3
        rw [initRow_iff c hdn _ (show DictRow (.seq _) from trivial)] at h4
        have h5 : row = c.dfs.zip (r.drop c.pks.length) := h4.2
        unfold flatOf
        simp only
        rw [h5, List.map_snd_zip (by simp; omega), keyCells_splitKey _ (by simpa using hpk) r (by omega),
          List.take_append_drop]
  · rw [if_neg hpk] at hi
    refine init_rows_inv c hn rs hl _ ?_ tab hi hs
    clear hi hs hl
    induction rs with
    | nil => exact .nil
    | cons r rs ih => exact .cons rfl ih

/-- A line that is written and read: the cells that are read are the images of the cells. -/
theorem csv_line_inv (env : TextEnv) (cf : IOConf) (dv : Defaults) (t : String) (fields : List String) (r : List Cell)
    (hl : r.length = fields.length) (line : List String) (r' : List Cell)
    (h1 : (mapCells (writeCell env cf t) fields r).map (fun vs => vs.map env.text) = some line)
    (h2 : mapCells (csvReadCell env cf dv t) fields (line.map Cell.str) = some r') :
    RowRel fields (CsvCell env cf dv t) r r' := by
  simp only [Option.map_eq_some_iff] at h1
  obtain ⟨ws, h3, rfl⟩ := h1
  have hlw := mapCells_length _ _ _ _ hl h3
  refine ⟨hl, mapCells_length _ _ _ _ (by simpa using hlw) h2, fun i f x y hf hx hy => ?_⟩
  obtain ⟨w, h6, h7⟩ := mapCells_at h3 i hf hx
  obtain ⟨y1, h8, h9⟩ := mapCells_at h2 i hf (x := .str (env.text w)) (by simp [h6])
  rw [hy] at h8
  cases h8
  exact ⟨w, h7, h9⟩

/-- The rows of a table that is written and read, without rows lost: the cells travel through the file one by one. -/
theorem csv_table_rel (env : TextEnv) (cenv : CaseEnv) (cf : IOConf) (dv : Defaults) (t : String) (c : TabClass) (headers : Bool)
    (hn : ((c.fields.map String.toList).map cenv.lower).Nodup) (tab tab' : TabVal) (h : WellShaped c tab) (lines : CsvFile)
    (h1 : csvTable env cf t c headers tab = some lines) (x : TableIn)
    (h2 : csvReadTable env cenv cf dv t c headers lines = some x) (h3 : initTable c x = some tab')
    (hs : tab'.size = tab.size) : Pairwise2 (RowRel c.fields (CsvCell env cf dv t)) (tabRows tab) (tabRows tab') := by
  have hnl := nodup_of_map _ hn
  have hfn : c.fields.Nodup := nodup_of_map _ hnl
  have hdn : c.dfs.Nodup := (List.nodup_append.mp hfn).2.1
  have hrl : ∀ r ∈ tabRows tab, r.length = c.fields.length := tabRows_length c tab h
  unfold csvTable at h1
  rw [flatRows_eq c hdn tab h, Option.bind_some] at h1
  simp only [Option.map_eq_some_iff] at h1
  obtain ⟨ls, h4, rfl⟩ := h1
  rw [mapM_eq_some_iff] at h4
  have hlen : ∀ l ∈ ls, l.length = c.fields.length := by
    intro l hl
    have : some l ∈ (tabRows tab).map (fun row => (mapCells (writeCell env cf t) c.fields row).map (fun vs => vs.map env.text)) := by
      rw [h4]; exact List.mem_map.mpr ⟨l, hl, rfl⟩
    obtain ⟨r, hr, he⟩ := List.mem_map.mp this
    simp only [Option.map_eq_some_iff] at he
    obtain ⟨ws, h5, rfl⟩ := he
    simpa using mapCells_length _ _ _ _ (hrl r hr) h5
  have hrows : csvParse cenv (c.fields.map String.toList) headers (if headers then c.fields :: ls else ls) =
      some (ls.map (fun l => (c.fields.map String.toList).zip (l.map Cell.str))) := by
    unfold csvParse
    cases headers with
    | true =>
      simp only [if_true]
      unfold csvRows
      rw [List.mapM_map]
      apply mapM_eq_map
      intro l hl
      exact csv_row_own_header cenv _ hn _ (by simp [hlen l hl])
    | false =>
      simp only [Bool.false_eq_true, if_false]
      rw [List.mapM_map]
      apply mapM_eq_map
      intro l hl
      exact csv_row_no_header _ hnl _ (by simp [hlen l hl])
  unfold csvReadTable at h2
  split at h2
  case isTrue => cases h2
  rw [hrows, Option.bind_some, List.mapM_map] at h2
  simp only [Option.map_eq_some_iff] at h2
  obtain ⟨rs', h5, rfl⟩ := h2
  rw [mapM_eq_some_iff] at h5
  have key : ∀ (rs : List (List Cell)) (ls : List (List String)) (rs' : List (List Cell)),
      (∀ r ∈ rs, r.length = c.fields.length) → (∀ l ∈ ls, l.length = c.fields.length) →
      rs.map (fun row => (mapCells (writeCell env cf t) c.fields row).map (fun vs => vs.map env.text)) = ls.map some →
      ls.map ((fun row => mapCells (csvReadCell env cf dv t) c.fields (row.map Prod.snd)) ∘
        fun l => (c.fields.map String.toList).zip (l.map Cell.str)) = rs'.map some →
      Pairwise2 (RowRel c.fields (CsvCell env cf dv t)) rs rs' := by
    intro rs
    induction rs with
    | nil =>
      intro ls rs' _ _ h1 h2
      have : ls = [] := by simpa using h1.symm
      subst this
      have : rs' = [] := by simpa using h2.symm
      subst this
      exact .nil
    | cons r rs ih =>
      intro ls rs' ha hb h1 h2
      cases ls with
      | nil => simp at h1
      | cons w ls =>
        cases rs' with
        | nil => simp at h2
        | cons y rs' =>
          simp only [List.map_cons, List.cons.injEq, Function.comp_apply] at h1 h2
          refine .cons ?_ (ih ls rs' (fun r h => ha r (List.mem_cons_of_mem _ h)) (fun l h => hb l (List.mem_cons_of_mem _ h))
            h1.2 h2.2)
          refine csv_line_inv env cf dv t c.fields r (ha r List.mem_cons_self) w y h1.1 ?_
          have h6 := h2.1
          rw [List.map_snd_zip (by simp [hb w List.mem_cons_self])] at h6
          exact h6
  have h6 := key _ _ _ hrl hlen h4 h5
  have h7 : tabRows tab' = rs' := by
    refine reader_rows_inv c hfn rs' ?_ tab' h3 ?_
    · intro r hr
      obtain ⟨_, _, h8⟩ := pairwise2_mem h6 r hr
      exact h8.2.1
    · rw [pairwise2_length h6, tabRows_size, hs]
  rw [h7]
  exact h6

/-- **C46, one table, the other direction.**  If a table comes back then so does each of its cells. -/
theorem csv_table_inv (env : TextEnv) (cenv : CaseEnv) (cf : IOConf) (dv : Defaults) (t : String) (c : TabClass) (headers : Bool)
    (hn : ((c.fields.map String.toList).map cenv.lower).Nodup) (tab : TabVal) (h : WellShaped c tab) (lines : CsvFile)
    (h1 : csvTable env cf t c headers tab = some lines) (x : TableIn)
    (h2 : csvReadTable env cenv cf dv t c headers lines = some x) (h3 : initTable c x = some tab) (f : String) (v : Cell)
    (hv : HasCell c tab f v) : CsvCell env cf dv t f v v := by
  have hfn : c.fields.Nodup := nodup_of_map _ (nodup_of_map _ hn)
  have h6 := csv_table_rel env cenv cf dv t c headers hn tab tab h lines h1 x h2 h3 rfl
  obtain ⟨r, hr, hm⟩ := hasCell_row c hfn tab h hv
  have h8 : RowRel c.fields (CsvCell env cf dv t) r r := by
    have : ∀ l : List (List Cell), Pairwise2 (RowRel c.fields (CsvCell env cf dv t)) l l → ∀ r ∈ l,
        RowRel c.fields (CsvCell env cf dv t) r r := by
      intro l hl
      induction l with
      | nil => intro r hr; cases hr
      | cons a l ih =>
        cases hl with
        | cons ha hl =>
          intro r hr
          rcases List.mem_cons.mp hr with e | hr
          · rw [e]; exact ha
          · exact ih hl r hr
    exact this _ h6 r hr
  obtain ⟨i, hi⟩ := List.mem_iff_getElem?.mp hm
  have ⟨h9, h10⟩ := List.getElem?_zip_eq_some.mp hi
  exact h8.2.2 i f v v h9 h10 h10

theorem gatherTables_inv (rd : String × TabClass → Option (Option TableIn)) (s : List (String × TabClass))
    (hnd : (s.map Prod.fst).Nodup) (input : PyDict String TableIn) (h : gatherTables rd s = some input) :
    (∀ t ∈ PyDict.keys input, t ∈ s.map Prod.fst) ∧ ∀ tc ∈ s, ∃ x, rd tc = some x ∧ PyDict.get? input tc.1 = x := by
  induction s generalizing input with
  | nil => cases h; exact ⟨by simp [PyDict.keys], by simp⟩
  | cons a s ih =>
    rw [List.map_cons, List.nodup_cons] at hnd
    rw [gatherTables] at h
    simp only [Option.bind_eq_some_iff, Option.map_eq_some_iff] at h
    obtain ⟨x, h1, r, h2, rfl⟩ := h
    obtain ⟨h3, h4⟩ := ih hnd.2 r h2
    have h5 : PyDict.get? r a.1 = none := (PyDict.get?_eq_none _ _).mpr (fun hm => hnd.1 (h3 _ hm))
    refine ⟨?_, ?_⟩
    · intro t ht
      cases x with
      | none => exact List.mem_cons_of_mem _ (h3 t ht)
      | some y =>
        rcases List.mem_cons.mp ht with e | ht
        · rw [e]; exact List.mem_cons_self
        · exact List.mem_cons_of_mem _ (h3 t ht)
    · intro tc htc
      rcases List.mem_cons.mp htc with e | htc
      · subst e
        refine ⟨x, h1, ?_⟩
        cases x with
        | none => exact h5
        | some y => simp [PyDict.get?]
      · obtain ⟨x', h6, h7⟩ := h4 tc htc
        refine ⟨x', h6, ?_⟩
        have hne : ¬ a.1 = tc.1 := fun e => hnd.1 (List.mem_map.mpr ⟨tc, htc, e.symm⟩)
        cases x with
        | none => exact h7
        | some y => simp [PyDict.get?, hne, h7]

/-- **C46.**  For schemas without parameters: a data object written to csv files, with or without headers, comes back as it was if
and only if every cell of every table is one that csv files carry, as spelled out in `CsvKeeps`.  There is no other obstacle, and
none of the conditions can be dropped. -/
theorem csv_round_trip_iff (env : TextEnv) (hT : CsvTextOK env) (cenv : CaseEnv) (laws : CaseLaws cenv) (cf : IOConf)
    (hq : ∀ q, cf.flag = .num q → 0 < q) (hnp : cf.params = [])
    (dv : Defaults) (policy : DupPolicy) (allowOverwrite headers caseSpace : Bool) (schema : List (String × TabClass))
    (hg : goodTableNames cenv (schema.map (fun tc => tc.1.toList)) = true)
    (hrt : ∀ tc ∈ schema, CaseRoundTrip cenv tc.1.toList)
    (hf : ∀ tc ∈ schema, tc.2.fields ≠ [] ∧ ((tc.2.fields.map String.toList).map cenv.lower).Nodup)
    (dat : PyDict String TabVal) (hd : DatOK schema dat)
    (dir : PyDict (List Char) CsvFile) (hdir : (PyDict.keys dir).Nodup)
    (hover : allowOverwrite = true ∨ ∀ tc ∈ schema, tc.1.toList ++ ".csv".toList ∉ PyDict.keys dir)
    (hother : ∀ k ∈ PyDict.keys dir, ∀ tc ∈ schema, csvMatches cenv tc.1.toList k = true →
      k = csvFileName cenv schema caseSpace tc.1) :
    (∃ dir', csvWrite env cenv cf allowOverwrite headers caseSpace schema dat dir = some dir' ∧
      csvCreate env cenv cf dv policy headers schema dir' = some dat) ↔
    ∀ tc ∈ schema, ∀ tab, PyDict.get? dat tc.1 = some tab → ∀ f x, HasCell tc.2 tab f x → CsvKeeps env cf dv tc.1 f x := by
  have hg' : goodTableNames cenv ((schema.map Prod.fst).map String.toList) = true := by
    rw [List.map_map]; exact hg
  have hnames : (schema.map Prod.fst).Nodup := nodup_of_map _ (nodup_of_map _ ((goodTableNames_iff cenv _).mp hg').2.2)
  have hpar : ∀ t, ¬ IsParams cf.params t := fun t h => h.1 hnp
  have hdn : (PyDict.keys dat).Nodup := by rw [hd.1]; exact hnames
  have hpost : ∀ d, postRead env cf.params d = d := by intro d; unfold postRead; rw [if_pos hnp]
  have hget : ∀ tc ∈ schema, ∃ tab, PyDict.get? dat tc.1 = some tab := by
    intro tc htc
    cases h : PyDict.get? dat tc.1 with
    | some tab => exact ⟨tab, rfl⟩
    | none =>
      rw [PyDict.get?_eq_none, hd.1] at h
      exact absurd (List.mem_map.mpr ⟨tc, htc, rfl⟩) h
  have hfn : ∀ tc ∈ schema, tc.2.fields.Nodup := fun tc htc => nodup_of_map _ (nodup_of_map _ (hf tc htc).2)
  constructor
  · rintro ⟨dir', h1, h2⟩ tc htc tab htab f x hx
    rw [← csv_cell_iff hT cf hq dv tc.1 f x (hpar _)]
    have hws := hd.2 tc htc tab htab
    -- the directory
    have hmatch : ∀ tc ∈ schema, ∀ tc' ∈ schema,
        (csvMatches cenv tc'.1.toList (csvFileName cenv schema caseSpace tc.1) = true ↔ tc'.1.toList = tc.1.toList) := by
      intro tc htc tc' htc'
      exact csvMatches_out laws hg caseSpace (List.mem_map.mpr ⟨tc, htc, rfl⟩) (hrt tc htc)
        (List.mem_map.mpr ⟨tc', htc', rfl⟩)
    have hfnames : (schema.map (fun tc => csvFileName cenv schema caseSpace tc.1)).Nodup := by
      have hinj : ∀ a ∈ schema.map Prod.fst, ∀ b ∈ schema.map Prod.fst,
          csvFileName cenv schema caseSpace a = csvFileName cenv schema caseSpace b → a = b := by
        intro a ha b hb e
        obtain ⟨ta, hta, rfl⟩ := List.mem_map.mp ha
        obtain ⟨tb, htb, rfl⟩ := List.mem_map.mp hb
        have h1 := (hmatch ta hta ta hta).mpr rfl
        rw [e] at h1
        exact String.toList_injective ((hmatch tb htb ta hta).mp h1)
      have : (schema.map Prod.fst).map (csvFileName cenv schema caseSpace) =
          schema.map (fun tc => csvFileName cenv schema caseSpace tc.1) := by
        rw [List.map_map]; rfl
      rw [← this]
      unfold List.Nodup
      rw [List.pairwise_map]
      refine List.Pairwise.imp_of_mem ?_ hnames
      intro a b ha hb hne e
      exact hne (hinj a ha b hb e)
    unfold csvWrite at h1
    rw [Option.bind_eq_some_iff] at h1
    obtain ⟨_, _, h1⟩ := h1
    obtain ⟨dir2, h3, h4, h5, h6⟩ := write_all (fun tc => csvFileName cenv schema caseSpace tc.1)
      (fun tc => (PyDict.get? dat tc.1).bind (csvTable env cf tc.1 tc.2 headers)) (fun _ _ => True) schema hfnames
      (fun tc htc => by
        obtain ⟨v, hv⟩ := writeAll_some _ _ _ _ _ h1 tc htc
        exact ⟨v, hv, trivial⟩) dir hdir
    rw [h1] at h3
    cases h3
    obtain ⟨lines, h7, h8, _⟩ := h5 tc htc
    rw [htab, Option.bind_some] at h8
    have hpath : csvFilePath cenv (PyDict.keys dir') tc.1.toList = some (some (csvFileName cenv schema caseSpace tc.1)) := by
      unfold csvFilePath
      have : (PyDict.keys dir').filter (csvMatches cenv tc.1.toList) = [csvFileName cenv schema caseSpace tc.1] := by
        rw [filter_eq_singleton _ h4]
        refine ⟨?_, (hmatch tc htc tc htc).mpr rfl, ?_⟩
        · refine Classical.byContradiction (fun hno => ?_)
          rw [(PyDict.get?_eq_none _ _).mpr hno] at h7
          cases h7
        · intro k hk hm
          by_cases hkn : ∀ tc' ∈ schema, k ≠ csvFileName cenv schema caseSpace tc'.1
          · have hkd : k ∈ PyDict.keys dir := by
              refine Classical.byContradiction (fun hno => ?_)
              have h11 := h6 k hkn
              rw [(PyDict.get?_eq_none _ _).mpr hno] at h11
              exact (PyDict.get?_eq_none _ _).mp h11 hk
            exact hother k hkd tc htc hm
          · obtain ⟨tc', htc', e⟩ : ∃ tc' ∈ schema, k = csvFileName cenv schema caseSpace tc'.1 := by
              refine Classical.byContradiction (fun hno => hkn (fun tc' h e => hno ⟨tc', h, e⟩))
            rw [e] at hm ⊢
            have := String.toList_injective ((hmatch tc' htc' tc htc).mp hm)
            rw [this]
      rw [this]
    -- the tables
    unfold csvCreate at h2
    simp only [Option.map_eq_some_iff, hpost, Option.bind_eq_some_iff] at h2
    obtain ⟨dat2, ⟨input, h9, h10⟩, h11⟩ := h2
    rw [h11] at h10
    clear h11 dat2
    obtain ⟨_, h12⟩ := gatherTables_inv _ schema hnames input h9
    obtain ⟨o, h13, h14⟩ := h12 tc htc
    unfold csvFind at h13
    rw [hpath] at h13
    simp only [Option.bind_some, h7, Option.map_eq_some_iff] at h13
    obtain ⟨y, h15, h16⟩ := h13
    unfold initDat at h10
    split at h10
    case isFalse => cases h10
    cases hm : schema.mapM (initEntry input) with
    | none => rw [hm] at h10; cases h10
    | some tabs =>
      rw [hm] at h10
      simp only at h10
      split at h10
      case isTrue => cases h10
      cases h10
      rw [mapM_eq_some_iff] at hm
      have : initEntry input tc ∈ dat.map some := by rw [← hm]; exact List.mem_map.mpr ⟨tc, htc, rfl⟩
      obtain ⟨q, h17, h18⟩ := List.mem_map.mp this
      have h18 := h18.symm
      unfold initEntry at h18
      rw [h14, ← h16] at h18
      by_cases hz : y.size = 0
      · rw [if_pos hz] at h18
        simp only [Option.some.injEq] at h18
        subst h18
        have h19 := PyDict.get?_of_mem hdn h17
        rw [htab] at h19
        cases h19
        obtain ⟨r, hr, _⟩ := hasCell_row tc.2 (hfn tc htc) _ hws hx
        unfold emptyTable at hr
        split at hr <;> cases hr
      · rw [if_neg hz] at h18
        simp only [Option.map_eq_some_iff] at h18
        obtain ⟨tab2, h19, rfl⟩ := h18
        have h20 := PyDict.get?_of_mem hdn h17
        rw [htab] at h20
        cases h20
        exact csv_table_inv env cenv cf dv tc.1 tc.2 headers (hf tc htc).2 tab hws lines h8 y h15 h19 f x hx
  · intro h
    obtain ⟨dir', h1, _, h2⟩ := csv_read_back env cenv laws cf dv policy allowOverwrite headers caseSpace schema hg hrt hf dat dat
      hd.1 (fun tc htc => by
        obtain ⟨tab, ht⟩ := hget tc htc
        have hws := hd.2 tc htc tab ht
        exact ⟨tab, tab, ht, ht, hws, hws, tabRel_refl tc.2 (hfn tc htc) tab hws _ (fun f x hx =>
          (csv_cell_iff hT cf hq dv tc.1 f x (hpar _)).mpr (h tc htc tab ht f x hx))⟩) dir hdir hover hother
    refine ⟨dir', h1, ?_⟩
    rw [h2 dir' (.refl _), hpost]

theorem csvExample_cells {f : String} {x : Cell} (h : HasCell ⟨["name"], ["cost", "kind"], []⟩ (.keyed [(.one (.str "milk"),
    [("cost", .num (.fin 2)), ("kind", .none)]), (.one (.str "egg"), [("cost", .num .pinf), ("kind", .str "a")])]) f x) :
    (f = "name" ∧ (x = .str "milk" ∨ x = .str "egg")) ∨ (f = "cost" ∧ (x = .num (.fin 2) ∨ x = .num .pinf)) ∨
      (f = "kind" ∧ (x = .none ∨ x = .str "a")) := by
  simp only [HasCell, List.mem_cons, List.not_mem_nil, or_false] at h
  obtain ⟨p, hp, h⟩ := h
  rcases hp with hp | hp <;> subst hp <;> rcases h with ⟨i, hf, hi⟩ | h
  all_goals first
    | (rcases i with _ | i <;> simp [keyCells] at hi hf; subst hi hf; simp; done)
    | (simp only [PyDict.get?] at h; repeat' split at h
       all_goals first
         | (cases h; done)
         | (rename_i e; subst e; cases h; simp; done)
         | (rename_i e _; subst e; cases h; simp; done))

theorem csvExample_ok : DatOK [("food_list", ⟨["name"], ["cost", "kind"], []⟩)] csvExampleDat := by
  refine ⟨rfl, ?_⟩
  intro tc htc tab htab
  simp at htc
  subst htc
  simp [csvExampleDat, PyDict.get?] at htab
  subst htab
  refine ⟨by simp, by decide, ?_⟩
  intro p hp
  simp at hp
  rcases hp with rfl | rfl <;> exact ⟨rfl, rfl⟩

/-- The example object of C46, in a directory that has another file, with a number as infinity flag: it comes back if the flag is above
its numbers, and does not otherwise. -/
theorem csv_example_flag (headers : Bool) (q : Rat) (hq : 0 < q) :
    (∃ dir', csvWrite unaryText asciiEnv ⟨[], .num q, false, []⟩ false headers true
      [("food_list", ⟨["name"], ["cost", "kind"], []⟩)] csvExampleDat [("note.txt".toList, [])] = some dir' ∧
      csvCreate unaryText asciiEnv ⟨[], .num q, false, []⟩ csvExampleDefaults .assert headers
        [("food_list", ⟨["name"], ["cost", "kind"], []⟩)] dir' = some csvExampleDat) ↔ 2 < q := by
  rw [csv_round_trip_iff unaryText unaryText_csv_ok asciiEnv asciiLaws ⟨[], .num q, false, []⟩ (by intro r h; cases h; exact hq) rfl
    csvExampleDefaults .assert false headers true [("food_list", ⟨["name"], ["cost", "kind"], []⟩)] (by decide +kernel)
    (by intro tc h; simp at h; subst h; exact asciiRoundTrip _)
    (by intro tc h; simp at h; subst h; exact ⟨by simp [TabClass.fields], by decide +kernel⟩) csvExampleDat csvExample_ok
    [("note.txt".toList, [])] (by simp [PyDict.keys])
    (.inr (by intro tc h; simp at h; subst h; decide +kernel))
    (by
      intro k hk tc htc hm
      simp [PyDict.keys] at hk htc
      subst hk htc
      revert hm
      decide +kernel)]
  constructor
  · intro h
    have h1 := h ("food_list", ⟨["name"], ["cost", "kind"], []⟩) (by simp) (.keyed [(.one (.str "milk"),
      [("cost", .num (.fin 2)), ("kind", .none)]), (.one (.str "egg"), [("cost", .num .pinf), ("kind", .str "a")])]) (by rfl)
      "cost" (.num (.fin 2)) ⟨(.one (.str "milk"), [("cost", .num (.fin 2)), ("kind", .none)]), (by simp), .inr (by rfl)⟩
    have h2 := h1.1
    simp only [JsonKeeps] at h2
    have h2 := h2.2 _ rfl
    rw [if_neg (by decide)] at h2
    rcases h2 with h2 | h2 | ⟨a, e, _, h3⟩
    · cases h2
    · cases h2
    · cases e; exact h3
  · intro h tc htc tab htab f x hx
    have htc : tc = ("food_list", ⟨["name"], ["cost", "kind"], []⟩) := by simpa using htc
    subst htc
    simp [csvExampleDat, PyDict.get?] at htab
    subst htab
    have h1 : ¬ ReadAsDate unaryText ⟨[], .num q, false, []⟩ "food_list" f x := by
      rintro ⟨⟨td, e, _⟩, _⟩; cases e
    have h2 : ¬ ReadAsNumber unaryText ⟨[], .num q, false, []⟩ "food_list" f x := by
      rintro ⟨e, _⟩; cases e
    have hnum : CsvNumField ⟨[], .num q, false, []⟩ csvExampleDefaults "food_list" "cost" := ⟨_, rfl, rfl⟩
    have hnul : CsvNullField ⟨[], .num q, false, []⟩ csvExampleDefaults "food_list" "kind" := rfl
    have hno : ∀ g, g = "name" ∨ g = "kind" → ¬ CsvNumField ⟨[], .num q, false, []⟩ csvExampleDefaults "food_list" g := by
      rintro g (rfl | rfl) ⟨v, e, e'⟩ <;> simp [csvExampleDefaults] at e <;> subst e <;> cases e'
    rcases csvExample_cells hx with ⟨rfl, rfl | rfl⟩ | ⟨rfl, rfl | rfl⟩ | ⟨rfl, rfl | rfl⟩
    · exact ⟨⟨fun _ => ⟨h1, h2⟩, fun y e => by cases e⟩, fun e => absurd e (hno _ (.inl rfl)), fun e => by simp at e⟩
    · exact ⟨⟨fun _ => ⟨h1, h2⟩, fun y e => by cases e⟩, fun e => absurd e (hno _ (.inl rfl)), fun e => by simp at e⟩
    · refine ⟨⟨fun _ => ⟨h1, h2⟩, fun y e => ?_⟩, .inl hnum⟩
      cases e
      rw [if_neg (by decide)]
      exact .inr (.inr ⟨2, rfl, by grind, h⟩)
    · refine ⟨⟨fun _ => ⟨h1, h2⟩, fun y e => ?_⟩, .inl hnum⟩
      cases e
      rw [if_neg (by decide)]
      exact .inl rfl
    · exact ⟨⟨fun _ => ⟨h1, h2⟩, fun y e => by cases e⟩, hnul⟩
    · exact ⟨⟨fun _ => ⟨h1, h2⟩, fun y e => by cases e⟩, fun e => absurd e (hno _ (.inr rfl)), fun e => by simp at e⟩

end Ticdat

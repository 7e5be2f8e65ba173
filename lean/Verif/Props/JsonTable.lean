import Verif.Props.ParamTable
import Verif.Props.CellIO
import Verif.Props.Names
import Verif.Props.CsvHeader
import Verif.Props.Params
/-!
# C20: json files
-/
namespace Ticdat
open Spec
set_option linter.unusedSimpArgs false

namespace Spec

/-- The cell `x` of field `f` in table `t` is stored in the json file and loaded as `y`. -/
def JsonCell (env : TextEnv) (cf : IOConf) (t f : String) (x y : Cell) : Prop :=
  ∃ w, jsonWriteCell env cf t f x = some w ∧ jsonable w = true ∧ readCell env cf t f w = some y

end Spec

theorem pairwise2_trans_map {A B C D : Type} {R : A → B → Prop} {S : C → D → Prop} {T : A → D → Prop}
    {g : A → Option C} {l : List A} {l' : List B} {l3 : List C} {l4 : List D}
    (h1 : Pairwise2 R l l') (h2 : l.mapM g = some l3) (h3 : Pairwise2 S l3 l4)
    (h : ∀ a b c d, a ∈ l → R a b → g a = some c → S c d → T a d) : Pairwise2 T l l4 := by
  rw [mapM_eq_some_iff] at h2
  induction h1 generalizing l3 l4 with
  | nil =>
    have : l3 = [] := by simpa using h2.symm
    subst this
    cases h3
    exact .nil
  | cons hr hl ih =>
    cases l3 with
    | nil => simp at h2
    | cons c l3 =>
      simp only [List.map_cons, List.cons.injEq] at h2
      cases h3 with
      | cons hs hs' =>
        exact .cons (h _ _ _ _ List.mem_cons_self hr h2.1 hs)
          (ih h2.2 hs' (fun a b c d ha => h a b c d (List.mem_cons_of_mem _ ha)))

theorem pairwise2_length {A B : Type} {R : A → B → Prop} {l : List A} {l' : List B} (h : Pairwise2 R l l') :
    l'.length = l.length := by
  induction h with
  | nil => rfl
  | cons _ _ ih => simp [ih]

theorem pairwise2_exists {A B C : Type} {R : A → B → Prop} {g : A → Option C} {l : List A} {l' : List B}
    (h : Pairwise2 R l l') (hg : ∀ a b, R a b → ∃ c, g a = some c) : ∃ r, l.mapM g = some r := by
  induction h with
  | nil => exact ⟨[], rfl⟩
  | cons hr _ ih =>
    obtain ⟨c, hc⟩ := hg _ _ hr
    obtain ⟨r, hr⟩ := ih
    exact ⟨c :: r, by rw [List.mapM_cons, hc, hr]; rfl⟩

/-- One row: what is loaded stands for the row read back. -/
theorem json_row (env : TextEnv) (cf : IOConf) (t : String) (fields : List String) (hn : fields.Nodup) (verbose : Bool)
    (r r' : List Cell) (h : RowRel fields (JsonCell env cf t) r r') :
    ∃ w, jsonMakeRow env cf t fields verbose r = some w ∧ ∀ w', SameJsonRow w w' →
      ∃ x, jsonReadRow env cf t fields w' = some x ∧ RowOf fields r' x := by
  obtain ⟨ws, h1, h2, h3⟩ := mapCells_round (jsonWriteCell env cf t) (readCell env cf t) (fun w => jsonable w = true)
    fields r r' h
  have hall : ws.all jsonable = true := List.all_eq_true.mpr h2
  have hl := mapCells_length _ _ _ _ h.1 h1
  unfold jsonMakeRow
  rw [if_pos h.1, h1]
  simp only [Option.bind_some, hall, if_true]
  refine ⟨_, rfl, ?_⟩
  cases verbose with
  | false =>
    simp only [Bool.false_eq_true, if_false]
    intro w' hw
    cases w' with
    | dict => exact absurd hw id
    | scalar => exact absurd hw id
    | seq vs =>
      have : vs = ws := hw
      subst this
      exact ⟨.seq r', by simp [jsonReadRow, h3], rfl⟩
  | true =>
    simp only [if_true]
    have hz : ((fields.zip ws).map Prod.fst).Nodup := by rw [List.map_fst_zip (by omega)]; exact hn
    rw [PyDict.ofList_of_nodup _ hz]
    intro w' hw
    cases w' with
    | seq => exact absurd hw id
    | scalar => exact absurd hw id
    | dict d =>
      have hp : List.Perm d (fields.zip ws) := hw
      unfold mapCells at h3
      rw [mapM_eq_some_iff] at h3
      have hk : ∀ p ∈ fields.zip ws, (readCell env cf t p.1 p.2).map (fun v => (p.1, v)) =
          some (p.1, (readCell env cf t p.1 p.2).getD .none) := by
        intro p hp
        have : readCell env cf t p.1 p.2 ∈ r'.map some := by rw [← h3]; exact List.mem_map.mpr ⟨p, hp, rfl⟩
        obtain ⟨y, _, hy⟩ := List.mem_map.mp this
        rw [← hy]
        rfl
      refine ⟨.dict (d.map (fun p => (p.1, (readCell env cf t p.1 p.2).getD .none))), ?_, ?_⟩
      · simp only [jsonReadRow]
        rw [mapM_eq_map (k := fun p => (p.1, (readCell env cf t p.1 p.2).getD .none))
          (fun p hpd => hk p (hp.mem_iff.mp hpd))]
        rfl
      · have h4 : (fields.zip ws).map (fun p => (p.1, (readCell env cf t p.1 p.2).getD .none)) = fields.zip r' := by
          apply List.ext_getElem?
          intro i
          rw [List.getElem?_map]
          have h5 := congrArg (fun l => l[i]?) h3
          simp only [List.getElem?_map] at h5
          cases hz : (fields.zip ws)[i]? with
          | none =>
            rw [List.getElem?_eq_none_iff] at hz
            have : (fields.zip r')[i]? = none := by
              rw [List.getElem?_eq_none_iff, List.length_zip, h.2.1]
              rw [List.length_zip, hl] at hz
              exact hz
            rw [this]
            rfl
          | some p =>
            rw [hz] at h5
            cases hr : r'[i]? with
            | none => rw [hr] at h5; cases h5
            | some y =>
              rw [hr] at h5
              simp only [Option.map_some, Option.some.injEq] at h5
              symm
              rw [Option.map_some, List.getElem?_zip_eq_some]
              rw [List.getElem?_zip_eq_some] at hz
              exact ⟨hz.1, by rw [hr, h5]; rfl⟩
        show List.Perm _ _
        rw [← h4]
        exact hp.map _

theorem tabRows_size (tab : TabVal) : (tabRows tab).length = tab.size := by
  cases tab <;> simp [tabRows, TabVal.size]

/-- **C20, one table.**  A table whose cells are stored and loaded as the cells of `tab'` is loaded as `tab'`: same
number and order of rows, same keys and fields, in both layouts, and whatever the order of the entries of the loaded
dictionaries. -/
theorem json_table (env : TextEnv) (cf : IOConf) (t : String) (c : TabClass) (hn : c.fields.Nodup) (verbose : Bool)
    (tab tab' : TabVal) (h : WellShaped c tab) (h' : WellShaped c tab') (hr : TabRel c (JsonCell env cf t) tab tab') :
    ∃ rows, jsonTable env cf verbose t c tab = some rows ∧ ∀ rows', Pairwise2 SameJsonRow rows rows' →
      ∃ x, jsonReadTable env cf t c rows' = some x ∧ initTable c x = some tab' ∧ x.size = tab'.size := by
  have hdn : c.dfs.Nodup := (List.nodup_append.mp hn).2.1
  unfold jsonTable
  rw [flatRows_eq c hdn tab h, Option.bind_some]
  obtain ⟨rows, hrows⟩ := pairwise2_exists (g := jsonMakeRow env cf t c.fields verbose) hr (fun r r' hrr => by
    obtain ⟨w, hw, _⟩ := json_row env cf t c.fields hn verbose r r' hrr
    exact ⟨w, hw⟩)
  refine ⟨rows, hrows, fun rows' hsame => ?_⟩
  have hp : Pairwise2 (fun r' w' => ∃ x, jsonReadRow env cf t c.fields w' = some x ∧ RowOf c.fields r' x)
      (tabRows tab') rows' := by
    have : ∀ (l l' : List (List Cell)) (rows rows' : List RowIn), Pairwise2 (RowRel c.fields (JsonCell env cf t)) l l' →
        l.mapM (jsonMakeRow env cf t c.fields verbose) = some rows → Pairwise2 SameJsonRow rows rows' →
        Pairwise2 (fun r' w' => ∃ x, jsonReadRow env cf t c.fields w' = some x ∧ RowOf c.fields r' x) l' rows' := by
      intro l l' rows rows' h1 h2 h3
      rw [mapM_eq_some_iff] at h2
      induction h1 generalizing rows rows' with
      | nil =>
        have : rows = [] := by simpa using h2.symm
        subst this
        cases h3
        exact .nil
      | cons hr hl ih =>
        cases rows with
        | nil => simp at h2
        | cons w rows =>
          simp only [List.map_cons, List.cons.injEq] at h2
          cases h3 with
          | cons hs hs' =>
            refine .cons ?_ (ih _ _ h2.2 hs')
            obtain ⟨w2, hw2, hread⟩ := json_row env cf t c.fields hn verbose _ _ hr
            rw [h2.1] at hw2
            cases hw2
            exact hread _ hs
    exact this _ _ _ _ hr hrows hsame
  have : ∃ xs, rows'.mapM (jsonReadRow env cf t c.fields) = some xs ∧ Pairwise2 (RowOf c.fields) (tabRows tab') xs := by
    clear hsame hrows
    generalize tabRows tab' = l at hp
    induction hp with
    | nil => exact ⟨[], rfl, .nil⟩
    | cons hx _ ih =>
      obtain ⟨x, hx1, hx2⟩ := hx
      obtain ⟨xs, h1, h2⟩ := ih
      exact ⟨x :: xs, by rw [List.mapM_cons, hx1, h1]; rfl, .cons hx2 h2⟩
  obtain ⟨xs, hxs, hpw⟩ := this
  refine ⟨.seq xs, by simp [jsonReadTable, hxs], init_of_flat c hn tab' h' xs hpw, ?_⟩
  rw [TableIn.size, pairwise2_length hpw, tabRows_size]

/-! ### Whole objects -/

theorem dict_eq_map {K V : Type} [DecidableEq K] (d : PyDict K V) (hn : (PyDict.keys d).Nodup) (dflt : V) :
    d = (PyDict.keys d).map (fun k => (k, (PyDict.get? d k).getD dflt)) := by
  unfold PyDict.keys
  rw [List.map_map]
  conv => lhs; rw [← List.map_id d]
  apply List.map_congr_left
  intro p hp
  simp [PyDict.get?_of_mem hn hp]

/-- The constructor gives `dat` if each table of `dat` is empty and not passed, or what its rows stand for. -/
theorem initDat_of (policy : DupPolicy) (schema : List (String × TabClass)) (hs : (schema.map Prod.fst).Nodup)
    (input : PyDict String TableIn) (dat : PyDict String TabVal) (hin : ∀ t ∈ PyDict.keys input, t ∈ schema.map Prod.fst)
    (hi : (PyDict.keys input).Nodup) (hk : PyDict.keys dat = schema.map Prod.fst)
    (h : ∀ tc ∈ schema, ∃ tab, PyDict.get? dat tc.1 = some tab ∧
      ((PyDict.get? input tc.1 = none ∧ tab = emptyTable tc.2) ∨
        ∃ x, PyDict.get? input tc.1 = some x ∧ initTable tc.2 x = some tab ∧ x.size = tab.size)) :
    initDat policy schema input = some dat := by
  have hall : input.all (fun p => decide (p.1 ∈ schema.map Prod.fst)) = true := by
    rw [List.all_eq_true]
    intro p hp
    exact decide_eq_true (hin p.1 (List.mem_map.mpr ⟨p, hp, rfl⟩))
  have hdn : (PyDict.keys dat).Nodup := by rw [hk]; exact hs
  have hm : schema.mapM (initEntry input) = some dat := by
    rw [mapM_eq_map (k := fun tc => (tc.1, (PyDict.get? dat tc.1).getD (.plain [])))]
    · conv => rhs; rw [dict_eq_map dat hdn (.plain []), hk]
      rw [List.map_map]
      rfl
    · intro tc htc
      obtain ⟨tab, hg, hcase⟩ := h tc htc
      unfold initEntry
      rcases hcase with ⟨h1, rfl⟩ | ⟨x, h1, h2, _⟩
      · simp [h1, hg]
      · simp [h1, h2, hg]
  unfold initDat
  rw [if_pos hall, hm]
  have hdup : (input.any (fun p => decide (p.2.size > ((PyDict.get? dat p.1).map TabVal.size).getD 0))) = false := by
    rw [List.any_eq_false]
    intro p hp
    obtain ⟨tc, htc, he⟩ := List.mem_map.mp (hin p.1 (List.mem_map.mpr ⟨p, hp, rfl⟩))
    obtain ⟨tab, hg, hcase⟩ := h tc htc
    have hgp : PyDict.get? input tc.1 = some p.2 := by rw [he]; exact PyDict.get?_of_mem hi hp
    rcases hcase with ⟨h1, _⟩ | ⟨x, h1, h2, hsz⟩
    · rw [h1] at hgp; cases hgp
    · rw [h1] at hgp
      cases hgp
      rw [he] at hg
      simp [hg, hsz]
  simp [hdup]

theorem json_key_found (cenv : CaseEnv) (names : List String)
    (hg : goodTableNames cenv (names.map String.toList) = true) (keys : List String) (hp : List.Perm keys names)
    (t : String) (ht : t ∈ names) : jsonKeyOf cenv keys t = some (some t) := by
  obtain ⟨_, hb, hl⟩ := (goodTableNames_iff cenv _).mp hg
  have hnn : (names.map String.toList).Nodup := nodup_of_map _ hl
  have hn : names.Nodup := nodup_of_map _ hnn
  have : keys.filter (fun k => jsonMatches cenv t.toList k.toList) = [t] := by
    rw [filter_eq_singleton keys (hp.nodup_iff.mpr hn)]
    refine ⟨hp.mem_iff.mpr ht, ?_, ?_⟩
    · unfold jsonMatches
      rw [unblank_of_no_blank _ (hb _ (List.mem_map.mpr ⟨t, ht, rfl⟩))]
      exact decide_eq_true rfl
    · intro k hk hm
      have hkn := hp.mem_iff.mp hk
      unfold jsonMatches at hm
      rw [unblank_of_no_blank _ (hb _ (List.mem_map.mpr ⟨k, hkn, rfl⟩)), decide_eq_true_eq] at hm
      exact String.toList_injective (lower_inj_of_nodup hl (List.mem_map.mpr ⟨t, ht, rfl⟩)
        (List.mem_map.mpr ⟨k, hkn, rfl⟩) hm).symm
  unfold jsonKeyOf
  rw [this]

/-- **C20, whole objects.**  Write a data object in either layout and read the file.  If every cell is stored and loaded
as the corresponding cell of `dat'` then the result is `dat'`, with the parameters table adjusted: same tables, keys, rows
and row order, under every duplicates policy. -/
theorem json_read_back (env : TextEnv) (cenv : CaseEnv) (cf : IOConf) (policy : DupPolicy) (verbose : Bool)
    (schema : List (String × TabClass)) (hg : goodTableNames cenv (schema.map (fun tc => tc.1.toList)) = true)
    (hf : ∀ tc ∈ schema, tc.2.fields.Nodup) (dat dat' : PyDict String TabVal)
    (hk' : PyDict.keys dat' = schema.map Prod.fst)
    (ht : ∀ tc ∈ schema, ∃ tab tab', PyDict.get? dat tc.1 = some tab ∧ PyDict.get? dat' tc.1 = some tab' ∧
      WellShaped tc.2 tab ∧ WellShaped tc.2 tab' ∧ TabRel tc.2 (JsonCell env cf tc.1) tab tab') :
    ∃ file, jsonWrite env cf verbose schema dat = some file ∧ ∀ file', SameJson file file' →
      jsonCreate env cenv cf policy schema file' = some (postRead env cf.params dat') := by
  have hg' : goodTableNames cenv ((schema.map Prod.fst).map String.toList) = true := by
    rw [List.map_map]; exact hg
  have hnames : (schema.map Prod.fst).Nodup := nodup_of_map _ (nodup_of_map _ ((goodTableNames_iff cenv _).mp hg').2.2)
  have hw : ∀ tc ∈ schema, ∃ rows, (PyDict.get? dat tc.1).bind (fun tab =>
      (jsonTable env cf verbose tc.1 tc.2 tab).map (fun rows => (tc.1, rows))) = some (tc.1, rows) ∧
      ∀ rows', Pairwise2 SameJsonRow rows rows' → ∃ x tab', jsonReadTable env cf tc.1 tc.2 rows' = some x ∧
        PyDict.get? dat' tc.1 = some tab' ∧ initTable tc.2 x = some tab' ∧ x.size = tab'.size := by
    intro tc htc
    obtain ⟨tab, tab', h1, h2, h3, h4, h5⟩ := ht tc htc
    obtain ⟨rows, hr, hread⟩ := json_table env cf tc.1 tc.2 (hf tc htc) verbose tab tab' h3 h4 h5
    refine ⟨rows, by simp [h1, hr], fun rows' hs => ?_⟩
    obtain ⟨x, hx1, hx2, hx3⟩ := hread rows' hs
    exact ⟨x, tab', hx1, h2, hx2, hx3⟩
  obtain ⟨file, hfile⟩ : ∃ file, jsonWrite env cf verbose schema dat = some file := by
    unfold jsonWrite
    apply mapM_some_of_forall
    intro tc htc
    obtain ⟨rows, hr, _⟩ := hw tc htc
    rw [hr]
    simp
  refine ⟨file, hfile, fun file' hsame => ?_⟩
  unfold jsonWrite at hfile
  rw [mapM_eq_some_iff] at hfile
  have hkeys : PyDict.keys file = schema.map Prod.fst := by
    have h3 := congrArg (List.map (fun o : Option (String × List RowIn) => o.map Prod.fst)) hfile
    rw [List.map_map, List.map_map] at h3
    have h4 : (schema.map Prod.fst).map some = (PyDict.keys file).map some := by
      unfold PyDict.keys
      rw [List.map_map, List.map_map]
      refine Eq.trans ?_ h3
      apply List.map_congr_left
      intro tc htc
      obtain ⟨rows, hr, _⟩ := hw tc htc
      simp only [Function.comp_apply, hr, Option.map_some]
    exact ((List.map_inj_right (fun _ _ => Option.some.inj)).mp h4).symm
  have hfn : (PyDict.keys file).Nodup := by rw [hkeys]; exact hnames
  have hread : ∀ tc ∈ schema, ∃ rows' x tab', PyDict.get? file' tc.1 = some rows' ∧
      jsonReadTable env cf tc.1 tc.2 rows' = some x ∧ PyDict.get? dat' tc.1 = some tab' ∧ initTable tc.2 x = some tab' ∧
      x.size = tab'.size := by
    intro tc htc
    obtain ⟨rows, hr, hrd⟩ := hw tc htc
    have hm : (tc.1, rows) ∈ file := by
      have : some (tc.1, rows) ∈ file.map some := by
        rw [← hfile, ← hr]
        exact List.mem_map.mpr ⟨tc, htc, rfl⟩
      simpa using this
    obtain ⟨rows', h1, h2⟩ := hsame.2 tc.1 rows (PyDict.get?_of_mem hfn hm)
    obtain ⟨x, tab', h3, h4, h5, h6⟩ := hrd rows' h2
    exact ⟨rows', x, tab', h1, h3, h4, h5, h6⟩
  have hperm : List.Perm (PyDict.keys file') (schema.map Prod.fst) := by rw [← hkeys]; exact hsame.1
  have htabs : ∀ s : List (String × TabClass), (∀ tc ∈ s, tc ∈ schema) → (s.map Prod.fst).Nodup →
      ∃ input, jsonTables env cenv cf file' s = some input ∧ PyDict.keys input = s.map Prod.fst ∧
        ∀ tc ∈ s, ∃ x tab', PyDict.get? input tc.1 = some x ∧ PyDict.get? dat' tc.1 = some tab' ∧
          initTable tc.2 x = some tab' ∧ x.size = tab'.size := by
    intro s
    induction s with
    | nil => intro _ _; exact ⟨[], rfl, rfl, by simp⟩
    | cons tc rest ih =>
      intro hsub hnd
      rw [List.map_cons, List.nodup_cons] at hnd
      obtain ⟨input, h1, h2, h3⟩ := ih (fun tc' h => hsub tc' (List.mem_cons_of_mem _ h)) hnd.2
      have hin : tc ∈ schema := hsub tc List.mem_cons_self
      obtain ⟨rows', x, tab', h4, h5, h6, h7, h8⟩ := hread tc hin
      refine ⟨(tc.1, x) :: input, ?_, ?_, ?_⟩
      · rw [jsonTables, json_key_found cenv (schema.map Prod.fst) hg' _ hperm tc.1 (List.mem_map.mpr ⟨tc, hin, rfl⟩)]
        simp [h4, h5, h1]
      · rw [List.map_cons, ← h2]; rfl
      · intro tc' htc'
        rcases List.mem_cons.mp htc' with e | htc'
        · rw [e]
          exact ⟨x, tab', by simp [PyDict.get?], h6, h7, h8⟩
        · obtain ⟨x2, tab2, h9, h10⟩ := h3 tc' htc'
          refine ⟨x2, tab2, ?_, h10⟩
          have hne : ¬ tc.1 = tc'.1 := by
            intro e
            exact hnd.1 (List.mem_map.mpr ⟨tc', htc', e.symm⟩)
          simp [PyDict.get?, hne, h9]
  obtain ⟨input, h1, h2, h3⟩ := htabs schema (fun _ h => h) hnames
  unfold jsonCreate
  rw [h1, Option.bind_some]
  rw [initDat_of policy schema hnames input dat' (fun t h => by rw [← h2]; exact h) (by rw [h2]; exact hnames) hk']
  · rfl
  · intro tc htc
    obtain ⟨x, tab', h4, h5, h6, h7⟩ := h3 tc htc
    exact ⟨tab', h5, .inr ⟨x, h4, h6, h7⟩⟩

/-! ### Cells -/

/-- Reading a cell that is not reinterpreted. -/
theorem readCell_asIs {env : TextEnv} {cf : IOConf} {t f : String} (ht : t ≠ "parameters") (x : Cell)
    (h : ∀ td, typeOf cf.types t f = some td → (td.datetime = true → Null x) ∧ (td.datetime = false →
      cf.automunge = true → td.numberAllowed = true → td.strings ≠ .oneOf [] →
      (∀ b, x ≠ .bool b) ∧ ∀ s, x = .str s → env.float s = none)) :
    readCell env cf t f x = match cf.flag with
      | .num q =>
        match x with
        | .num y => some (.num (if XNum.le (.fin q) y then .pinf else if XNum.le y (.fin (-q)) then .ninf else y))
        | x => some x
      | .none =>
        if x = .none then (infBias env cf t f).map (fun b =>
          match b with
          | some pos => .num (infOf pos)
          | none => x)
        else some x
      | .na => some x := by
  unfold readCell
  simp only [ht, if_false]
  rw [at_eq_typeOf]
  have h1 : (if ((typeOf cf.types t f).map (·.datetime)).getD false && !x.isNull then dateAdjust env x else none) =
      none := by
    cases htd : typeOf cf.types t f with
    | none => simp
    | some td =>
      cases hd : td.datetime with
      | false => simp [hd]
      | true =>
        have := (h td htd).1 hd
        have : x.isNull = true := by rcases this with rfl | rfl <;> rfl
        simp [this]
  have h2 : (if ((typeOf cf.types t f).map (fun td => !td.datetime && td.strings.truthy && td.numberAllowed)).getD false
      && cf.automunge then (toFloat env x).getD x else x) = x := by
    cases htd : typeOf cf.types t f with
    | none => simp
    | some td =>
      split
      · rename_i hm
        simp only [Option.map_some, Option.getD_some, Bool.and_eq_true, Bool.not_eq_true'] at hm
        obtain ⟨⟨⟨h3, h4⟩, h5⟩, h6⟩ := hm
        have h7 : td.strings ≠ .oneOf [] := by
          intro e
          rw [e] at h4
          simp [Strings.truthy] at h4
        obtain ⟨hb, hs⟩ := (h td htd).2 h3 h6 h5 h7
        cases x with
        | bool b => exact absurd rfl (hb b)
        | str s => simp [toFloat, hs s rfl]
        | _ => simp [toFloat]
      · rfl
  rw [h1]
  simp only [h2]
  cases cf.flag with
  | na => rfl
  | none => rfl
  | num q =>
    cases x with
    | num y =>
      simp only
      split
      · rfl
      · split <;> rfl
    | _ => rfl

/-- The value of a parameter as it is in a json file: a datetime is text. -/
def jsonParamText (env : TextEnv) : Cell → Cell
  | .dt d => .str (env.text (.dt d))
  | x => x

/-- **C20, cells.** -/
theorem json_cell_survives {env : TextEnv} (hT : ∀ d, env.date (.str (env.text (.dt d))) = some d) (cf : IOConf)
    (t f : String) (x : Cell) (hnp : ¬ IsParams cf.params t) (h : JsonSafe env cf t f x) : JsonCell env cf t f x x := by
  obtain ⟨hother, h⟩ := h
  by_cases ht : t = "parameters"
  · rw [if_pos ht] at h
    obtain ⟨hdt, h⟩ := h
    refine ⟨x, ?_, ?_, by simp [readCell, ht]⟩
    · have hw : jsonWriteCell env cf t f x = writeCell env cf t f x := by
        cases x with
        | dt d => exact absurd rfl (hdt d)
        | _ => rfl
      rw [hw]
      have hp : cf.params = [] := Classical.byContradiction (fun hp => hnp ⟨hp, ht⟩)
      simp [writeCell, hp, h]
    · cases x with
      | dt d => exact absurd rfl (hdt d)
      | other o => exact absurd rfl (hother o)
      | _ => rfl
  · rw [if_neg ht] at h
    obtain ⟨hread, hflag⟩ := h
    by_cases hdt : ∃ d, x = .dt d
    · obtain ⟨d, rfl⟩ := hdt
      have htd : ∃ td, typeOf cf.types t f = some td ∧ td.datetime = true := by
        unfold ReadAsIs at hread
        cases hty : typeOf cf.types t f with
        | none => rw [hty] at hread; exact absurd rfl (hread d)
        | some td =>
          rw [hty] at hread
          simp only at hread
          cases hd : td.datetime with
          | true => exact ⟨td, rfl, hd⟩
          | false =>
            rw [hd] at hread
            simp only [Bool.false_eq_true, if_false] at hread
            exact absurd rfl (hread.1 d)
      obtain ⟨td, h1, h2⟩ := htd
      refine ⟨.str (env.text (.dt d)), rfl, rfl, ?_⟩
      unfold readCell
      simp [ht, at_eq_typeOf, h1, h2, Cell.isNull, dateAdjust, hT]
    · have hread' : ∀ w, (w = x ∨ w = .none ∨ ∃ y, w = .num y ∧ ∃ z, x = .num z) → ∀ td, typeOf cf.types t f = some td →
          (td.datetime = true → Null w) ∧ (td.datetime = false →
          cf.automunge = true → td.numberAllowed = true → td.strings ≠ .oneOf [] →
          (∀ b, w ≠ .bool b) ∧ ∀ s, w = .str s → env.float s = none) := by
        intro w hw td htd
        unfold ReadAsIs at hread
        rw [htd] at hread
        simp only at hread
        cases hd : td.datetime with
        | true =>
          rw [hd] at hread
          simp only [if_true] at hread
          refine ⟨(fun _ => ?_), (fun h => by cases h)⟩
          rcases hread with hx | hx
          · exact absurd hx hdt
          · rcases hw with rfl | rfl | ⟨y, rfl, z, rfl⟩
            · exact hx
            · exact Or.inl rfl
            · rcases hx with h | h <;> cases h
        | false =>
          rw [hd] at hread
          simp only [Bool.false_eq_true, if_false] at hread
          refine ⟨(fun h => by cases h), (fun _ h1 h2 h3 => ?_)⟩
          rcases hw with hw | hw | ⟨y, hw, _⟩
          · rw [hw]; exact hread.2 h1 h2 h3
          · rw [hw]; exact ⟨(fun b h => by cases h), (fun s h => by cases h)⟩
          · rw [hw]; exact ⟨(fun b h => by cases h), (fun s h => by cases h)⟩
      have hw : jsonWriteCell env cf t f x = writeCell env cf t f x := by
        cases x with
        | dt d => exact absurd ⟨d, rfl⟩ hdt
        | _ => rfl
      have hj : jsonable x = true := by
        cases x with
        | dt d => exact absurd ⟨d, rfl⟩ hdt
        | other o => exact absurd rfl (hother o)
        | _ => rfl
      unfold JsonCell
      rw [hw]
      unfold FlagSafe at hflag
      cases hf : cf.flag with
      | na =>
        refine ⟨x, by simp [writeCell, ht, hf], hj, ?_⟩
        rw [readCell_asIs ht x (hread' x (.inl rfl)), hf]
      | num q =>
        rw [hf] at hflag
        cases x with
        | num y =>
          obtain ⟨w, h1, h2⟩ := num_flag_survives (env := env) (f := f) hf hflag.1 ht y (hflag.2 y rfl)
          refine ⟨w, h1, ?_, h2⟩
          simp only [writeCell, ht, false_and, if_false, hf, Option.some.injEq] at h1
          rw [← h1]
          rfl
        | none =>
          refine ⟨_, by simp only [writeCell, ht, false_and, if_false, hf], hj, ?_⟩
          rw [readCell_asIs ht _ (hread' _ (.inl rfl)), hf]
        | nan =>
          refine ⟨_, by simp only [writeCell, ht, false_and, if_false, hf], hj, ?_⟩
          rw [readCell_asIs ht _ (hread' _ (.inl rfl)), hf]
        | bool b =>
          refine ⟨_, by simp only [writeCell, ht, false_and, if_false, hf], hj, ?_⟩
          rw [readCell_asIs ht _ (hread' _ (.inl rfl)), hf]
        | str s =>
          refine ⟨_, by simp only [writeCell, ht, false_and, if_false, hf], hj, ?_⟩
          rw [readCell_asIs ht _ (hread' _ (.inl rfl)), hf]
        | dt d => exact absurd ⟨d, rfl⟩ hdt
        | other o => exact absurd rfl (hother o)
      | none =>
        rw [hf] at hflag
        obtain ⟨hamb, hvalid⟩ := hflag
        rw [← infBias_none_iff hf] at hamb
        cases hb : infBias env cf t f with
        | none => exact absurd hb hamb
        | some b =>
          have hwr : writeCell env cf t f x = some (match b with
              | some pos => if x = .num (infOf pos) then .none else x
              | none => x) := by
            simp only [writeCell, ht, hf, hb, false_and, if_false, Option.map_some]
            cases b <;> rfl
          cases b with
          | none =>
            refine ⟨x, hwr, hj, ?_⟩
            rw [readCell_asIs ht x (hread' x (.inl rfl)), hf]
            simp only [hb, Option.map_some]
            split <;> rfl
          | some pos =>
            by_cases hx : x = .num (infOf pos)
            · refine ⟨.none, by rw [hwr]; simp [hx], rfl, ?_⟩
              rw [readCell_asIs ht .none (hread' .none (.inr (.inl rfl))), hf]
              simp [hb, hx]
            · refine ⟨x, by rw [hwr]; simp [hx], hj, ?_⟩
              rw [readCell_asIs ht x (hread' x (.inl rfl)), hf]
              simp only [hb, Option.map_some]
              have hxn : x ≠ .none := by
                rintro rfl
                obtain ⟨td, h1, h2, _⟩ := infBias_some hb
                exact h2 (hvalid td h1)
              rw [if_neg hxn]

/-- **C20.**  Writing a data object to json, in either layout, and reading it back gives the same object: the same tables
with the same keys and rows in the same order, provided that the cells are of the kinds json can hold and are not
reinterpreted by types, flags or parameters, as spelled out in `JsonSafe` and `JsonParam`. -/
theorem json_round_trip_partial (env : TextEnv) (hT : ∀ d, env.date (.str (env.text (.dt d))) = some d) (cenv : CaseEnv)
    (cf : IOConf) (policy : DupPolicy) (verbose : Bool) (schema : List (String × TabClass))
    (hg : goodTableNames cenv (schema.map (fun tc => tc.1.toList)) = true) (hf : ∀ tc ∈ schema, tc.2.fields.Nodup)
    (dat : PyDict String TabVal) (hk : PyDict.keys dat = schema.map Prod.fst)
    (hw : ∀ tc ∈ schema, ∀ tab, PyDict.get? dat tc.1 = some tab → WellShaped tc.2 tab)
    (hc : ∀ tc ∈ schema, ∀ tab, PyDict.get? dat tc.1 = some tab → ¬ IsParams cf.params tc.1 → ∀ f x,
      HasCell tc.2 tab f x → JsonSafe env cf tc.1 f x)
    (hp : ∀ tab, PyDict.get? dat "parameters" = some tab → cf.params ≠ [] →
      ParamEntries (JsonParam env cf.params) tab) :
    ∃ file, jsonWrite env cf verbose schema dat = some file ∧ ∀ file', SameJson file file' →
      jsonCreate env cenv cf policy schema file' = some dat := by
  have hnames : (schema.map Prod.fst).Nodup := by
    have hg' : goodTableNames cenv ((schema.map Prod.fst).map String.toList) = true := by
      rw [List.map_map]; exact hg
    exact nodup_of_map _ (nodup_of_map _ ((goodTableNames_iff cenv _).mp hg').2.2)
  obtain ⟨dat', hk', hpost, hrel⟩ := params_view env cf.params (jsonParamText env) schema hnames hf dat hk hw
    (fun t f x y => JsonCell env cf t f x y)
    (fun tc htc tab hget hnp f x hx => json_cell_survives hT cf tc.1 f x hnp (hc tc htc tab hget hnp f x hx))
    (JsonParam env cf.params) hp
    (by
      rintro hpar f f' k v ⟨hkey, hval⟩
      have hid : ∀ f z, (∀ d, z ≠ Cell.dt d) → z ≠ .nan → (∀ o, z ≠ .other o) → JsonCell env cf "parameters" f z z := by
        intro f z h1 h2 h3
        refine ⟨z, ?_, ?_, by simp [readCell]⟩
        · cases z with
          | dt d => exact absurd rfl (h1 d)
          | nan => exact absurd rfl h2
          | none => simp [jsonWriteCell, writeCell, hpar, Cell.isNull]
          | _ => simp [jsonWriteCell, writeCell, hpar, Cell.isNull]
        · cases z with
          | dt d => exact absurd rfl (h1 d)
          | other o => exact absurd rfl (h3 o)
          | _ => rfl
      refine ⟨?_, ?_, ?_⟩
      · rcases hkey with ⟨s, rfl⟩ | ⟨s, rfl⟩ | ⟨s, rfl⟩ <;> exact hid f _ (by simp) (by simp) (by simp)
      · rcases hval with ⟨h1, h2, h3, _⟩ | ⟨d, td, rfl, _⟩
        · have : jsonParamText env v = v := by
            cases v with
            | dt d => exact absurd rfl (h1 d)
            | _ => rfl
          rw [this]
          exact hid f' v h1 h2 h3
        · exact ⟨.str (env.text (.dt d)), rfl, rfl, by simp [readCell, jsonParamText]⟩
      · rcases hval with ⟨h1, h2, h3, h4⟩ | ⟨d, td, rfl, h5, h6⟩
        · have : jsonParamText env v = v := by
            cases v with
            | dt d => exact absurd rfl (h1 d)
            | _ => rfl
          rw [this]
          exact fixParam_asIs env cf.params k v h4
        · unfold fixParam
          rw [paramType_eq, h5]
          have h7 : td.validData env.parses (.str (env.text (.dt d))) = true := by
            rw [valid_data_iff]
            refine Or.inr (Or.inl ⟨?_, h6, Or.inr ?_⟩)
            · rintro (h | h) <;> cases h
            · simp [TextEnv.parses, dateAdjust, hT]
          simp [jsonParamText, h7, h6, dateAdjust, hT])
  obtain ⟨file, h1, h2⟩ := json_read_back env cenv cf policy verbose schema hg hf dat dat' hk' hrel
  refine ⟨file, h1, fun file' hs => ?_⟩
  rw [h2 file' hs, hpost]

/-! ### Findings -/

/-- A row of a json file that is longer than the schema has fields is accepted, and its last cells are dropped: a file
with an extra column is read without complaint, the constructor would raise. -/
theorem json_long_row_truncated (env : TextEnv) (cf : IOConf) (t : String) (fields : List String) (vs extra : List Cell)
    (hl : vs.length = fields.length) :
    jsonReadRow env cf t fields (.seq (vs ++ extra)) = jsonReadRow env cf t fields (.seq vs) := by
  simp only [jsonReadRow, mapCells]
  rw [show fields.zip (vs ++ extra) = fields.zip vs from by
    conv => lhs; rw [← List.append_nil fields]
    rw [List.zip_append hl.symm]
    simp]

/-- A row of a json file that is a string is taken apart into characters. -/
theorem json_string_row (env : TextEnv) :
    (jsonReadTable env ⟨[], .na, false, []⟩ "t" ⟨["a"], ["b"], []⟩ [.scalar (.str "xy")]).bind
      (initTable ⟨["a"], ["b"], []⟩) = some (.keyed [(.one (.str "x"), [("b", .str "y")])]) := by
  rfl

/-- Under `automunge_multitype_fields` a Boolean in a field for numbers and text becomes a number. -/
theorem json_bool_becomes_number (env : TextEnv) (cf : IOConf) (t f : String) (td : TypeDict) (ht : t ≠ "parameters")
    (htd : typeOf cf.types t f = some td) (hd : td.datetime = false) (hn : td.numberAllowed = true)
    (hs : td.strings = .any) (hm : cf.automunge = true) (hf : cf.flag = .na) :
    JsonCell env cf t f (.bool true) (.num (.fin 1)) := by
  refine ⟨.bool true, ?_, rfl, ?_⟩
  · simp [jsonWriteCell, writeCell, ht, hf]
  · unfold readCell
    simp [ht, at_eq_typeOf, htd, hd, hn, hs, hm, Strings.truthy, toFloat, hf]

/-- The object used in the example below. -/
def exampleDat : PyDict String TabVal :=
  [("foods", .keyed [(.one (.str "milk"), [("cost", .num (.fin 2)), ("kind", .none)]),
      (.one (.str "egg"), [("cost", .bool true), ("kind", .str "a")])])]

example (env : TextEnv) (hT : ∀ d, env.date (.str (env.text (.dt d))) = some d) : ∃ file,
    jsonWrite env ⟨[], .na, false, []⟩ true [("foods", ⟨["name"], ["cost", "kind"], []⟩)] exampleDat = some file ∧
      ∀ file', SameJson file file' → jsonCreate env asciiEnv ⟨[], .na, false, []⟩ .assert
        [("foods", ⟨["name"], ["cost", "kind"], []⟩)] file' = some exampleDat := by
  have hcell : ∀ f x, HasCell ⟨["name"], ["cost", "kind"], []⟩ (.keyed [(.one (.str "milk"),
      [("cost", .num (.fin 2)), ("kind", .none)]), (.one (.str "egg"), [("cost", .bool true), ("kind", .str "a")])]) f x →
      (∀ o, x ≠ .other o) ∧ ∀ d, x ≠ .dt d := by
    intro f x h
    simp only [HasCell, List.mem_cons, List.not_mem_nil, or_false] at h
    obtain ⟨p, hp, h⟩ := h
    rcases hp with hp | hp <;> subst hp <;> rcases h with ⟨i, _, hi⟩ | h
    all_goals first
      | (rcases i with _ | i <;> simp [keyCells] at hi; subst hi; simp)
      | (simp only [PyDict.get?] at h; repeat' split at h
         all_goals first
           | (cases h; done)
           | (cases h; simp; done))
  refine json_round_trip_partial env hT asciiEnv _ _ _ _ (by decide +kernel) (by intro tc h; simp at h; subst h; decide) _ rfl
    ?_ ?_ (by intro _ _ h; exact absurd rfl h)
  · intro tc htc tab htab
    simp at htc
    subst htc
    simp [exampleDat, PyDict.get?] at htab
    subst htab
    refine ⟨by simp, by decide, ?_⟩
    intro p hp
    simp at hp
    rcases hp with rfl | rfl <;> exact ⟨rfl, rfl⟩
  · intro tc htc tab htab _ f x hx
    simp at htc
    subst htc
    simp [exampleDat, PyDict.get?] at htab
    subst htab
    obtain ⟨h1, h2⟩ := hcell f x hx
    refine ⟨h1, ?_⟩
    rw [if_neg (by decide)]
    exact ⟨h2, trivial⟩

end Ticdat

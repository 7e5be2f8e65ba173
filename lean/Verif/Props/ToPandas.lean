import Verif.Props.Frame
import Verif.Props.Obfus
import Verif.Props.JsonTable
/-!
# C52: `copy_to_pandas` and back
-/
set_option linter.unusedSimpArgs false
namespace Ticdat
open Spec

/-- The value of a field in a row of cells. -/
def flatCell (c : TabClass) (s : List Cell) (f : String) : Cell := (s[c.fields.idxOf f]?).getD (.num (.fin 0))

theorem map_idxOf_self {A B : Type} [BEq A] [LawfulBEq A] (l : List A) (hn : l.Nodup) (s : List B) (h : s.length = l.length) (z : B) :
    l.map (fun f => (s[l.idxOf f]?).getD z) = s := by
  apply List.ext_getElem
  · simp [h]
  · intro i h1 h2
    rw [List.getElem_map]
    have hi : i < l.length := by simpa using h1
    rw [List.Nodup.idxOf_getElem hn i hi, List.getElem?_eq_getElem h2]
    rfl

theorem fields_flatCell (c : TabClass) (hn : c.fields.Nodup) (s : List Cell) (h : s.length = c.fields.length) :
    c.fields.map (flatCell c s) = s := map_idxOf_self c.fields hn s h _

theorem keyCells_keyFrom (pks : List String) (cell : String → Cell) : keyCells (keyFrom pks cell) = pks.map cell := by
  unfold keyFrom
  split <;> rfl

theorem pks_flatCell (c : TabClass) (hn : c.fields.Nodup) (s : List Cell) (h : s.length = c.fields.length) :
    c.pks.map (flatCell c s) = s.take c.pks.length := by
  have := congrArg (List.take c.pks.length) (fields_flatCell c hn s h)
  rw [← this]
  simp [TabClass.fields]

theorem dfs_flatCell (c : TabClass) (hn : c.fields.Nodup) (s : List Cell) (h : s.length = c.fields.length) :
    c.dfs.map (flatCell c s) = s.drop c.pks.length := by
  have := congrArg (List.drop c.pks.length) (fields_flatCell c hn s h)
  rw [← this]
  simp [TabClass.fields]

theorem keyFrom_of_cells (pks : List String) (cell : String → Cell) (k : KeyArg) (hk : KeyShape pks.length k)
    (h : pks.map cell = keyCells k) : keyFrom pks cell = k := by
  unfold keyFrom
  cases k with
  | one v =>
    have : pks.length = 1 := hk
    obtain ⟨p, rfl⟩ := List.length_eq_one_iff.mp this
    simp [keyCells] at h
    simp [h]
  | tup vs =>
    split
    · rename_i p
      exact absurd rfl hk.2
    · simp only [KeyArg.tup.injEq]; exact h

theorem idxOf_map_name (l : List String) (f : String) : (l.map Label.name).idxOf (Label.name f) = l.idxOf f := by
  induction l with
  | nil => rfl
  | cons a l ih =>
    rw [List.map_cons, List.idxOf_cons, List.idxOf_cons, ih]
    have : (Label.name a == Label.name f) = (a == f) := by
      rw [Bool.eq_iff_iff, beq_iff_eq, beq_iff_eq, Label.name.injEq]
    rw [this]

theorem rowsTable_congr {R S : Type} (c : TabClass) (rows : List S) (mk : S → R) (cell : R → String → Cell) (cell' : S → String → Cell)
    (h : ∀ s ∈ rows, ∀ f ∈ c.fields, cell (mk s) f = cell' s f) :
    rowsTable c (rows.map mk) cell = rowsTable c rows cell' := by
  have hk : ∀ s ∈ rows, keyFrom c.pks (cell (mk s)) = keyFrom c.pks (cell' s) := by
    intro s hs
    have := fun f hf => h s hs f (List.mem_append_left c.dfs hf)
    unfold keyFrom
    generalize c.pks = pks at this
    match pks, this with
    | [], _ => rfl
    | [p], this => simp [this p]
    | p :: q :: ps, this => simp only [KeyArg.tup.injEq]; exact List.map_congr_left this
  have hd : ∀ s ∈ rows, dataFrom c.dfs (cell (mk s)) = dataFrom c.dfs (cell' s) := by
    intro s hs
    unfold dataFrom
    apply List.map_congr_left
    intro f hf
    rw [h s hs f (List.mem_append_right c.pks hf)]
  unfold rowsTable
  split
  · rw [List.map_map]
    congr 1
    exact List.map_congr_left hd
  · rw [List.map_map]
    congr 2
    apply List.map_congr_left
    intro s hs
    simp only [Function.comp_apply, hk s hs, hd s hs]

/-- The rows of the table that flat rows with distinct keys make are these rows. -/
theorem tabRows_rowsTable (c : TabClass) (hn : c.fields.Nodup) (rows : List (List Cell))
    (hl : ∀ s ∈ rows, s.length = c.fields.length)
    (hk : c.pks ≠ [] → (rows.map (fun s => keyFrom c.pks (flatCell c s))).Nodup) :
    tabRows (rowsTable c rows (flatCell c)) = rows := by
  unfold rowsTable
  split
  · rename_i hp
    unfold tabRows
    simp only
    rw [List.map_map]
    apply map_self_of
    intro s hs
    have := fields_flatCell c hn s (hl s hs)
    have hf : c.fields = c.dfs := by simp [TabClass.fields, hp]
    rw [hf] at this
    simp [dataFrom, Function.comp_def, this]
  · rename_i hp
    rw [PyDict.ofList_of_nodup _ (by unfold PyDict.keys; rw [List.map_map]; exact hk hp)]
    unfold tabRows
    simp only
    rw [List.map_map]
    apply map_self_of
    intro s hs
    have := fields_flatCell c hn s (hl s hs)
    rw [TabClass.fields, List.map_append] at this
    simp [keyCells_keyFrom, dataFrom, Function.comp_def, this]

theorem names_nodup {l : List String} (h : l.Nodup) : (l.map Label.name).Nodup :=
  List.Pairwise.map _ (fun _ _ hab e => hab (Label.name.inj e)) h

/-- The three frames of a table with primary key, read back. -/
theorem initFrame_keyedFrame (c : TabClass) (hn : c.fields.Nodup) (hd : (PyDict.keys c.defaults).Nodup)
    (hname : "name" ∉ c.dfs ∧ ("name" ∈ c.pks → c.pks.length = 1)) (drop : Option Bool) (reset : Bool)
    (hdef : KeyInIndexOnly c drop reset → ∀ f ∈ c.pks, f ∉ PyDict.keys c.defaults) (rows : List (List Cell))
    (hl : ∀ s ∈ rows, s.length = c.fields.length) :
    FrameOK (keyedFrame c drop reset rows) ∧
      initFrame c (keyedFrame c drop reset rows) = some (rowsTable c rows (flatCell c)) := by
  have hpn : c.pks.Nodup := (List.nodup_append.mp hn).1
  have hdn : c.dfs.Nodup := (List.nodup_append.mp hn).2.1
  have hdis : ∀ f ∈ c.dfs, f ∉ c.pks := fun f hf hp => (List.nodup_append.mp hn).2.2 f hp f hf rfl
  -- a frame that has all fields as columns
  have hfull : ∀ v : Frame, FrameOK v → v.cols = c.fields.map .name → ∀ mk : List Cell → List Cell × List Cell,
      v.rows = rows.map mk → (∀ s, (mk s).2 = s) → initFrame c v = some (rowsTable c rows (flatCell c)) := by
    intro v hv hcols mk hrows hmk
    have hmem : ∀ f ∈ c.fields, Label.name f ∈ v.cols := fun f hf => by rw [hcols]; exact List.mem_map.mpr ⟨f, hf, rfl⟩
    rw [initFrame_fits c hn hd v hv ⟨hname.1, hname.2, fun f hf => .inl (hmem f (List.mem_append_right _ hf)),
      .inl (fun f hf => .inl (hmem f (List.mem_append_left _ hf)))⟩, hrows]
    congr 1
    apply rowsTable_congr
    intro s hs f hf
    unfold frameCell
    rw [if_pos (hmem f hf)]
    unfold colCell flatCell
    rw [hcols, idxOf_map_name, hmk]
  unfold keyedFrame
  split
  · have hok : FrameOK ⟨[], c.fields.map .name, rows.map (fun r => ([], r))⟩ := by
      refine ⟨names_nodup hn, List.nodup_nil, fun r hr => ?_⟩
      obtain ⟨s, hs, rfl⟩ := List.mem_map.mp hr
      simp [hl s hs]
    exact ⟨hok, hfull _ hok rfl _ rfl (fun _ => rfl)⟩
  · rename_i hreset
    split
    · rename_i hdrop
      have hidx : KeyInIndexOnly c drop reset := by
        refine ⟨by simpa using hreset, ?_⟩
        cases drop with
        | none => right; simpa using hdrop
        | some b => left; simpa using hdrop
      have hnd := hdef hidx
      have hok : FrameOK ⟨c.pks, c.dfs.map .name, rows.map (fun r => (r.take c.pks.length, r.drop c.pks.length))⟩ := by
        refine ⟨names_nodup hdn, hpn, fun r hr => ?_⟩
        obtain ⟨s, hs, rfl⟩ := List.mem_map.mp hr
        have := hl s hs
        simp [TabClass.fields] at this
        simp [this]
      refine ⟨hok, ?_⟩
      rw [initFrame_fits c hn hd _ hok]
      · congr 1
        apply rowsTable_congr
        intro s hs f hf
        have hls := hl s hs
        simp only [TabClass.fields, List.length_append] at hls
        by_cases hp : f ∈ c.pks
        · rw [not_provided_cell]
          · unfold indexCell flatCell
            simp only
            have hlt : c.pks.idxOf f < c.pks.length := List.idxOf_lt_length_of_mem hp
            rw [TabClass.fields, List.idxOf_append, if_pos hp, List.getElem?_take, if_pos hlt]
          · rintro (h | h)
            · obtain ⟨g, hg, e⟩ := List.mem_map.mp h
              cases e
              exact hdis f hg hp
            · exact hnd f hp h
        · have hdf : f ∈ c.dfs := (List.mem_append.mp hf).resolve_left hp
          unfold frameCell
          rw [if_pos (List.mem_map.mpr ⟨f, hdf, rfl⟩)]
          unfold colCell flatCell
          simp only
          rw [idxOf_map_name, TabClass.fields, List.idxOf_append, if_neg hp, List.getElem?_drop, Nat.add_comm]
      · refine ⟨hname.1, hname.2, fun f hf => .inl (List.mem_map.mpr ⟨f, hf, rfl⟩), .inr ⟨rfl, fun f hf h => ?_⟩⟩
        rcases h with h | h
        · obtain ⟨g, hg, e⟩ := List.mem_map.mp h
          cases e
          exact hdis f hg hf
        · exact hnd f hf h
    · have hok : FrameOK ⟨c.pks, c.fields.map .name, rows.map (fun r => (r.take c.pks.length, r))⟩ := by
        refine ⟨names_nodup hn, hpn, fun r hr => ?_⟩
        obtain ⟨s, hs, rfl⟩ := List.mem_map.mp hr
        have := hl s hs
        simp only [TabClass.fields, List.length_append] at this
        simp [TabClass.fields, this]
      exact ⟨hok, hfull _ hok rfl _ rfl (fun _ => rfl)⟩

theorem pairwise2_get {A B : Type} {R : A → B → Prop} {l : List A} {l' : List B} (h : Pairwise2 R l l') {i : Nat} {a : A} {b : B}
    (ha : l[i]? = some a) (hb : l'[i]? = some b) : R a b := by
  induction h generalizing i with
  | nil => cases ha
  | cons hr _ ih =>
    cases i with
    | zero => cases ha; cases hb; exact hr
    | succ i => exact ih ha hb

/-- **C52.**  Turning a table into a DataFrame, with any arguments, and building a table from it again gives the same rows
in the same order, except that `None` may have become NaN.  Required: no null in keys; no field called "name" beside other
key fields or as data field; and if the key is kept in the index only, no default values for key fields. -/
theorem to_pandas_round_trip (env : PandasEnv) (henv : KeepsRows env) (c : TabClass) (hn : c.fields.Nodup)
    (hd : (PyDict.keys c.defaults).Nodup) (hname : "name" ∉ c.dfs ∧ ("name" ∈ c.pks → c.pks.length = 1))
    (drop : Option Bool) (reset : Bool) (hdef : KeyInIndexOnly c drop reset → ∀ f ∈ c.pks, f ∉ PyDict.keys c.defaults)
    (tab : TabVal) (hw : WellShaped c tab) (hnull : ∀ f ∈ c.pks, ¬ HasCell c tab f .none) :
    ∃ v tab', copyToPandas env c drop reset tab = some v ∧ FrameOK v ∧ initFrame c v = some tab' ∧ WellShaped c tab' ∧
      TabRel c (fun f x y => Stored x y ∧ (f ∈ c.pks → x = y)) tab tab' := by
  have hdn : c.dfs.Nodup := (List.nodup_append.mp hn).2.1
  -- the stored rows
  have hst := henv (tabRows tab)
  generalize hS : env.store (tabRows tab) = S at hst
  have hlen : ∀ s ∈ S, s.length = c.fields.length := by
    intro s hs
    obtain ⟨r, hr, hrs⟩ := pairwise2_right hst hs
    rw [pairwise2_length hrs]
    exact tabRows_length c tab hw r hr
  have hrel : Pairwise2 (RowRel c.fields (fun f x y => Stored x y ∧ (f ∈ c.pks → x = y))) (tabRows tab) S := by
    apply pairwise2_strengthen hst
    intro r hr s hrs
    have hlr := tabRows_length c tab hw r hr
    refine ⟨hlr, by rw [pairwise2_length hrs, hlr], fun i f x y hf hx hy => ?_⟩
    have hxy := pairwise2_get hrs hx hy
    refine ⟨hxy, fun hp => ?_⟩
    rcases hxy with h | ⟨h, _⟩
    · exact h
    · exfalso
      refine hnull f hp ?_
      rw [h] at hx
      exact tabRows_cell c hn tab hw r hr (f, .none) (List.mem_iff_getElem?.mpr ⟨i, by rw [List.getElem?_zip_eq_some]; exact ⟨hf, hx⟩⟩)
  have hkeys : ∀ d, tab = .keyed d → S.map (fun s => keyFrom c.pks (flatCell c s)) = PyDict.keys d := by
    rintro d rfl
    have h2 : Pairwise2 (RowRel c.fields (fun f x y => Stored x y ∧ (f ∈ c.pks → x = y)))
        (d.map (fun p => keyCells p.1 ++ p.2.map Prod.snd)) S := hrel
    apply List.ext_getElem?
    intro i
    unfold PyDict.keys
    rw [List.getElem?_map, List.getElem?_map]
    have hl2 := pairwise2_length h2
    rw [List.length_map] at hl2
    by_cases hi : i < d.length
    · have his : i < S.length := by omega
      rw [List.getElem?_eq_getElem hi, List.getElem?_eq_getElem his]
      simp only [Option.map_some, Option.some.injEq]
      obtain ⟨hks, _⟩ := hw.2.2 d[i] (List.getElem_mem hi)
      apply keyFrom_of_cells _ _ _ hks
      rw [pks_flatCell c hn _ (hlen _ (List.getElem_mem his))]
      have hrow := pairwise2_get h2 (i := i) (a := keyCells d[i].1 ++ d[i].2.map Prod.snd) (b := S[i])
        (by rw [List.getElem?_map, List.getElem?_eq_getElem hi]; rfl) (List.getElem?_eq_getElem his)
      obtain ⟨hl1, hl3, hc⟩ := hrow
      have hkl := keyCells_length _ _ hks
      apply List.ext_getElem
      · rw [List.length_take, hkl, hl3]
        simp only [TabClass.fields, List.length_append]
        omega
      · intro j h1 h3
        rw [List.getElem_take]
        have hjp : j < c.pks.length := by omega
        have hjf : j < c.fields.length := by simp only [TabClass.fields, List.length_append]; omega
        have hfj : c.fields[j]? = some c.pks[j] := by
          rw [TabClass.fields, List.getElem?_append_left hjp, List.getElem?_eq_getElem hjp]
        have := (hc j c.pks[j] (keyCells d[i].1)[j] (S[i])[j] hfj
          (by rw [List.getElem?_append_left h3, List.getElem?_eq_getElem h3])
          (List.getElem?_eq_getElem (by omega))).2 (List.getElem_mem hjp)
        exact this.symm
    · have his : ¬ i < S.length := by omega
      rw [List.getElem?_eq_none (by omega), List.getElem?_eq_none (by omega)]
      rfl
  have hnd : c.pks ≠ [] → (S.map (fun s => keyFrom c.pks (flatCell c s))).Nodup := by
    intro hp
    cases tab with
    | keyed d => rw [hkeys d rfl]; exact hw.2.1
    | plain rows => exact absurd hw.1 hp
  have htab : TabRel c (fun f x y => Stored x y ∧ (f ∈ c.pks → x = y)) tab (rowsTable c S (flatCell c)) := by
    unfold TabRel
    rw [tabRows_rowsTable c hn S hlen hnd]
    exact hrel
  have hshape : WellShaped c (rowsTable c S (flatCell c)) := by
    unfold rowsTable
    split
    · rename_i hp
      refine ⟨hp, fun r hr => ?_⟩
      obtain ⟨s, _, rfl⟩ := List.mem_map.mp hr
      exact dataFrom_keys _ _
    · rename_i hp
      rw [PyDict.ofList_of_nodup _ (by unfold PyDict.keys; rw [List.map_map]; exact hnd hp)]
      refine ⟨hp, by unfold PyDict.keys; rw [List.map_map]; exact hnd hp, fun p hp' => ?_⟩
      obtain ⟨s, _, rfl⟩ := List.mem_map.mp hp'
      refine ⟨?_, dataFrom_keys _ _⟩
      unfold keyFrom
      split
      · rename_i q hq
        show c.pks.length = 1
        rw [hq]; rfl
      · rename_i hne
        refine ⟨by simp, fun e => ?_⟩
        obtain ⟨q, hq⟩ := List.length_eq_one_iff.mp e
        exact hne q hq
  unfold copyToPandas
  split
  · rename_i hz
    have hempty : tabRows tab = [] := by
      cases tab with
      | keyed d => simp only [TabVal.size] at hz; simp [tabRows, List.length_eq_zero_iff.mp hz]
      | plain rows => simp only [TabVal.size] at hz; simp [tabRows, List.length_eq_zero_iff.mp hz]
    have hSnil : S = [] := by
      rw [hempty] at hst
      cases hst
      rfl
    obtain ⟨h1, h2⟩ := initFrame_keyedFrame c hn hd hname none true (fun h => absurd h.1 (by simp)) S hlen
    refine ⟨_, _, rfl, ?_, ?_, hshape, htab⟩
    · rw [hSnil] at h1; exact h1
    · rw [hSnil] at h2 ⊢; exact h2
  · rw [flatRows_eq c hdn tab hw, Option.map_some]
    cases tab with
    | keyed d =>
      simp only [hS]
      obtain ⟨h1, h2⟩ := initFrame_keyedFrame c hn hd hname drop reset hdef S hlen
      exact ⟨_, _, rfl, h1, h2, hshape, htab⟩
    | plain rows =>
      simp only [hS]
      obtain ⟨h1, h2⟩ := initFrame_keyedFrame c hn hd hname none true (fun h => absurd h.1 (by simp)) S hlen
      have hf : c.fields = c.dfs := by simp [TabClass.fields, hw.1]
      refine ⟨_, _, rfl, ?_, ?_, hshape, htab⟩
      · unfold keyedFrame at h1; rw [if_pos rfl, hf] at h1; exact h1
      · unfold keyedFrame at h2; rw [if_pos rfl, hf] at h2; exact h2

theorem tabRows_inj (c : TabClass) (a b : TabVal) (ha : WellShaped c a) (hb : WellShaped c b) (h : tabRows a = tabRows b) : a = b := by
  have hz : ∀ (r r' : RowVal), PyDict.keys r = c.dfs → PyDict.keys r' = c.dfs → r.map Prod.snd = r'.map Prod.snd → r = r' := by
    intro r r' h1 h2 h3
    rw [← zip_keys_values r, ← zip_keys_values r', h3]
    unfold PyDict.keys at h1 h2
    rw [h1, h2]
  cases a with
  | keyed d =>
    cases b with
    | plain rows => exact absurd hb.1 ha.1
    | keyed d' =>
      congr 1
      have h : d.map flatOf = d'.map flatOf := h
      have hl : d.length = d'.length := by simpa using congrArg List.length h
      apply List.ext_getElem hl
      intro i h1 h2
      have he : flatOf d[i] = flatOf d'[i] := by
        have := congrArg (fun l => l[i]?) h
        simpa [List.getElem?_map, List.getElem?_eq_getElem h1, List.getElem?_eq_getElem h2] using this
      obtain ⟨hk, hr⟩ := ha.2.2 d[i] (List.getElem_mem h1)
      obtain ⟨hk', hr'⟩ := hb.2.2 d'[i] (List.getElem_mem h2)
      have e1 : d[i].1 = d'[i].1 := by
        have := congrArg (fun l => splitKey c.pks.length (.seq l)) he
        simp only [flatOf] at this
        rwa [splitKey_flat _ _ _ hk, splitKey_flat _ _ _ hk'] at this
      have e2 : d[i].2.map Prod.snd = d'[i].2.map Prod.snd := by
        have := congrArg (List.drop c.pks.length) he
        simp only [flatOf] at this
        rwa [List.drop_left' (keyCells_length _ _ hk), List.drop_left' (keyCells_length _ _ hk')] at this
      exact Prod.ext e1 (hz _ _ hr hr' e2)
  | plain rows =>
    cases b with
    | keyed d => exact absurd ha.1 hb.1
    | plain rows' =>
      congr 1
      have h : rows.map (fun row => row.map Prod.snd) = rows'.map (fun row => row.map Prod.snd) := h
      have hl : rows.length = rows'.length := by simpa using congrArg List.length h
      apply List.ext_getElem hl
      intro i h1 h2
      have he := congrArg (fun l => l[i]?) h
      simp only [List.getElem?_map, List.getElem?_eq_getElem h1, List.getElem?_eq_getElem h2, Option.map_some,
        Option.some.injEq] at he
      exact hz _ _ (ha.2 _ (List.getElem_mem h1)) (hb.2 _ (List.getElem_mem h2)) he

/-- **C52, without nulls.**  A table without `None` comes back exactly as it was. -/
theorem to_pandas_exact (env : PandasEnv) (henv : KeepsRows env) (c : TabClass) (hn : c.fields.Nodup)
    (hd : (PyDict.keys c.defaults).Nodup) (hname : "name" ∉ c.dfs ∧ ("name" ∈ c.pks → c.pks.length = 1))
    (drop : Option Bool) (reset : Bool) (hdef : KeyInIndexOnly c drop reset → ∀ f ∈ c.pks, f ∉ PyDict.keys c.defaults)
    (tab : TabVal) (hw : WellShaped c tab) (hnull : ∀ f, ¬ HasCell c tab f .none) :
    (copyToPandas env c drop reset tab).bind (initFrame c) = some tab := by
  obtain ⟨v, tab', h1, _, h2, hw', hrel⟩ := to_pandas_round_trip env henv c hn hd hname drop reset hdef tab hw (fun f _ => hnull f)
  rw [h1, Option.bind_some, h2]
  congr 1
  apply tabRows_inj c tab' tab hw' hw
  have hrel : Pairwise2 (RowRel c.fields _) (tabRows tab) (tabRows tab') := hrel
  have : Pairwise2 (fun a b => b = a) (tabRows tab) (tabRows tab') := by
    apply pairwise2_strengthen hrel
    rintro r hr s ⟨hl1, hl2, hc⟩
    apply List.ext_getElem (by omega)
    intro i h3 h4
    have hif : i < c.fields.length := by omega
    obtain ⟨hs, _⟩ := hc i c.fields[i] r[i] s[i] (List.getElem?_eq_getElem hif) (List.getElem?_eq_getElem h4)
      (List.getElem?_eq_getElem h3)
    rcases hs with h | ⟨h, _⟩
    · exact h.symm
    · exfalso
      refine hnull c.fields[i] ?_
      refine tabRows_cell c hn tab hw r hr (c.fields[i], .none) (List.mem_iff_getElem?.mpr ⟨i, ?_⟩)
      rw [List.getElem?_zip_eq_some]
      exact ⟨List.getElem?_eq_getElem hif, by rw [List.getElem?_eq_getElem h4, h]⟩
  generalize tabRows tab = l at this
  generalize tabRows tab' = l' at this
  induction this with
  | nil => rfl
  | cons h _ ih => rw [h, ih]

/-! ### Examples and findings -/

/-- pandas on columns of one kind: nothing changes. -/
def plainPandas : PandasEnv := ⟨id⟩

theorem plainPandas_keeps : KeepsRows plainPandas := by
  intro rows
  have h1 : ∀ l : List Cell, Pairwise2 Stored l l := by
    intro l
    induction l with
    | nil => exact .nil
    | cons a l ih => exact .cons (.inl rfl) ih
  show Pairwise2 _ rows rows
  induction rows with
  | nil => exact .nil
  | cons r rows ih => exact .cons (h1 r) ih

/-- A table of costs between two places. -/
def costTab : TabVal := .keyed [(.tup [.str "a", .str "b"], [("cost", .num (.fin 3))]), (.tup [.str "a", .str "c"], [("cost", .str "n/a")])]

def costClass : TabClass := ⟨["from", "to"], ["cost"], [("cost", .num (.fin 0))]⟩

example : (copyToPandas plainPandas costClass none false costTab).bind (initFrame costClass) = some costTab :=
  to_pandas_exact plainPandas plainPandas_keeps costClass (by decide) (by decide) (by decide) none false (fun _ => by decide) costTab
    (by refine ⟨by decide, by decide, ?_⟩
        intro p hp
        simp only [List.mem_cons, List.not_mem_nil, or_false] at hp
        rcases hp with rfl | rfl
        · exact ⟨⟨rfl, by decide⟩, by decide⟩
        · exact ⟨⟨rfl, by decide⟩, by decide⟩)
    (by rintro f ⟨p, hp, h⟩
        simp only [List.mem_cons, List.not_mem_nil, or_false] at hp
        rcases hp with rfl | rfl
        · rcases h with ⟨i, _, h⟩ | h
          · match i, h with
            | 0, h => cases h
            | 1, h => cases h
            | n + 2, h => simp [keyCells] at h
          · simp only [PyDict.get?] at h
            split at h <;> cases h
        · rcases h with ⟨i, _, h⟩ | h
          · match i, h with
            | 0, h => cases h
            | 1, h => cases h
            | n + 2, h => simp [keyCells] at h
          · simp only [PyDict.get?] at h
            split at h <;> cases h)

example : copyToPandas plainPandas costClass none false costTab = some ⟨["from", "to"], [.name "cost"],
    [([.str "a", .str "b"], [.num (.fin 3)]), ([.str "a", .str "c"], [.str "n/a"])]⟩ := by decide +kernel

/-- Finding: with a default value for the key field, a DataFrame that has the key in its index gets the default as key for
every row (ticdatfactory.py:787-792, 804): the copy cannot be turned back, or rows are lost. -/
theorem default_hides_index :
    let c : TabClass := ⟨["k"], ["q"], [("q", .num (.fin 0)), ("k", .str "none")]⟩
    let tab : TabVal := .keyed [(.one (.str "a"), [("q", .num (.fin 1))]), (.one (.str "b"), [("q", .num (.fin 2))])]
    (copyToPandas plainPandas c none false tab).bind (initFrame c) =
        some (.keyed [(.one (.str "none"), [("q", .num (.fin 2))])]) ∧
      (copyToPandas plainPandas c none false tab).bind (fun v => initFrames .assert [("t", c)] [("t", v)]) = none := by
  constructor <;> rfl

/-- Finding: a table with a data field called "name" can be turned into a DataFrame but not back. -/
theorem name_field_no_way_back :
    let c : TabClass := ⟨["k"], ["name"], [("name", .num (.fin 0))]⟩
    let tab : TabVal := .keyed [(.one (.str "a"), [("name", .str "x")])]
    (copyToPandas plainPandas c none true tab).isSome = true ∧
      (copyToPandas plainPandas c none true tab).bind (initFrame c) = none := by
  constructor <;> rfl

/-- Finding: for a generic table the copy has the name of the table instead of a DataFrame (ticdatfactory.py:1651-1652),
whatever the table contains. -/
theorem generic_copy_is_name (env : PandasEnv) (drop : Option Bool) (reset : Bool) (t : String) :
    copyToPandasAttr env drop reset t none = some (.text t) := rfl

/-- `None` in a key becomes NaN: here pandas turns a column of numbers and `None` into numbers and NaN. -/
theorem null_key_changes :
    let env : PandasEnv := ⟨fun rows => rows.map (fun r => r.map (fun x => if x = .none then .nan else x))⟩
    let c : TabClass := ⟨["k"], ["q"], [("q", .num (.fin 0))]⟩
    let tab : TabVal := .keyed [(.one .none, [("q", .num (.fin 1))])]
    (copyToPandas env c none true tab).bind (initFrame c) = some (.keyed [(.one .nan, [("q", .num (.fin 1))])]) := by
  rfl

end Ticdat

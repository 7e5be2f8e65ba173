import Verif.Props.Independent
import Verif.Props.Init
/-!
# C31: a copy holds the same data, and shares nothing with the original
-/
set_option linter.unusedSimpArgs false
namespace Ticdat
open Spec

/-- The table values a copy is built from. -/
def copiedVal (c : TabClass) (w : World) : TabObj → TabVal
  | .dict _ rows _ => .keyed (rows.map (fun p => (p.1, filledRow c (fieldsAt w p.2))))
  | .list _ rows => .plain (rows.map (fun a => filledRow c (fieldsAt w a)))
  | .tuple rows => .plain (rows.map (fun a => filledRow c (fieldsAt w a)))

/-- What a client sees of a table value. -/
def valView : TabVal → TabView
  | .keyed d => d.map (fun p => (some p.1, some p.2))
  | .plain rows => rows.map (fun r => (none, some r))

theorem map_self_of {A : Type} {f : A → A} {l : List A} (h : ∀ a ∈ l, f a = a) : l.map f = l := by
  rw [List.map_congr_left h, List.map_id']

theorem filledRow_keys (c : TabClass) (d : RowVal) : PyDict.keys (filledRow c d) = c.dfs := by
  simp [filledRow, PyDict.keys, Function.comp_def]

/-- A row that has exactly the data fields is not changed by filling in. -/
theorem filledRow_full (c : TabClass) (r : RowVal) (hn : c.dfs.Nodup) (h : PyDict.keys r = c.dfs) : filledRow c r = r := by
  unfold filledRow
  have hk : (PyDict.keys r).Nodup := h ▸ hn
  rw [← h]
  unfold PyDict.keys at hk ⊢
  rw [List.map_map]
  apply map_self_of
  intro p hp
  have : PyDict.get? r p.1 = some p.2 := (PyDict.get?_iff_mem hk).2 hp
  simp [Function.comp_def, this]

theorem viewRow_fieldsAt {w : World} {a : Nat} (h : a < w.rows.length) : viewRow w a = some (fieldsAt w a) := by
  unfold viewRow fieldsAt
  rw [List.getElem?_eq_getElem h]
  rfl

/-- Copied rows fit their class. -/
theorem fits_row {c : TabClass} {w : World} (hn : c.dfs.Nodup) {a : Nat} (ha : a < w.rows.length)
    (h : ∀ r, viewRow w a = some r → (PyDict.keys r).Nodup ∧ ∀ f ∈ PyDict.keys r, f ∈ c.dfs) :
    initRow c (.dict (fieldsAt w a)) = some (filledRow c (fieldsAt w a)) ∧ goodRow c.dfs (.dict (fieldsAt w a)) = true := by
  have h1 := h _ (viewRow_fieldsAt ha)
  have hi : initRow c (.dict (fieldsAt w a)) = some (filledRow c (fieldsAt w a)) :=
    (initRow_iff c hn (.dict (fieldsAt w a)) h1.1 _).2 ⟨h1.2, rfl⟩
  exact ⟨hi, (goodRow_iff c _).2 ⟨_, hi⟩⟩

theorem keyVerify_of_len {k : KeyArg} {n : Nat} (h : keyLen k = n) (hn : n ≠ 0) : keyVerify n k = true := by
  cases k with
  | one v => simp only [keyLen] at h; simp [keyVerify, h.symm]
  | tup vs =>
    simp only [keyLen] at h
    simp only [keyVerify, Bool.or_eq_true, decide_eq_true_eq]
    by_cases h1 : n = 1
    · exact .inr h1
    · exact .inl ⟨h, by omega⟩

theorem fits_table {c : TabClass} {w : World} (hn : c.dfs.Nodup) {tab : TabObj} (hr : ∀ b ∈ tab.addrs, b < w.rows.length)
    (h : Fits c w tab) :
    initTable c (tableIn w tab) = some (copiedVal c w tab) ∧ goodTable c (tableIn w tab) = true ∧
      (tableIn w tab).size = (copiedVal c w tab).size := by
  have plain : ∀ rows : List Nat, (∀ b ∈ rows, b < w.rows.length) → c.pks = [] →
      (∀ a ∈ rows, ∀ r, viewRow w a = some r → (PyDict.keys r).Nodup ∧ ∀ f ∈ PyDict.keys r, f ∈ c.dfs) →
      initTable c (.seq (rows.map (fun a => .dict (fieldsAt w a)))) = some (.plain (rows.map (fun a => filledRow c (fieldsAt w a)))) ∧
      goodTable c (.seq (rows.map (fun a => .dict (fieldsAt w a)))) = true := by
    intro rows hr hp hv
    have hg : goodTableForInit c (.seq (rows.map (fun a => .dict (fieldsAt w a)))) = true := by
      unfold goodTableForInit
      rw [if_neg (by simp [hp])]
      simp only [List.all_map, List.all_eq_true, Function.comp_def]
      intro a ha
      exact (fits_row hn (hr a ha) (hv a ha)).2
    refine ⟨?_, ?_⟩
    · unfold initTable
      rw [if_pos hg, if_neg (by simp [hp])]
      simp only [List.mapM_map, Function.comp_def]
      rw [mapM_eq_map (k := fun a => filledRow c (fieldsAt w a)) (fun a ha => (fits_row hn (hr a ha) (hv a ha)).1)]
      rfl
    · unfold goodTable
      rw [if_neg (by simp [hp])]
      exact hg
  cases tab with
  | dict cls rows fr =>
    obtain ⟨⟨hp, hk, hl⟩, hv⟩ := h
    have hv' : ∀ p ∈ rows, initRow c (.dict (fieldsAt w p.2)) = some (filledRow c (fieldsAt w p.2)) ∧ goodRow c.dfs (.dict (fieldsAt w p.2)) = true := by
      intro p hp
      have hm : p.2 ∈ (TabObj.dict cls rows fr).addrs := List.mem_map.2 ⟨p, hp, rfl⟩
      exact fits_row hn (hr _ hm) (hv _ hm)
    have hkeys : PyDict.keys (rows.map (fun p => (p.1, RowIn.dict (fieldsAt w p.2)))) = PyDict.keys rows := by
      simp [PyDict.keys, Function.comp_def]
    have hg : goodTableForInit c (tableIn w (.dict cls rows fr)) = true := by
      unfold goodTableForInit
      rw [if_pos hp]
      simp only [tableIn, hkeys]
      rw [Bool.or_eq_true, Bool.and_eq_true]
      refine .inr ⟨?_, ?_⟩
      · rw [List.all_eq_true]
        intro k hk'
        exact decide_eq_true (hl k hk')
      · simp only [List.all_map, List.all_eq_true, Function.comp_def]
        exact fun p hp => (hv' p hp).2
    refine ⟨?_, ?_, ?_⟩
    · unfold initTable
      rw [if_pos hg, if_pos hp]
      simp only [tableIn, hkeys]
      rw [if_pos]
      · rw [List.mapM_map]
        rw [mapM_eq_map (k := fun p => (p.1, filledRow c (fieldsAt w p.2)))]
        · simp only [Option.map_some, copiedVal]
          rw [PyDict.ofList_of_nodup]
          simpa [PyDict.keys, Function.comp_def] using hk
        · intro p hp
          simp [Function.comp_def, (hv' p hp).1]
      · rw [List.all_eq_true]
        intro k hk'
        exact keyVerify_of_len (hl k hk') (fun e => hp (List.length_eq_zero_iff.1 e))
    · unfold goodTable
      rw [if_pos hp]
      exact hg
    · simp [tableIn, TableIn.size, copiedVal, TabVal.size]
  | list cls rows =>
    have := plain rows hr h.1 h.2
    exact ⟨this.1, this.2, by simp [tableIn, TableIn.size, copiedVal, TabVal.size]⟩
  | tuple rows =>
    have := plain rows hr h.1 h.2
    exact ⟨this.1, this.2, by simp [tableIn, TableIn.size, copiedVal, TabVal.size]⟩

theorem copiedVal_view (c : TabClass) (w : World) (tab : TabObj) (hr : ∀ b ∈ tab.addrs, b < w.rows.length) :
    valView (copiedVal c w tab) = filledView c (viewTab w tab) := by
  cases tab with
  | dict cls rows fr =>
    simp only [copiedVal, valView, viewTab, filledView, List.map_map]
    apply List.map_congr_left
    intro p hp
    simp only [Function.comp_def]
    rw [viewRow_fieldsAt (hr _ (List.mem_map.2 ⟨p, hp, rfl⟩))]
    rfl
  | list cls rows =>
    simp only [copiedVal, valView, viewTab, filledView, List.map_map]
    apply List.map_congr_left
    intro a ha
    simp only [Function.comp_def]
    rw [viewRow_fieldsAt (hr a ha)]
    rfl
  | tuple rows =>
    simp only [copiedVal, valView, viewTab, filledView, List.map_map]
    apply List.map_congr_left
    intro a ha
    simp only [Function.comp_def]
    rw [viewRow_fieldsAt (hr a ha)]
    rfl

theorem copiedVal_rows (c : TabClass) (w : World) (tab : TabObj) : ∀ r ∈ (copiedVal c w tab).rows, PyDict.keys r = c.dfs := by
  intro r hr
  cases tab <;>
    (simp only [copiedVal, TabVal.rows, List.map_map, List.mem_map, Function.comp_def] at hr
     obtain ⟨a, _, rfl⟩ := hr
     exact filledRow_keys _ _)

/-! ### Allocation -/

theorem ofVal_fields (c : TabClass) (r : RowVal) (h : PyDict.keys r = c.dfs) : (RowObj.ofVal c r).fields = r := by
  unfold RowObj.ofVal
  split
  · rfl
  · simp only [RowObj.fields]
    rw [← h]
    unfold PyDict.keys
    rw [List.zip_map', ]
    exact map_self_of (fun _ _ => rfl)

theorem range'_view {α : Type} (f : Nat → α) (l : List α) (n : Nat) (h : ∀ i, (hi : i < l.length) → f (n + i) = l[i]) :
    (List.range' n l.length).map f = l := by
  apply List.ext_getElem
  · simp
  · intro i h1 h2
    simp only [List.getElem_map, List.getElem_range', Nat.one_mul]
    exact h i h2

theorem allocTab_view (w : World) (c : TabClass) (v : TabVal) (h : ∀ r ∈ v.rows, PyDict.keys r = c.dfs) :
    viewTab (allocTab w c v) (v.obj c w.rows.length) = valView v := by
  have hv : ∀ i, (hi : i < v.rows.length) → viewRow (allocTab w c v) (w.rows.length + i) = some v.rows[i] := by
    intro i hi
    unfold viewRow allocTab
    simp only
    rw [List.getElem?_append_right (by omega), Nat.add_sub_cancel_left, List.getElem?_map, List.getElem?_eq_getElem hi]
    simp only [Option.map_some, Option.some.injEq]
    exact ofVal_fields c _ (h _ (List.getElem_mem hi))
  cases v with
  | keyed d =>
    simp only [TabVal.obj, viewTab, valView]
    apply List.ext_getElem
    · simp
    · intro i h1 h2
      simp only [List.getElem_map, List.getElem_zip, List.getElem_range', Nat.one_mul]
      have hi : i < d.length := by simpa using h2
      have := hv i (by simpa [TabVal.rows] using hi)
      rw [this]
      simp [TabVal.rows]
  | plain rows =>
    simp only [TabVal.obj, viewTab, valView]
    apply List.ext_getElem
    · simp
    · intro i h1 h2
      simp only [List.getElem_map, List.getElem_range', Nat.one_mul]
      have hi : i < rows.length := by simpa using h2
      rw [hv i hi]
      simp [TabVal.rows]

theorem obj_addrs (c : TabClass) (n : Nat) (v : TabVal) : ∀ b ∈ (v.obj c n).addrs, n ≤ b ∧ b < n + v.rows.length := by
  intro b hb
  cases v with
  | keyed d =>
    simp only [TabVal.obj, TabObj.addrs] at hb
    rw [List.map_snd_zip (by simp)] at hb
    simp only [List.mem_range'_1] at hb
    simpa [TabVal.rows] using hb
  | plain rows =>
    simp only [TabVal.obj, TabObj.addrs, List.mem_range'_1] at hb
    exact hb

/-- The heap has grown at the end only. -/
def Extends (w w' : World) : Prop := ∃ R T, w'.rows = w.rows ++ R ∧ w'.tabs = w.tabs ++ T ∧ w'.dats = w.dats

theorem viewTabAt_extends {w w' : World} (h : Extends w w') (ok : HeapOK w) {a : Nat} (ha : a < w.tabs.length) :
    viewTabAt w' a = viewTabAt w a := by
  obtain ⟨R, T, h1, h2, _⟩ := h
  unfold viewTabAt
  rw [h2, List.getElem?_append_left ha]
  cases ht : w.tabs[a]? with
  | none => rfl
  | some tab =>
    simp only [Option.map_some, Option.some.injEq]
    have hv : ∀ b ∈ tab.addrs, viewRow w' b = viewRow w b := by
      intro b hb
      unfold viewRow
      rw [h1, List.getElem?_append_left (ok.rows a tab ht b hb)]
    cases tab with
    | dict cls rows fr =>
      simp only [viewTab]
      apply List.map_congr_left
      intro p hp
      rw [hv p.2 (by simp only [TabObj.addrs, List.mem_map]; exact ⟨p, hp, rfl⟩)]
    | list cls rows => exact List.map_congr_left (fun b hb => by rw [hv b hb])
    | tuple rows => exact List.map_congr_left (fun b hb => by rw [hv b hb])

/-- What the allocation of the tables establishes. -/
structure Allocated (w w' : World) (l : List (TabClass × (String × TabVal))) (attrs : PyDict String Nat) : Prop where
  ext : Extends w w'
  ok : HeapOK w'
  names : PyDict.keys attrs = l.map (fun e => e.2.1)
  fresh : ∀ p ∈ attrs, w.tabs.length ≤ p.2 ∧ p.2 < w'.tabs.length
  rows : ∀ (a : Nat) (tab : TabObj), w.tabs.length ≤ a → w'.tabs[a]? = some tab → ∀ b ∈ tab.addrs, w.rows.length ≤ b
  view : attrs.map (fun p => (p.1, viewTabAt w' p.2)) = l.map (fun e => (e.2.1, some (valView e.2.2)))

theorem allocTabs_allocated (l : List (TabClass × (String × TabVal))) : ∀ (w : World), HeapOK w →
    (∀ e ∈ l, ∀ r ∈ e.2.2.rows, PyDict.keys r = e.1.dfs) → Allocated w (allocTabs w l).1 l (allocTabs w l).2 := by
  induction l with
  | nil =>
    intro w ok _
    refine ⟨⟨[], [], by simp [allocTabs]⟩, ok, rfl, by simp [allocTabs], ?_, rfl⟩
    intro a tab ha ht
    have := lt_of_some ht
    simp only [allocTabs] at this
    omega
  | cons e l ih =>
    obtain ⟨c, t, v⟩ := e
    intro w ok hl
    have hv := hl (c, t, v) (by simp)
    have ok1 : HeapOK (allocTab w c v) := by
      constructor
      · intro i tab ht b hb
        simp only [allocTab, List.length_append, List.length_map] at ht ⊢
        by_cases hi : i < w.tabs.length
        · rw [List.getElem?_append_left hi] at ht
          have := ok.rows i tab ht b hb
          omega
        · have hl' := lt_of_some ht
          rw [List.length_append, List.length_singleton] at hl'
          have : i = w.tabs.length := by omega
          subst this
          rw [List.getElem?_concat_length] at ht
          cases ht
          exact (obj_addrs c _ v b hb).2
      · intro i o ho p hp
        have := ok.tabs i o ho p hp
        simp only [allocTab, List.length_append, List.length_singleton]
        omega
    have A := ih (allocTab w c v) ok1 (fun e he => hl e (by simp [he]))
    obtain ⟨R, T, e1, e2, e3⟩ := A.ext
    have hlen : (allocTab w c v).tabs.length = w.tabs.length + 1 := by simp [allocTab]
    have hlen2 : (allocTab w c v).tabs.length ≤ (allocTabs (allocTab w c v) l).1.tabs.length := by
      rw [e2, List.length_append]; omega
    refine ⟨?_, A.ok, ?_, ?_, ?_, ?_⟩
    · refine ⟨v.rows.map (RowObj.ofVal c) ++ R, [v.obj c w.rows.length] ++ T, ?_, ?_, ?_⟩
      · simp only [allocTabs]; rw [e1]; simp [allocTab]
      · simp only [allocTabs]; rw [e2]; simp [allocTab]
      · simp only [allocTabs]; rw [e3]; rfl
    · have := A.names
      simp only [allocTabs, PyDict.keys, List.map_cons] at this ⊢
      rw [this]
    · intro p hp
      simp only [allocTabs, List.mem_cons] at hp ⊢
      rcases hp with rfl | hp
      · exact ⟨Nat.le_refl _, by omega⟩
      · have := A.fresh p hp
        exact ⟨by omega, this.2⟩
    · intro a tab ha ht b hb
      simp only [allocTabs] at ht
      by_cases hi : (allocTab w c v).tabs.length ≤ a
      · have := A.rows a tab hi ht b hb
        have hh : w.rows.length ≤ (allocTab w c v).rows.length := by simp [allocTab]
        omega
      · have : a = w.tabs.length := by omega
        subst this
        rw [e2, List.getElem?_append_left (by omega)] at ht
        simp only [allocTab] at ht
        rw [List.getElem?_concat_length] at ht
        cases ht
        exact (obj_addrs c _ v b hb).1
    · simp only [allocTabs, List.map_cons]
      rw [A.view, viewTabAt_extends A.ext ok1 (by omega)]
      have : viewTabAt (allocTab w c v) w.tabs.length = some (valView v) := by
        unfold viewTabAt
        rw [← allocTab_view w c v hv]
        simp [allocTab]
      rw [this]

/-! ### Copying -/

/-- After a copy the new objects belong to the client with the copy, all others to the client with the original. -/
def Spec.copyOwner (w : World) : Owner where
  row a := decide (w.rows.length ≤ a)
  tab a := decide (w.tabs.length ≤ a)
  dat a := decide (w.dats.length ≤ a)

theorem get?_of_map {K V : Type} [DecidableEq K] {A : Type} (g : A → K × V) (l : List A) (hn : (l.map (fun a => (g a).1)).Nodup)
    {a : A} (ha : a ∈ l) : PyDict.get? (l.map g) (g a).1 = some (g a).2 := by
  refine (PyDict.get?_iff_mem ?_).2 ?_
  · simpa [PyDict.keys, Function.comp_def] using hn
  · exact List.mem_map.2 ⟨a, ha, rfl⟩

/-- Copying a data object whose tables fit the schema: everything about the result. -/
theorem copy_result (policy : DupPolicy) (schema : List (String × TabClass)) (hs : (schema.map Prod.fst).Nodup)
    (hn : ∀ tc ∈ schema, tc.2.dfs.Nodup) (w : World) (ok : HeapOK w) (d : Nat) (hf : EveryTable Fits schema w d) :
    ∃ w', copyDat policy schema w d = (w', false) ∧ HeapOK w' ∧ Separated (copyOwner w) w' ∧
      w'.dats.length = w.dats.length + 1 ∧
      (∀ d' < w.dats.length, ∀ ts, viewDat ts w' d' = viewDat ts w d') ∧
      ∀ tc ∈ schema, ∃ v, viewDat [tc.1] w d = some [some v] ∧
        viewDat [tc.1] w' w.dats.length = some [some (filledView tc.2 v)] := by
  obtain ⟨o, ho, hall⟩ := hf
  have hg : ∀ tc : String × TabClass, ∃ tab : TabObj, tc ∈ schema →
      (PyDict.get? o.tabs tc.1).bind (fun a => w.tabs[a]?) = some tab ∧ Fits tc.2 w tab ∧ ∀ b ∈ tab.addrs, b < w.rows.length := by
    intro tc
    by_cases h : tc ∈ schema
    · obtain ⟨a, tab, h1, h2, h3⟩ := hall tc h
      exact ⟨tab, fun _ => ⟨by rw [h1]; exact h2, h3, ok.rows a tab h2⟩⟩
    · exact ⟨.tuple [], fun h' => absurd h' h⟩
  have ⟨T, hT⟩ := Classical.axiomOfChoice hg
  let input : PyDict String TableIn := schema.map (fun tc => (tc.1, tableIn w (T tc)))
  let vals : PyDict String TabVal := schema.map (fun tc => (tc.1, copiedVal tc.2 w (T tc)))
  have hin : datInput w o schema = some input := by
    unfold datInput
    refine mapM_eq_map (fun tc htc => ?_)
    rw [(hT tc htc).1]
    rfl
  have hgood : goodObject schema input = true := by
    unfold goodObject
    have : schema.zip input = schema.map (fun tc => (tc, (tc.1, tableIn w (T tc)))) := by
      show schema.zip (schema.map _) = _
      have := List.zip_map' (f := id) (g := fun tc : String × TabClass => (tc.1, tableIn w (T tc))) (l := schema)
      rwa [List.map_id] at this
    rw [this]
    simp only [List.all_map, List.all_eq_true, Function.comp_def]
    exact fun tc htc => (fits_table (hn tc htc) (hT tc htc).2.2 (hT tc htc).2.1).2.1
  have hget : ∀ tc ∈ schema, PyDict.get? input tc.1 = some (tableIn w (T tc)) := fun tc htc =>
    get?_of_map (fun tc : String × TabClass => (tc.1, tableIn w (T tc))) schema hs htc
  have hgetv : ∀ tc ∈ schema, PyDict.get? vals tc.1 = some (copiedVal tc.2 w (T tc)) := fun tc htc =>
    get?_of_map (fun tc : String × TabClass => (tc.1, copiedVal tc.2 w (T tc))) schema hs htc
  have hinit : initDat policy schema input = some vals := by
    unfold initDat
    rw [if_pos]
    · have : schema.mapM (initEntry input) = some vals := by
        refine mapM_eq_map (fun tc htc => ?_)
        unfold initEntry
        rw [hget tc htc]
        simp only
        rw [(fits_table (hn tc htc) (hT tc htc).2.2 (hT tc htc).2.1).1]
        rfl
      rw [this]
      simp only
      rw [if_neg]
      rw [Bool.and_eq_true, not_and]
      intro _
      rw [List.any_eq_true]
      rintro ⟨p, hp, hlt⟩
      obtain ⟨tc, htc, rfl⟩ := List.mem_map.1 hp
      simp only [hgetv tc htc, Option.map_some, Option.getD_some, decide_eq_true_eq] at hlt
      rw [(fits_table (hn tc htc) (hT tc htc).2.2 (hT tc htc).2.1).2.2] at hlt
      omega
    · rw [List.all_eq_true]
      intro p hp
      obtain ⟨tc, htc, rfl⟩ := List.mem_map.1 hp
      exact decide_eq_true (List.mem_map.2 ⟨tc, htc, rfl⟩)
  have hzip : (schema.map Prod.snd).zip vals = schema.map (fun tc => (tc.2, (tc.1, copiedVal tc.2 w (T tc)))) := by
    show (schema.map Prod.snd).zip (schema.map _) = _
    rw [List.zip_map']
  have A := allocTabs_allocated ((schema.map Prod.snd).zip vals) w ok (by
    rw [hzip]
    intro e he
    obtain ⟨tc, _, rfl⟩ := List.mem_map.1 he
    exact copiedVal_rows _ _ _)
  let w1 := (allocTabs w ((schema.map Prod.snd).zip vals)).1
  let attrs := (allocTabs w ((schema.map Prod.snd).zip vals)).2
  let w' : World := { w1 with dats := w.dats ++ [⟨attrs, false⟩] }
  have hlenT : w.tabs.length ≤ w1.tabs.length := by
    obtain ⟨_, _, _, e2, _⟩ := A.ext
    rw [show w1.tabs = _ from e2, List.length_append]; omega
  refine ⟨w', ?_, ?_, ?_, ?_, ?_, ?_⟩
  · unfold copyDat
    rw [ho]
    simp only
    rw [hin]
    simp only
    rw [if_pos hgood, hinit]
  · constructor
    · exact A.ok.rows
    · intro i oi hi p hp
      show p.2 < w1.tabs.length
      simp only [w'] at hi
      by_cases hl : i < w.dats.length
      · rw [List.getElem?_append_left hl] at hi
        exact Nat.lt_of_lt_of_le (ok.tabs i oi hi p hp) hlenT
      · have hl' := lt_of_some hi
        rw [List.length_append, List.length_singleton] at hl'
        have : i = w.dats.length := by omega
        subst this
        rw [List.getElem?_concat_length] at hi
        cases hi
        exact (A.fresh p hp).2
  · constructor
    · intro a tab ht b hb
      simp only [copyOwner]
      by_cases hl : w.tabs.length ≤ a
      · rw [decide_eq_true hl]
        exact decide_eq_true (A.rows a tab hl ht b hb)
      · rw [decide_eq_false hl]
        obtain ⟨_, _, _, e2, _⟩ := A.ext
        have ht' : w1.tabs[a]? = some tab := ht
        rw [show w1.tabs = _ from e2, List.getElem?_append_left (by omega)] at ht'
        have := ok.rows a tab ht' b hb
        exact decide_eq_false (by omega)
    · intro i oi hi p hp
      simp only [copyOwner]
      simp only [w'] at hi
      by_cases hl : w.dats.length ≤ i
      · have hl' := lt_of_some hi
        rw [List.length_append, List.length_singleton] at hl'
        have : i = w.dats.length := by omega
        subst this
        rw [List.getElem?_concat_length] at hi
        cases hi
        rw [decide_eq_true hl]
        exact decide_eq_true (A.fresh p hp).1
      · rw [List.getElem?_append_left (by omega)] at hi
        have := ok.tabs i oi hi p hp
        rw [decide_eq_false hl]
        exact decide_eq_false (by omega)
  · simp [w']
  · intro d' hd' ts
    unfold viewDat
    simp only [w']
    rw [List.getElem?_append_left hd']
    cases hod : w.dats[d']? with
    | none => rfl
    | some o' =>
      simp only [Option.map_some, Option.some.injEq]
      apply List.map_congr_left
      intro t _
      cases hgt : PyDict.get? o'.tabs t with
      | none => rfl
      | some a => exact viewTabAt_extends A.ext ok (ok.tabs d' o' hod _ (PyDict.get?_mem hgt))
  · intro tc htc
    refine ⟨viewTab w (T tc), ?_, ?_⟩
    · unfold viewDat
      rw [ho]
      have h1 := (hT tc htc).1
      rw [Option.bind_eq_some_iff] at h1
      obtain ⟨a, ha1, ha2⟩ := h1
      simp [ha1, viewTabAt, ha2]
    · unfold viewDat
      simp only [w']
      rw [List.getElem?_concat_length]
      have hview := A.view
      have hview' : attrs.map (fun p => (p.1, viewTabAt w1 p.2)) =
          schema.map (fun tc => (tc.1, some (valView (copiedVal tc.2 w (T tc))))) := by
        rw [show attrs.map (fun p => (p.1, viewTabAt w1 p.2)) = _ from hview, hzip, List.map_map]
        rfl
      have hmem : (tc.1, some (valView (copiedVal tc.2 w (T tc)))) ∈ attrs.map (fun p => (p.1, viewTabAt w1 p.2)) := by
        rw [hview']
        exact List.mem_map.2 ⟨tc, htc, rfl⟩
      obtain ⟨p, hp, hpe⟩ := List.mem_map.1 hmem
      have hnd : (PyDict.keys attrs).Nodup := by
        rw [show PyDict.keys attrs = _ from A.names, hzip]
        simpa [Function.comp_def] using hs
      have hga : PyDict.get? attrs tc.1 = some p.2 := by
        refine (PyDict.get?_iff_mem hnd).2 ?_
        have e1 : p.1 = tc.1 := congrArg Prod.fst hpe
        rw [← e1]
        exact hp
      have e2 : viewTabAt w1 p.2 = some (valView (copiedVal tc.2 w (T tc))) := congrArg Prod.snd hpe
      rw [copiedVal_view tc.2 w (T tc) (hT tc htc).2.2] at e2
      simp only [Option.map_some, List.map_cons, List.map_nil, Option.some.injEq, List.cons.injEq, and_true]
      rw [hga]
      exact e2

/-- **C31, contents.**  Copying a data object whose tables fit the schema succeeds.  It changes none of the existing data
objects, and each table of the copy has the same rows under the same keys as the original, with defaults for the fields
that a row of the original has not got. -/
theorem copy_view (policy : DupPolicy) (schema : List (String × TabClass)) (hs : (schema.map Prod.fst).Nodup)
    (hn : ∀ tc ∈ schema, tc.2.dfs.Nodup) (w : World) (ok : HeapOK w) (d : Nat) (hf : EveryTable Fits schema w d) :
    ∃ w', copyDat policy schema w d = (w', false) ∧ w'.dats.length = w.dats.length + 1 ∧
      (∀ d' < w.dats.length, ∀ ts, viewDat ts w' d' = viewDat ts w d') ∧
      ∀ tc ∈ schema, ∃ v, viewDat [tc.1] w d = some [some v] ∧
        viewDat [tc.1] w' w.dats.length = some [some (filledView tc.2 v)] := by
  obtain ⟨w', h1, _, _, h2, h3, h4⟩ := copy_result policy schema hs hn w ok d hf
  exact ⟨w', h1, h2, h3, h4⟩

theorem viewDat_singles {w w' : World} {d d' : Nat} {ts : List String} {o o' : DatObj} (ho : w.dats[d]? = some o) (ho' : w'.dats[d']? = some o')
    (h : ∀ t ∈ ts, viewDat [t] w d = viewDat [t] w' d') : viewDat ts w d = viewDat ts w' d' := by
  unfold viewDat at h ⊢
  rw [ho, ho'] at h ⊢
  simp only [Option.map_some, List.map_cons, List.map_nil, Option.some.injEq, List.cons.injEq, and_true] at h ⊢
  exact List.map_congr_left h

/-- **C31, equality** (tables that are not generator tables).  If every row of the original has exactly the data fields of its table, which is so for the rows
that the data object made itself, then the copy and the original look the same. -/
theorem copy_equal_partial (policy : DupPolicy) (schema : List (String × TabClass)) (hs : (schema.map Prod.fst).Nodup)
    (hn : ∀ tc ∈ schema, tc.2.dfs.Nodup) (w : World) (ok : HeapOK w) (d : Nat)
    (hf : EveryTable (fun c w tab => Fits c w tab ∧ FullRows c w tab) schema w d) :
    ∃ w', copyDat policy schema w d = (w', false) ∧ w'.dats.length = w.dats.length + 1 ∧
      viewDat (schema.map Prod.fst) w' w.dats.length = viewDat (schema.map Prod.fst) w d := by
  obtain ⟨o, ho, hall⟩ := hf
  obtain ⟨w', h1, h2, _, h4⟩ := copy_view policy schema hs hn w ok d
    ⟨o, ho, fun tc htc => by obtain ⟨a, tab, x, y, z⟩ := hall tc htc; exact ⟨a, tab, x, y, z.1⟩⟩
  refine ⟨w', h1, h2, ?_⟩
  have hlt : w.dats.length < w'.dats.length := by omega
  refine viewDat_singles (List.getElem?_eq_getElem hlt) ho (fun t ht => ?_)
  obtain ⟨tc, htc, rfl⟩ := List.mem_map.1 ht
  obtain ⟨v, hv1, hv2⟩ := h4 tc htc
  rw [hv1, hv2]
  obtain ⟨a, tab, x, y, _, z⟩ := hall tc htc
  have hv : v = viewTab w tab := by
    unfold viewDat at hv1
    rw [ho] at hv1
    simp only [Option.map_some, List.map_cons, List.map_nil, Option.some.injEq, List.cons.injEq, and_true] at hv1
    rw [x] at hv1
    simp only [Option.bind_some, viewTabAt, y, Option.map_some, Option.some.injEq] at hv1
    exact hv1.symm
  subst hv
  simp only [Option.some.injEq, List.cons.injEq, and_true]
  unfold filledView
  apply map_self_of
  intro p hp
  have hrow : ∀ b ∈ tab.addrs, (viewRow w b).map (filledRow tc.2) = viewRow w b := by
    intro b hb
    have := viewRow_fieldsAt (ok.rows a tab y b hb)
    rw [this]
    simp only [Option.map_some, Option.some.injEq]
    exact filledRow_full tc.2 _ (hn tc htc) (z b hb _ this)
  cases tab with
  | dict cls rows fr =>
    obtain ⟨q, hq, rfl⟩ := List.mem_map.1 hp
    simp only [hrow q.2 (List.mem_map.2 ⟨q, hq, rfl⟩)]
  | list cls rows =>
    obtain ⟨q, hq, rfl⟩ := List.mem_map.1 hp
    simp only [hrow q hq]
  | tuple rows =>
    obtain ⟨q, hq, rfl⟩ := List.mem_map.1 hp
    simp only [hrow q hq]

/-- **C31, independence of a copy** (tables that are not generator tables, see `generator_copy_follows`).  After a copy, let one client use the objects that existed before and let another use
the copy.  Whatever the two do in turns, no step on the side of the copy changes what is seen of the original, or of any
older data object, and no step on the side of the original changes what is seen of the copy. -/
theorem copies_independent_partial (policy : DupPolicy) (schema : List (String × TabClass)) (hs : (schema.map Prod.fst).Nodup)
    (hn : ∀ tc ∈ schema, tc.2.dfs.Nodup) (w : World) (ok : HeapOK w) (d : Nat) (hf : EveryTable Fits schema w d) :
    ∃ w', copyDat policy schema w d = (w', false) ∧ w'.dats.length = w.dats.length + 1 ∧
      ∀ (before : List (Bool × Op)) (s : Bool) (op : Op), Sided (copyOwner w) w' (before ++ [(s, op)]) → ∀ ts : List String,
        (s = true → ∀ d' < w.dats.length,
          viewDat ts (run w' (before.map Prod.snd ++ [op])) d' = viewDat ts (run w' (before.map Prod.snd)) d') ∧
        (s = false →
          viewDat ts (run w' (before.map Prod.snd ++ [op])) w.dats.length = viewDat ts (run w' (before.map Prod.snd)) w.dats.length) := by
  obtain ⟨w', h1, h2, h3, h4, _, _⟩ := copy_result policy schema hs hn w ok d hf
  refine ⟨w', h1, h4, ?_⟩
  intro before s op hsd ts
  refine ⟨?_, ?_⟩
  · rintro rfl d' hd'
    exact clients_independent (copyOwner w) w' h3 h2 before true op hsd ts d' (by omega) (by
      simp only [copyOwner]; rw [decide_eq_false (by omega)]; simp)
  · rintro rfl
    exact clients_independent (copyOwner w) w' h3 h2 before false op hsd ts w.dats.length (by omega) (by
      simp [copyOwner])

/-- A copy that raises changes nothing. -/
theorem copy_raises (policy : DupPolicy) (schema : List (String × TabClass)) (w w' : World) (d : Nat)
    (h : copyDat policy schema w d = (w', true)) : w' = w := by
  unfold copyDat at h
  repeat' split at h
  all_goals first
    | exact (congrArg Prod.fst h).symm
    | (exact absurd (congrArg Prod.snd h) (fun e => Bool.noConfusion e))

/-! ### Examples -/

/-- Two tables: foods with a key, and notes without. -/
def copySchema : List (String × TabClass) := [("foods", ⟨["name"], ["cost", "qty"], [("qty", .num (.fin 5))]⟩), ("notes", ⟨[], ["text"], []⟩)]

/-- A data object with one food, which was put in by `update` and has no quantity, and two notes. -/
def copyWorld : World :=
  ⟨[.plain [("cost", .num (.fin 3))], .td ["text"] [.str "x"] false, .td ["text"] [.str "y"] false],
   [.dict ⟨["name"], ["cost", "qty"], [("qty", .num (.fin 5))]⟩ [(.one (.str "egg"), 0)] false, .list ⟨[], ["text"], []⟩ [1, 2]],
   [⟨[("foods", 0), ("notes", 1)], false⟩]⟩

theorem copyWorld_ok : HeapOK copyWorld := by
  constructor
  · intro i t ht b hb
    match i, ht with
    | 0, ht => cases ht; revert b; decide
    | 1, ht => cases ht; revert b; decide
  · intro i o ho p hp
    match i, ho with
    | 0, ho => cases ho; revert p; decide

theorem copyWorld_fits : EveryTable Fits copySchema copyWorld 0 := by
  refine ⟨_, rfl, ?_⟩
  intro tc htc
  rcases List.mem_cons.1 htc with rfl | htc
  · refine ⟨0, _, rfl, rfl, ⟨by decide, by decide, by decide⟩, ?_⟩
    intro a ha r hr
    rcases List.mem_singleton.1 ha with rfl
    cases hr
    decide
  · rcases List.mem_singleton.1 htc with rfl
    refine ⟨1, _, rfl, rfl, by decide, ?_⟩
    intro a ha r hr
    rcases List.mem_cons.1 ha with rfl | ha
    · cases hr; decide
    · rcases List.mem_singleton.1 ha with rfl
      cases hr; decide

/-- The hypotheses of the theorems hold for the example. -/
example := copies_independent_partial .assert copySchema (by decide) (by decide) copyWorld copyWorld_ok 0 copyWorld_fits

/-- The copy of the food has the default quantity. -/
example : viewDat ["foods", "notes"] (copyDat .ignore copySchema copyWorld 0).1 1 =
    some [some [(some (.one (.str "egg")), some [("cost", .num (.fin 3)), ("qty", .num (.fin 5))])],
      some [(none, some [("text", .str "x")]), (none, some [("text", .str "y")])]] := by decide +kernel

/-- A history of both clients: each changes a row, a table and freezes; the two see their own changes. -/
def copyHist : List (Bool × Op) :=
  [(false, .row 1 "text" (.str "old")), (true, .row 4 "text" (.str "new")), (true, .tab 2 (.setItem (.one (.str "ham")) (.seq [.num (.fin 1), .num (.fin 2)]))),
   (false, .tab 0 (.clear)), (true, .freeze 1 ["foods", "notes"]), (false, .delAttr 0 "notes")]

instance (own : Owner) (s : Bool) (op : TabOp) : Decidable (TabOpOf own s op) := by
  cases op <;> simp only [TabOpOf] <;> infer_instance

instance (own : Owner) (s : Bool) (op : Op) : Decidable (OpOf own s op) := by
  cases op <;> simp only [OpOf] <;> infer_instance

theorem copyHist_sided : Sided (copyOwner copyWorld) (copyDat .ignore copySchema copyWorld 0).1 copyHist := by
  refine ⟨?_, ?_, ?_, ?_, ?_, ?_, trivial⟩ <;> decide +kernel

example : viewDat ["foods", "notes"] (run (copyDat .ignore copySchema copyWorld 0).1 (copyHist.map Prod.snd)) 0 = some [some [], none] ∧
    viewDat ["foods", "notes"] (run (copyDat .ignore copySchema copyWorld 0).1 (copyHist.map Prod.snd)) 1 =
      some [some [(some (.one (.str "egg")), some [("cost", .num (.fin 3)), ("qty", .num (.fin 5))]),
          (some (.one (.str "ham")), some [("cost", .num (.fin 1)), ("qty", .num (.fin 2))])],
        some [(none, some [("text", .str "new")]), (none, some [("text", .str "y")])]] := by
  constructor <;> decide +kernel

/-- A row with another field, which `update` lets in, keeps the data object from being copied. -/
theorem foreign_field_blocks_copy :
    copyDat .ignore [("foods", ⟨["name"], ["cost"], []⟩)]
      ⟨[.plain [("colour", .str "red")]], [.dict ⟨["name"], ["cost"], []⟩ [(.one (.str "egg"), 0)] false], [⟨[("foods", 0)], false⟩]⟩ 0 =
    (⟨[.plain [("colour", .str "red")]], [.dict ⟨["name"], ["cost"], []⟩ [(.one (.str "egg"), 0)] false], [⟨[("foods", 0)], false⟩]⟩, true) := by
  decide +kernel

/-! ### Generator tables are not copied -/

theorem iterate_keys (c : TabClass) (hn : c.dfs.Nodup) (lists : List (List RowIn)) (hl : ∀ l ∈ lists, ∀ x ∈ l, DictRow x) (g : GenTab) :
    ∀ rows, g.iterate c lists = some rows → ∀ r ∈ rows, PyDict.keys r = c.dfs := by
  induction g with
  | src a =>
    intro rows h r hr
    simp only [GenTab.iterate] at h
    rw [mapM_eq_some_iff] at h
    have : some r ∈ ((lists[a]?).getD []).map (initRow c) := by rw [h]; exact List.mem_map.2 ⟨r, hr, rfl⟩
    obtain ⟨x, hx, he⟩ := List.mem_map.1 this
    have hd : DictRow x := by
      cases hg : lists[a]? with
      | none => rw [hg] at hx; simp at hx
      | some l => rw [hg] at hx; exact hl l (List.mem_iff_getElem?.2 ⟨a, hg⟩) x hx
    exact rowGives_keys c x r ((initRow_iff c hn x hd r).1 he)
  | of g ih =>
    intro rows h r hr
    simp only [GenTab.iterate] at h
    rw [Option.bind_eq_some_iff] at h
    obtain ⟨rows0, h0, h1⟩ := h
    rw [mapM_eq_some_iff] at h1
    have : some r ∈ rows0.map (fun r => initRow c (.dict r)) := by rw [h1]; exact List.mem_map.2 ⟨r, hr, rfl⟩
    obtain ⟨x, hx, he⟩ := List.mem_map.1 this
    have hk := ih rows0 h0 x hx
    exact rowGives_keys c (.dict x) r ((initRow_iff c hn (.dict x) (show (PyDict.keys x).Nodup from hk ▸ hn) r).1 he)

/-- **C31, finding.**  The generator table of a copy yields, whatever happens to the lists in between, the rows that the
generator table of the original yields at that time: a later change of the list that was passed for it shows in the copy. -/
theorem generator_copy_follows (c : TabClass) (hn : c.dfs.Nodup) (lists : List (List RowIn)) (hl : ∀ l ∈ lists, ∀ x ∈ l, DictRow x)
    (g : GenTab) : g.copy.iterate c lists = g.iterate c lists := by
  show (g.iterate c lists).bind _ = _
  cases h : g.iterate c lists with
  | none => rfl
  | some rows =>
    show rows.mapM (fun r => initRow c (.dict r)) = some rows
    have := mapM_eq_map (l := rows) (g := fun r => initRow c (.dict r)) (k := fun r => r) (fun r hr => by
      have hk := iterate_keys c hn lists hl g rows h r hr
      have hkn : (PyDict.keys r).Nodup := hk ▸ hn
      exact (initRow_iff c hn (.dict r) hkn r).2 ⟨fun f hf => hk ▸ hf, (filledRow_full c r hn hk).symm⟩)
    rw [this]
    simp

/-- The list passed for the original grows after the copy was made, and so does the copy. -/
example : (GenTab.src 0).copy.iterate ⟨[], ["text"], []⟩ [[.scalar (.str "x")]] = some [[("text", .str "x")]] ∧
    (GenTab.src 0).copy.iterate ⟨[], ["text"], []⟩ [[.scalar (.str "x"), .scalar (.str "y")]] =
      some [[("text", .str "x")], [("text", .str "y")]] := by
  constructor <;> decide +kernel

end Ticdat

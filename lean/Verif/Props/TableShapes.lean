import Verif.Props.Freeze
import Verif.Props.RowFactory
/-!
# C29: keys and rows of keyed tables keep their shape
-/
namespace Ticdat
open Spec
set_option linter.unusedSimpArgs false

/-- A row object of row class `dfs`, complete. -/
def IsRowOf (dfs : List String) (r : RowObj) : Prop :=
  if dfs = [] then ∃ d b, r = .opn d b else ∃ data b, r = .td dfs data b ∧ data.length = dfs.length

/-- Row objects keep their class, whatever happens. -/
structure RowsKind (w w' : World) : Prop where
  rows : ∀ (i : Nat) (r : RowObj), w.rows[i]? = some r → ∃ r', w'.rows[i]? = some r' ∧ ∀ dfs, IsRowOf dfs r → IsRowOf dfs r'

theorem RowsKind.refl (w : World) : RowsKind w w := ⟨fun _ r h => ⟨r, h, fun _ h => h⟩⟩

theorem RowsKind.trans {a b c : World} (h1 : RowsKind a b) (h2 : RowsKind b c) : RowsKind a c :=
  ⟨fun i r h => by
    obtain ⟨r', h', k'⟩ := h1.rows i r h
    obtain ⟨r'', h'', k''⟩ := h2.rows i r' h'
    exact ⟨r'', h'', fun dfs hd => k'' dfs (k' dfs hd)⟩⟩

theorem RowsKind.of_eq {w w' : World} (h : w'.rows = w.rows) : RowsKind w w' :=
  ⟨fun _ r hr => ⟨r, by rw [h]; exact hr, fun _ h => h⟩⟩

theorem RowsKind.of_append {w w' : World} (l : List RowObj) (h : w'.rows = w.rows ++ l) : RowsKind w w' :=
  ⟨fun _ r hr => ⟨r, by rw [h]; exact getElem?_append_some hr, fun _ h => h⟩⟩

theorem isRowOf_freeze {dfs : List String} {r : RowObj} (h : IsRowOf dfs r) : IsRowOf dfs r.freeze := by
  unfold IsRowOf at *
  split
  · rename_i hd
    simp only [hd, if_true] at h
    obtain ⟨d, b, rfl⟩ := h
    exact ⟨d, true, rfl⟩
  · rename_i hd
    simp only [hd, if_false] at h
    obtain ⟨data, b, rfl, hl⟩ := h
    exact ⟨data, true, rfl, hl⟩

theorem isRowOf_setItem {dfs : List String} {r r' : RowObj} {f : String} {v : Cell} (h : IsRowOf dfs r)
    (hs : r.setItem f v = some r') : IsRowOf dfs r' := by
  unfold IsRowOf at *
  split
  · rename_i hd
    simp only [hd, if_true] at h
    obtain ⟨d, b, rfl⟩ := h
    cases b <;> simp [RowObj.setItem] at hs
    exact ⟨_, _, hs.symm⟩
  · rename_i hd
    simp only [hd, if_false] at h
    obtain ⟨data, b, rfl, hl⟩ := h
    simp only [RowObj.setItem] at hs
    split at hs
    · split at hs
      · simp at hs
      · cases hs
        exact ⟨_, _, rfl, by rw [length_setField, hl]⟩
    · simp at hs

theorem RowsFreeze.rowsKind {w w' : World} (h : RowsFreeze w w') : RowsKind w w' :=
  ⟨fun i r hr => by
    rcases h.kind i r hr with h' | h'
    · exact ⟨r, h', fun _ h => h⟩
    · exact ⟨_, h', fun _ h => isRowOf_freeze h⟩⟩

theorem freezeTab_rowsKind (w : World) (d : Nat) (t : String) : RowsKind w (freezeTab w d t).1 := by
  obtain ⟨w', h1, h2, hcase⟩ := freezeTab_cases w d t
  rcases hcase with ⟨he, _⟩ | ⟨o, a, tab, hd, ha, ht, _, hrows, hcase⟩
  · rw [he]; exact h1.rowsKind
  · rcases hcase with ⟨cls, rows, fr, rfl, he⟩ | ⟨hnd, he⟩
    · rw [he]; exact h1.rowsKind.trans (RowsKind.of_eq rfl)
    · rw [he]; exact h1.rowsKind.trans (RowsKind.of_eq rfl)

theorem freezeTabs_rowsKind (ts : List String) : ∀ (w : World) (d : Nat), RowsKind w (freezeTabs w d ts).1 := by
  induction ts with
  | nil => intro w d; exact RowsKind.refl w
  | cons t rest ih =>
    intro w d
    have h1 := freezeTab_rowsKind w d t
    unfold freezeTabs
    cases hr : freezeTab w d t with
    | mk w' raised =>
      rw [hr] at h1
      cases raised with
      | true => exact h1
      | false => exact h1.trans (ih w' d)

theorem tabOp_rows (w : World) (a : Nat) (op : TabOp) :
    (tabOp w a op).1.rows = w.rows ∨ ∃ r, (tabOp w a op).1.rows = w.rows ++ [r] := by
  unfold tabOp tabSetItem
  repeat' split
  all_goals first
    | exact .inl rfl
    | exact .inr ⟨_, rfl⟩

theorem step_rowsKind (w : World) (op : Op) : RowsKind w (step w op).1 := by
  cases op with
  | tab a o =>
    rcases tabOp_rows w a o with h | ⟨r, h⟩
    · exact RowsKind.of_eq h
    · exact RowsKind.of_append _ h
  | row a f v =>
    simp only [step, rowOp]
    split
    · exact RowsKind.refl w
    · rename_i r0 h0
      split
      · exact RowsKind.refl w
      · rename_i r1 h1
        refine ⟨fun i r hr => ?_⟩
        by_cases hi : a = i
        · subst hi
          rw [h0] at hr
          cases hr
          have hlt : a < w.rows.length := by
            rw [List.getElem?_eq_some_iff] at h0
            exact h0.1
          exact ⟨r1, by simp [World.putRow, hlt], fun dfs hd => isRowOf_setItem hd h1⟩
        · exact ⟨r, by simp [World.putRow, List.getElem?_set, hi, hr], fun _ h => h⟩
  | newPlain fields => exact RowsKind.of_append [.plain fields] rfl
  | setAttr d t a =>
    simp only [step]
    repeat' split
    all_goals exact RowsKind.of_eq rfl
  | delAttr d t =>
    simp only [step]
    repeat' split
    all_goals exact RowsKind.of_eq rfl
  | freeze d order =>
    simp only [step]
    rcases freezeDat_cases w d order with he | ⟨o, _, _, ⟨he, _⟩ | ⟨o', _, hd', he⟩⟩
    · rw [he]; exact RowsKind.refl w
    · rw [he]; exact freezeTabs_rowsKind order w d
    · rw [he]; exact (freezeTabs_rowsKind order w d).trans (RowsKind.of_eq rfl)

/-- Table `a` is a keyed table of class `cls` all of whose keys and rows have the right shape. -/
def Shaped (cls : TabClass) (w : World) (a : Nat) : Prop :=
  ∃ rows fr, w.tabs[a]? = some (.dict cls rows fr) ∧ (PyDict.keys rows).Nodup ∧
    ∀ p ∈ rows, KeyShape cls.pks.length p.1 ∧ ∃ r, w.rows[p.2]? = some r ∧ IsRowOf cls.dfs r

theorem keyShape_of_keyOK {n : Nat} {k : KeyArg} (h : keyOK n k = true) : KeyShape n k := by
  cases k with
  | one v => simp only [keyOK, Bool.and_eq_true, decide_eq_true_eq] at h; exact h.2
  | tup vs =>
    simp only [keyOK, Bool.and_eq_true, Bool.or_eq_true, decide_eq_true_eq] at h
    obtain ⟨h1, h2⟩ := h
    refine ⟨?_, by omega⟩
    rcases h2 with h2 | h2 <;> omega

/-- The check of `__setitem__` is exactly the shape condition. -/
theorem keyOK_iff (n : Nat) (hn : 0 < n) (k : KeyArg) : keyOK n k = true ↔ KeyShape n k := by
  refine ⟨keyShape_of_keyOK, fun h => ?_⟩
  cases k with
  | one v => simp only [KeyShape] at h; subst h; rfl
  | tup vs =>
    obtain ⟨h1, h2⟩ := h
    have : n > 1 := by omega
    simp [keyOK, this, h1.symm]

theorem isRowOf_rowFactory {c : TabClass} {x : RowIn} {r : RowObj} (h : rowFactory c x = some r) :
    IsRowOf c.dfs r := by
  unfold IsRowOf
  rcases rowFactory_kind c x r h with ⟨rfl, hd⟩ | ⟨data, rfl, hl, hd⟩
  · simp [hd]
  · simp only [hd, if_false]; exact ⟨data, false, rfl, hl⟩

theorem Shaped.put {cls : TabClass} {w w' : World} {a : Nat} (hk : RowsKind w w') {rows rows' : PyDict KeyArg Nat}
    {fr' : Bool} (hold : ∀ p ∈ rows, KeyShape cls.pks.length p.1 ∧ ∃ r, w.rows[p.2]? = some r ∧ IsRowOf cls.dfs r)
    (ht : w'.tabs[a]? = some (.dict cls rows' fr')) (hn : (PyDict.keys rows').Nodup)
    (hsub : ∀ p ∈ rows', p ∈ rows ∨ KeyShape cls.pks.length p.1 ∧ ∃ r, w'.rows[p.2]? = some r ∧ IsRowOf cls.dfs r) :
    Shaped cls w' a := by
  refine ⟨rows', fr', ht, hn, fun p hp => ?_⟩
  rcases hsub p hp with h | h
  · obtain ⟨h1, r, h2, h3⟩ := hold p h
    obtain ⟨r', h2', h3'⟩ := hk.rows _ r h2
    exact ⟨h1, r', h2', h3' _ h3⟩
  · exact h

theorem keys_dropLast_nodup {A B : Type} (d : PyDict A B) (h : (PyDict.keys d).Nodup) :
    (PyDict.keys d.dropLast).Nodup := by
  have hs : (PyDict.keys d.dropLast).Sublist (PyDict.keys d) := (List.dropLast_sublist d).map Prod.fst
  exact h.sublist hs

theorem mem_set_key {A B : Type} [DecidableEq A] (d : PyDict A B) (k : A) (v : B) :
    ∀ p ∈ PyDict.set d k v, p ∈ d ∨ p = (k, v) := by
  induction d with
  | nil => intro p hp; simp [PyDict.set] at hp; exact .inr hp
  | cons q rest ih =>
    intro p hp
    obtain ⟨k', v'⟩ := q
    simp only [PyDict.set] at hp
    split at hp
    · rename_i hk
      subst hk
      rcases List.mem_cons.mp hp with hp | hp
      · exact .inr hp
      · exact .inl (List.mem_cons_of_mem _ hp)
    · rcases List.mem_cons.mp hp with hp | hp
      · subst hp; simp
      · rcases ih p hp with h | h
        · exact .inl (List.mem_cons_of_mem _ h)
        · exact .inr h

theorem tabSetItem_shaped {cls : TabClass} {w : World} {a : Nat} {rows : PyDict KeyArg Nat} {fr : Bool}
    (ht : w.tabs[a]? = some (.dict cls rows fr)) (hn : (PyDict.keys rows).Nodup)
    (hold : ∀ p ∈ rows, KeyShape cls.pks.length p.1 ∧ ∃ r, w.rows[p.2]? = some r ∧ IsRowOf cls.dfs r)
    (k : KeyArg) (x : RowIn) : Shaped cls (tabSetItem w a cls rows fr k x).1 a := by
  have hlt : a < w.tabs.length := by
    rw [List.getElem?_eq_some_iff] at ht
    exact ht.1
  unfold tabSetItem
  split
  · rename_i hkey
    split
    · exact ⟨rows, fr, ht, hn, hold⟩
    · rename_i r hr
      split
      · exact ⟨rows, fr, ht, hn, hold⟩
      · refine Shaped.put (w := w) (RowsKind.of_append [r] rfl) hold
          (rows' := PyDict.set rows k w.rows.length) (fr' := false) ?_ (PyDict.keys_set_nodup rows k _ hn) ?_
        · simp [World.putTab, World.newRow, hlt]
        · intro p hp
          rcases mem_set_key rows k _ p hp with h | h
          · exact .inl h
          · subst h
            exact .inr ⟨keyShape_of_keyOK hkey, r, by simp [World.putTab, World.newRow], isRowOf_rowFactory hr⟩
  · exact ⟨rows, fr, ht, hn, hold⟩

theorem tabOp_other (w : World) (a b : Nat) (op : TabOp) (h : b ≠ a) : (tabOp w b op).1.tabs[a]? = w.tabs[a]? := by
  unfold tabOp tabSetItem
  repeat' split
  all_goals first
    | rfl
    | simp [World.putTab, World.newRow, List.getElem?_set, h]

theorem freezeTab_tabs (w : World) (d : Nat) (t : String) (a : Nat) (cls : TabClass) (rows : PyDict KeyArg Nat)
    (fr : Bool) (h : w.tabs[a]? = some (.dict cls rows fr)) :
    ∃ fr', (freezeTab w d t).1.tabs[a]? = some (.dict cls rows fr') := by
  obtain ⟨w', h1, h2, hcase⟩ := freezeTab_cases w d t
  rcases hcase with ⟨he, _⟩ | ⟨o, a0, tab, hd, ha, ht, _, hrows, hcase⟩
  · exact ⟨fr, by rw [he, h1.tabs]; exact h⟩
  · rcases hcase with ⟨cls', rows', fr', rfl, he⟩ | ⟨hnd, he⟩
    · rw [he]
      have hlt : a0 < w.tabs.length := by
        rw [List.getElem?_eq_some_iff] at ht
        exact ht.1
      by_cases haa : a0 = a
      · subst haa
        rw [h] at ht
        cases ht
        exact ⟨true, by simp [World.putTab, h1.tabs, hlt]⟩
      · exact ⟨fr, by simp [World.putTab, h1.tabs, List.getElem?_set, haa, h]⟩
    · rw [he]
      refine ⟨fr, ?_⟩
      show (w'.tabs ++ _)[a]? = _
      rw [h1.tabs]
      exact getElem?_append_some h

theorem freezeTabs_tabs (ts : List String) : ∀ (w : World) (d : Nat) (a : Nat) (cls : TabClass)
    (rows : PyDict KeyArg Nat) (fr : Bool), w.tabs[a]? = some (.dict cls rows fr) →
    ∃ fr', (freezeTabs w d ts).1.tabs[a]? = some (.dict cls rows fr') := by
  induction ts with
  | nil => intro w d a cls rows fr h; exact ⟨fr, h⟩
  | cons t rest ih =>
    intro w d a cls rows fr h
    obtain ⟨fr', h1⟩ := freezeTab_tabs w d t a cls rows fr h
    unfold freezeTabs
    cases hr : freezeTab w d t with
    | mk w' raised =>
      rw [hr] at h1
      cases raised with
      | true => exact ⟨fr', h1⟩
      | false => exact ih w' d a cls rows fr' h1

theorem step_shaped {cls : TabClass} {w : World} {a : Nat} (h : Shaped cls w a) (op : Op) (hop : ¬ RawStore a op) :
    Shaped cls (step w op).1 a := by
  obtain ⟨rows, fr, ht, hn, hold⟩ := h
  have hk := step_rowsKind w op
  have hlt : a < w.tabs.length := by
    rw [List.getElem?_eq_some_iff] at ht
    exact ht.1
  have same : ∀ fr', (step w op).1.tabs[a]? = some (.dict cls rows fr') → Shaped cls (step w op).1 a :=
    fun fr' e => Shaped.put hk hold e hn (fun p hp => .inl hp)
  cases op with
  | tab b o =>
    by_cases hb : b = a
    · subst hb
      have shrink : ∀ rows', (tabOp w b o).1 = w.putTab b (.dict cls rows' fr) → (PyDict.keys rows').Nodup →
          (∀ p ∈ rows', p ∈ rows) → Shaped cls (tabOp w b o).1 b := by
        intro rows' e hn' hs
        exact Shaped.put (w := w) hk hold (rows' := rows') (fr' := fr) (by
          show (tabOp w b o).1.tabs[b]? = _
          rw [e]; simp [World.putTab, hlt]) hn' (fun p hp => .inl (hs p hp))
      have keep : (tabOp w b o).1 = w → Shaped cls (tabOp w b o).1 b := by
        intro e
        rw [e]
        exact ⟨rows, fr, ht, hn, hold⟩
      show Shaped cls (tabOp w b o).1 b
      cases o with
      | setItem k x =>
        have e : tabOp w b (.setItem k x) = tabSetItem w b cls rows fr k x := by simp only [tabOp, ht]
        rw [e]; exact tabSetItem_shaped ht hn hold k x
      | getItem k =>
        by_cases hh : PyDict.has rows k = true
        · exact keep (by simp [tabOp, ht, hh])
        · cases fr with
          | true => exact keep (by simp [tabOp, ht, hh])
          | false =>
            have e : tabOp w b (.getItem k) = tabSetItem w b cls rows false k (.dict []) := by
              simp [tabOp, ht, hh]
            rw [e]; exact tabSetItem_shaped ht hn hold k _
      | delItem k =>
        cases fr with
        | true => exact keep (by simp [tabOp, ht])
        | false =>
          by_cases hh : PyDict.has rows k = true
          · exact shrink (PyDict.erase rows k) (by simp [tabOp, ht, hh]) (PyDict.keys_erase_nodup rows k hn)
              (erase_subset rows k)
          · exact keep (by simp [tabOp, ht, hh])
      | pop k =>
        cases fr with
        | true => exact keep (by simp [tabOp, ht])
        | false =>
          by_cases hh : PyDict.has rows k = true
          · exact shrink (PyDict.erase rows k) (by simp [tabOp, ht, hh]) (PyDict.keys_erase_nodup rows k hn)
              (erase_subset rows k)
          · exact keep (by simp [tabOp, ht, hh])
      | update k c => exact absurd rfl hop
      | setdefault k c => exact absurd rfl hop
      | ior k c => exact absurd rfl hop
      | clear => exact shrink [] (by simp [tabOp, ht]) (by simp [PyDict.keys]) (by simp)
      | popitem =>
        by_cases hr : rows = []
        · exact keep (by simp [tabOp, ht, hr])
        · exact shrink rows.dropLast (by simp [tabOp, ht, hr]) (keys_dropLast_nodup rows hn)
            (fun p hp => List.dropLast_subset _ hp)
      | insert i x => exact keep (by simp [tabOp, ht])
      | setAt i x => exact keep (by simp [tabOp, ht])
      | delAt i => exact keep (by simp [tabOp, ht])
    · exact same fr (by
        show (tabOp w b o).1.tabs[a]? = _
        rw [tabOp_other w a b o hb, ht])
  | row b f v =>
    refine same fr ?_
    have : (step w (.row b f v)).1.tabs = w.tabs := by
      simp only [step, rowOp]
      repeat' split
      all_goals rfl
    rw [this, ht]
  | newPlain fields => exact same fr ht
  | setAttr d t c =>
    refine same fr ?_
    have : (step w (.setAttr d t c)).1.tabs = w.tabs := by
      simp only [step]
      repeat' split
      all_goals rfl
    rw [this, ht]
  | delAttr d t =>
    refine same fr ?_
    have : (step w (.delAttr d t)).1.tabs = w.tabs := by
      simp only [step]
      repeat' split
      all_goals rfl
    rw [this, ht]
  | freeze d order =>
    obtain ⟨fr', h1⟩ := freezeTabs_tabs order w d a cls rows fr ht
    rcases freezeDat_cases w d order with he | ⟨o, _, _, ⟨he, _⟩ | ⟨o', _, hd', he⟩⟩
    · exact same fr (by simp only [step, he, ht])
    · exact same fr' (by simp only [step, he, h1])
    · exact same fr' (by simp only [step, he]; exact h1)

theorem run_shaped {cls : TabClass} {a : Nat} (ops : List Op) : ∀ {w : World}, Shaped cls w a →
    (∀ op ∈ ops, ¬ RawStore a op) → Shaped cls (run w ops) a := by
  induction ops with
  | nil => intro w h _; exact h
  | cons op rest ih =>
    intro w h hops
    exact ih (step_shaped h op (hops op (by simp))) (fun o ho => hops o (by simp [ho]))

/-- **C29 (partial): keyed tables keep their shape.**  Start with an empty keyed table of a class with at least one data
field.  After any history of operations on the heap (assignments, lookups, deletions, cell writes, freezing,
operations on other tables and objects), every key has as many entries as there are primary key fields, no key occurs
twice, and every row has exactly the data fields, in order.
Missing for the full property: `update`, `setdefault` and `|=` on the table, which store anything
(`update_breaks_shapes`), and tables without data fields, whose rows accept any field
(`dataless_row_accepts_fields`). -/
theorem table_shapes_partial (cls : TabClass) (hc : cls.dfs ≠ []) (w : World) (a : Nat) (fr : Bool)
    (h0 : w.tabs[a]? = some (.dict cls [] fr)) (ops : List Op) (hops : ∀ op ∈ ops, ¬ RawStore a op) :
    ∃ view, viewTabAt (run w ops) a = some view ∧ (view.map Prod.fst).Nodup ∧
      ∀ e ∈ view, ∃ k fields, e = (some k, some fields) ∧ KeyShape cls.pks.length k ∧ PyDict.keys fields = cls.dfs := by
  obtain ⟨rows, fr', ht, hn, h⟩ := run_shaped ops (cls := cls) (a := a) ⟨[], fr, h0, by simp [PyDict.keys], by simp⟩ hops
  refine ⟨viewTab (run w ops) (.dict cls rows fr'), by simp [viewTabAt, ht], ?_, ?_⟩
  · simp only [viewTab, List.map_map]
    have : (Prod.fst ∘ fun p : KeyArg × Nat => (some p.1, viewRow (run w ops) p.2)) = some ∘ Prod.fst := rfl
    rw [this, ← List.map_map]
    rw [PyDict.keys] at hn
    rw [List.Nodup, List.pairwise_map]
    exact List.Pairwise.imp (fun hne e => hne (Option.some.inj e)) hn
  · intro e he
    simp only [viewTab, List.mem_map] at he
    obtain ⟨p, hp, rfl⟩ := he
    obtain ⟨h1, r, h2, h3⟩ := h p hp
    simp only [IsRowOf, hc, if_false] at h3
    obtain ⟨data, b, rfl, hl⟩ := h3
    refine ⟨p.1, cls.dfs.zip data, by simp [viewRow, h2, RowObj.fields], h1, ?_⟩
    simp only [PyDict.keys]
    rw [List.map_fst_zip (by omega)]

/-- **C29, tables without data fields:** keys still have the right shape. -/
theorem dataless_key_shapes (cls : TabClass) (w : World) (a : Nat) (fr : Bool)
    (h0 : w.tabs[a]? = some (.dict cls [] fr)) (ops : List Op) (hops : ∀ op ∈ ops, ¬ RawStore a op) :
    ∃ view, viewTabAt (run w ops) a = some view ∧ ∀ e ∈ view, ∃ k, e.1 = some k ∧ KeyShape cls.pks.length k := by
  obtain ⟨rows, fr', ht, hn, h⟩ := run_shaped ops (cls := cls) (a := a) ⟨[], fr, h0, by simp [PyDict.keys], by simp⟩ hops
  refine ⟨viewTab (run w ops) (.dict cls rows fr'), by simp [viewTabAt, ht], ?_⟩
  intro e he
  simp only [viewTab, List.mem_map] at he
  obtain ⟨p, hp, rfl⟩ := he
  exact ⟨p.1, rfl, (h p hp).1⟩

/-- **C29, lookup of a missing key.**  On an unfrozen table, `tbl[key]` for a key of the right shape that is not there
succeeds, appends a row of defaults under that key, and leaves every other entry as it was. -/
theorem lookup_inserts_default (cls : TabClass) (hdn : cls.dfs.Nodup) (hpk : cls.pks ≠ []) (w : World) (a : Nat)
    (rows : PyDict KeyArg Nat) (h0 : w.tabs[a]? = some (.dict cls rows false))
    (halloc : ∀ p ∈ rows, p.2 < w.rows.length) (k : KeyArg) (hk : KeyShape cls.pks.length k)
    (hnew : k ∉ PyDict.keys rows) :
    (step w (.tab a (.getItem k))).2 = false ∧
      viewTabAt (step w (.tab a (.getItem k))).1 a =
        (viewTabAt w a).map (· ++ [(some k, some (filledRow cls []))]) := by
  have hlt : a < w.tabs.length := by
    rw [List.getElem?_eq_some_iff] at h0
    exact h0.1
  have hpos : 0 < cls.pkLen := by
    unfold TabClass.pkLen
    cases hp : cls.pks with
    | nil => exact absurd hp hpk
    | cons _ _ => simp
  have hok : keyOK cls.pkLen k = true := (keyOK_iff _ hpos k).mpr hk
  have hhas : PyDict.has rows k = false := by
    rw [Bool.eq_false_iff]
    intro h
    exact hnew ((PyDict.has_iff rows k).mp h)
  obtain ⟨r, hr, hfields⟩ := (assign_dict_iff cls [] hdn (by simp [PyDict.keys]) (filledRow cls [])).mpr
    ⟨by simp [PyDict.keys], rfl⟩
  have hstep : step w (.tab a (.getItem k)) =
      ((w.newRow r).putTab a (.dict cls (PyDict.set rows k w.rows.length) false), false) := by
    simp [step, tabOp, h0, hhas, tabSetItem, hok, hr]
  rw [hstep]
  refine ⟨rfl, ?_⟩
  have htab : ((w.newRow r).putTab a (.dict cls (PyDict.set rows k w.rows.length) false)).tabs[a]? =
      some (.dict cls (PyDict.set rows k w.rows.length) false) := by
    simp [World.putTab, World.newRow, hlt]
  rw [PyDict.set_of_not_mem rows k _ hnew] at htab ⊢
  simp only [viewTabAt, htab, h0, Option.map_some, viewTab, List.map_append, List.map_cons, List.map_nil]
  congr 2
  · apply List.map_congr_left
    intro p hp
    have := halloc p hp
    simp [viewRow, World.putTab, World.newRow, List.getElem?_append, this]
  · simp [viewRow, World.putTab, World.newRow, hfields]

/-- A lookup with a key of the wrong shape raises and inserts nothing. -/
theorem lookup_wrong_shape_raises (cls : TabClass) (hpk : cls.pks ≠ []) (w : World) (a : Nat)
    (rows : PyDict KeyArg Nat) (fr : Bool) (h0 : w.tabs[a]? = some (.dict cls rows fr)) (k : KeyArg)
    (hk : ¬ KeyShape cls.pks.length k) (hnew : k ∉ PyDict.keys rows) :
    step w (.tab a (.getItem k)) = (w, true) ∧ ∀ x, step w (.tab a (.setItem k x)) = (w, true) := by
  have hpos : 0 < cls.pkLen := by
    unfold TabClass.pkLen
    cases hp : cls.pks with
    | nil => exact absurd hp hpk
    | cons _ _ => simp
  have hok : keyOK cls.pkLen k = false := by
    rw [Bool.eq_false_iff]
    intro h
    exact hk ((keyOK_iff _ hpos k).mp h)
  have hhas : PyDict.has rows k = false := by
    rw [Bool.eq_false_iff]
    intro h
    exact hnew ((PyDict.has_iff rows k).mp h)
  cases fr <;> simp [step, tabOp, h0, hhas, tabSetItem, hok]

/-- **C29 fails for `update`:** it stores a key of the wrong length and a row without the table's fields. -/
theorem update_breaks_shapes :
    viewTabAt (run ⟨[], [.dict ⟨["a", "b"], ["x"], []⟩ [] false], []⟩
      [.newPlain [("y", .none)], .tab 0 (.update (.one (.str "k")) 0)]) 0 =
        some [(some (.one (.str "k")), some [("y", .none)])] ∧
      ¬ KeyShape 2 (.one (.str "k")) := by
  refine ⟨by decide +kernel, by simp [KeyShape]⟩

/-- **C29 fails for tables without data fields:** a row of such a table accepts a cell for any field. -/
theorem dataless_row_accepts_fields :
    viewTabAt (run ⟨[], [.dict ⟨["a"], [], []⟩ [] false], []⟩
      [.tab 0 (.getItem (.one (.str "k"))), .row 0 "anything" (.str "v")]) 0 =
        some [(some (.one (.str "k")), some [("anything", .str "v")])] := by
  decide +kernel

/-! ### Non-vacuity -/

/-- A two-field key, two data fields. -/
def demoClass2 : TabClass := ⟨["src", "dst"], ["cost", "cap"], [("cap", .num .pinf)]⟩

/-- A history on a table of that class. -/
def demoOps2 : List Op :=
  [.tab 0 (.setItem (.tup [.str "a", .str "b"]) (.dict [("cost", .num (.fin 3))])),
   .tab 0 (.setItem (.tup [.str "a"]) (.dict [])), .tab 0 (.getItem (.tup [.str "b", .str "c"])),
   .row 1 "cost" (.num (.fin 4)), .tab 0 (.getItem (.one (.str "zzz"))), .tab 0 (.getItem (.tup [.none, .none])),
   .tab 0 (.delItem (.tup [.none, .none]))]

example : (∀ op ∈ demoOps2, ¬ RawStore 0 op) ∧ demoClass2.dfs ≠ [] := by
  refine ⟨fun op hop => ?_, by decide⟩
  simp only [demoOps2, List.mem_cons, List.not_mem_nil, or_false] at hop
  rcases hop with rfl | rfl | rfl | rfl | rfl | rfl | rfl <;> simp [RawStore]

example : viewTabAt (run ⟨[], [.dict demoClass2 [] false], []⟩ demoOps2) 0 =
    some [(some (.tup [.str "a", .str "b"]), some [("cost", .num (.fin 3)), ("cap", .num .pinf)]),
      (some (.tup [.str "b", .str "c"]), some [("cost", .num (.fin 4)), ("cap", .num .pinf)])] := by decide +kernel

end Ticdat

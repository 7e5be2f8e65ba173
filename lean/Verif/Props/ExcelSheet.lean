import Verif.Model.ExcelIO
import Verif.Props.CsvTable
/-!
# C49: reading a sheet finds the columns by their headers and skips the rows above them
-/
namespace Ticdat
open Spec
set_option linter.unusedSimpArgs false

/-! ### Passing bare values -/

theorem goodRow_xlData (c : TabClass) (r : List Cell) : goodRow c.dfs (xlData c r) = goodRow c.dfs (.seq r) := by
  match r with
  | [] => rfl
  | [v] =>
    by_cases h : c.dfs.length = 1
    · simp only [xlData, if_pos h]
      simp [goodRow, h]
    · simp only [xlData, if_neg h]
  | _ :: _ :: _ => rfl

theorem initRow_xlData (c : TabClass) (r : List Cell) : initRow c (xlData c r) = initRow c (.seq r) := by
  match r with
  | [] => rfl
  | [v] =>
    by_cases h : c.dfs.length = 1
    · have hd : c.dfs ≠ [] := by
        intro e
        simp [e] at h
      simp only [xlData, if_pos h]
      unfold initRow rowFactory
      simp [hd, h]
    · simp only [xlData, if_neg h]
  | _ :: _ :: _ => rfl

theorem keyed_flat (c : TabClass) (d : PyDict KeyArg RowVal) (h : WellShaped c (.keyed d)) {A : Type} (k : List Cell → A) :
    PyDict.ofList ((tabRows (.keyed d)).map (fun r => (splitKey c.pks.length (.seq r), k (r.drop c.pks.length)))) =
      d.map (fun p => (p.1, k (p.2.map Prod.snd))) := by
  have hd : (tabRows (.keyed d)).map (fun r => (splitKey c.pks.length (.seq r), k (r.drop c.pks.length))) =
      d.map (fun p => (p.1, k (p.2.map Prod.snd))) := by
    unfold tabRows
    rw [List.map_map]
    apply List.map_congr_left
    intro p hp
    have h1 := (h.2.2 p hp).1
    have h2 := splitKey_flat _ p.1 (p.2.map Prod.snd) h1
    simp only [Function.comp_apply, h2, List.drop_left' (keyCells_length _ _ h1)]
  rw [hd, PyDict.ofList_of_nodup]
  unfold PyDict.keys
  rw [List.map_map]
  exact h.2.1

theorem init_of_readerX (c : TabClass) (hn : c.fields.Nodup) (tab : TabVal) (h : WellShaped c tab) :
    initTable c (readerTableX c (tabRows tab)) = some tab := by
  rw [← init_of_reader c hn tab h]
  unfold readerTableX readerTable
  cases tab with
  | plain rows =>
    have hpk : c.pks = [] := h.1
    simp only [hpk, ne_eq, not_true_eq_false, if_false]
    unfold initTable goodTableForInit
    simp only [hpk, ne_eq, not_true_eq_false, if_false, List.all_map, Function.comp_def, goodRow_xlData, List.mapM_map,
      initRow_xlData]
  | keyed d =>
    have hpk : c.pks ≠ [] := h.1
    simp only [hpk, ne_eq, not_false_eq_true, if_true]
    rw [keyed_flat c d h (xlData c), keyed_flat c d h RowIn.seq]
    unfold initTable goodTableForInit
    simp only [hpk, ne_eq, not_false_eq_true, if_true, PyDict.keys, List.all_map, Function.comp_def, goodRow_xlData,
      List.mapM_map, initRow_xlData, List.isEmpty_map, List.map_map]

theorem readerTableX_size (c : TabClass) (tab : TabVal) (h : WellShaped c tab) :
    (readerTableX c (tabRows tab)).size = tab.size := by
  unfold readerTableX
  cases tab with
  | plain rows => simp [h.1, TableIn.size, tabRows, TabVal.size]
  | keyed d =>
    have hpk : c.pks ≠ [] := h.1
    simp only [hpk, ne_eq, not_false_eq_true, if_true]
    rw [keyed_flat c d h (xlData c)]
    simp [TableIn.size, TabVal.size]

/-! ### What the reader sees of a sheet -/

theorem lastRow_append (pre : Grid) (r : List Cell) (h : blankRow r = false) :
    Grid.lastRow (pre ++ [r]) = pre.length + 1 := by
  unfold Grid.lastRow
  rw [List.reverse_append, List.reverse_singleton, List.singleton_append, List.dropWhile_cons]
  simp [h]

theorem prune_stop (g : Grid) (n : Nat) (r : List Cell) (hr : g[n]? = some r) (h : blankRow r = false) :
    g.prune (n + 1) = n + 1 := by
  unfold Grid.prune
  simp [hr, h]

theorem dropWhile_append_le {A : Type} (p : A → Bool) (l : List A) (x : A) (m : List A) (h : p x = false) :
    m.length + 1 ≤ ((l ++ x :: m).dropWhile p).length := by
  induction l with
  | nil => simp [h]
  | cons a l ih =>
    rw [List.cons_append, List.dropWhile_cons]
    split
    · exact ih
    · simp; omega

theorem lastCol_gt (g : Grid) (i j : Nat) (row : List Cell) (x : Cell) (hi : g[i]? = some row) (hj : row[j]? = some x)
    (h : x ≠ .none) : j < g.lastCol := by
  have h1 : j < (row.reverse.dropWhile (fun x => decide (x = .none))).length := by
    obtain ⟨hlt, hx⟩ := List.getElem?_eq_some_iff.mp hj
    have : row.reverse = (row.drop (j + 1)).reverse ++ x :: (row.take j).reverse := by
      conv => lhs; rw [← List.take_append_drop j row, List.drop_eq_getElem_cons hlt, hx]
      simp
    rw [this]
    have h2 := dropWhile_append_le (fun x => decide (x = Cell.none)) (row.drop (j + 1)).reverse x (row.take j).reverse
      (by simpa using h)
    simp only [List.length_reverse, List.length_take] at h2
    omega
  unfold Grid.lastCol
  have hm : row ∈ g := List.mem_of_getElem? hi
  clear hi
  induction g with
  | nil => simp at hm
  | cons a g ih =>
    rw [List.map_cons, List.foldr_cons]
    rcases List.mem_cons.mp hm with rfl | hm
    · omega
    · have := ih hm
      omega

theorem getD_getElem? (l : List Cell) (j : Nat) (x : Cell) (h : (l[j]?).getD .none = x) (hx : x ≠ .none) :
    l[j]? = some x := by
  cases hl : l[j]? with
  | none => rw [hl] at h; exact absurd h.symm hx
  | some y => rw [hl] at h; exact congrArg some h

/-- The rows a reader sees below the top rows: all of them. -/
theorem dims_of (kind : XlKind) (prune : Bool) (g : Grid) (last : List Cell) (hl : g.getLast? = some last)
    (hb : blankRow last = false) (ht : kind = .xls ∨ ∀ r, g.head? = some r → blankRow r = false) :
    (xlDims kind prune g).1 = g.length ∧ (xlDims kind prune g).2.1 = g.length ∧ g.lastCol ≤ (xlDims kind prune g).2.2 := by
  obtain ⟨pre, rfl⟩ : ∃ pre, g = pre ++ [last] := by
    rw [List.getLast?_eq_some_iff] at hl
    exact hl
  have h1 := lastRow_append pre last hb
  unfold xlDims
  cases kind with
  | xls => simp [h1]
  | xlsx =>
    have ht := ht.resolve_left (by simp)
    have h2 : Grid.topBlank (pre ++ [last]) = 0 := by
      unfold Grid.topBlank
      cases pre with
      | nil => simp [hb]
      | cons a pre => simp [ht a (by simp)]
    have h3 : Grid.prune (pre ++ [last]) (pre.length + 1) = pre.length + 1 :=
      prune_stop _ _ last (by simp) hb
    have e1 : max (pre.length + 1) 1 = pre.length + 1 := by omega
    simp only [h1, h2, e1, Nat.add_one_ne_zero, if_false, Nat.zero_add, Nat.add_sub_cancel, h3, List.length_append,
      List.length_singleton]
    cases prune <;> simp <;> omega

/-! ### Columns by header -/

namespace Spec

/-- The columns of the fields in a row of headers: each field has exactly one column whose header is text equal to the
name of the field up to case. -/
def HeaderColumns (cenv : CaseEnv) (header : List Cell) (fields : List String) (cols : List Nat) : Prop :=
  cols.length = fields.length ∧ ∀ (i : Nat) f j, fields[i]? = some f → cols[i]? = some j →
    ∀ j' : Nat, (∃ s, header[j']? = some (.str s) ∧ cenv.lower s.toList = cenv.lower f.toList) ↔ j' = j

/-- The cell of a row in a column as the reader sees it: `None` (in `.xls` files the empty text) if no cell is stored. -/
def SeenCell (kind : XlKind) (row : List Cell) (j : Nat) : Cell :=
  match row[j]?, kind with
  | some .none, .xls => .str ""
  | none, .xls => .str ""
  | none, .xlsx => .none
  | some x, _ => x

end Spec

theorem seenCell_eq (kind : XlKind) (g : Grid) (i j : Nat) (row : List Cell) (h : g[i]? = some row) :
    xlFill kind (g.at i j) = SeenCell kind row j := by
  unfold Grid.at SeenCell
  rw [h, Option.bind_some]
  cases row[j]? with
  | none => cases kind <;> rfl
  | some x => cases x <;> cases kind <;> rfl

theorem xlHeaderMatches_iff (cenv : CaseEnv) (f : String) (x : Cell) :
    xlHeaderMatches cenv f x = true ↔ ∃ s, x = .str s ∧ cenv.lower s.toList = cenv.lower f.toList := by
  unfold xlHeaderMatches
  cases x with
  | str s =>
    simp only [Bool.or_eq_true, decide_eq_true_eq, Cell.str.injEq, exists_eq_left']
    constructor
    · rintro (rfl | h)
      · rfl
      · exact h.symm
    · intro h; exact .inr h.symm
  | _ => simp

theorem mapM_getElem {A B : Type} (g : A → Option B) (l : List A) (l' : List B) (hl : l'.length = l.length)
    (h : ∀ (i : Nat) a b, l[i]? = some a → l'[i]? = some b → g a = some b) : l.mapM g = some l' := by
  rw [mapM_eq_some_iff]
  apply List.ext_getElem?
  intro i
  rw [List.getElem?_map, List.getElem?_map]
  cases ha : l[i]? with
  | none =>
    have : l'[i]? = none := by
      rw [List.getElem?_eq_none_iff] at ha ⊢
      omega
    rw [this]; rfl
  | some a =>
    have hlt : i < l'.length := by
      have := (List.getElem?_eq_some_iff.mp ha).1
      omega
    have hb := List.getElem?_eq_getElem hlt
    rw [hb, Option.map_some, Option.map_some, h i a _ ha hb]

theorem drop_range_map {A B : Type} (pre rows : List A) (n : Nat) (hn : n = pre.length) (g : Nat → B) (k : A → B)
    (h : ∀ i row, (pre ++ rows)[i]? = some row → g i = k row) :
    ((List.range (pre ++ rows).length).drop n).map g = rows.map k := by
  subst hn
  apply List.ext_getElem?
  intro i
  rw [List.getElem?_map, List.getElem?_map, List.getElem?_drop]
  by_cases hi : i < rows.length
  · rw [List.getElem?_range (by simp; omega), List.getElem?_eq_getElem hi]
    simp only [Option.map_some]
    rw [h (pre.length + i) rows[i]]
    rw [List.getElem?_append_right (by omega)]
    simp [List.getElem?_eq_getElem hi]
  · have h1 : (List.range (pre ++ rows).length)[pre.length + i]? = none := by
      rw [List.getElem?_eq_none_iff]; simp; omega
    have h2 : rows[i]? = none := by
      rw [List.getElem?_eq_none_iff]; omega
    rw [h1, h2]; rfl

theorem columns_single (cenv : CaseEnv) (kind : XlKind) (f : String) (hf : cenv.lower f.toList ≠ []) (g : Grid) (i : Nat)
    (header : List Cell) (hrow : g[i]? = some header) (j : Nat)
    (hcol : ∀ j' : Nat, (∃ s, header[j']? = some (.str s) ∧ cenv.lower s.toList = cenv.lower f.toList) ↔ j' = j) (n : Nat)
    (hn : g.lastCol ≤ n) :
    (List.range n).filter (fun j => xlHeaderMatches cenv f (xlFill kind (g.at i j))) = [j] := by
  have key : ∀ j' : Nat, xlHeaderMatches cenv f (xlFill kind (g.at i j')) = true ↔ j' = j := by
    intro j'
    rw [xlHeaderMatches_iff, seenCell_eq _ _ _ _ _ hrow, ← hcol j']
    have hfe : ∀ s, s = "" → cenv.lower s.toList ≠ cenv.lower f.toList := by
      rintro s rfl e
      exact hf e.symm
    unfold SeenCell
    constructor
    · rintro ⟨s, h1, h2⟩
      refine ⟨s, ?_, h2⟩
      split at h1
      · exact absurd h2 (hfe s (Cell.str.inj h1).symm)
      · exact absurd h2 (hfe s (Cell.str.inj h1).symm)
      · cases h1
      · rename_i hh _
        rw [hh, h1]
    · rintro ⟨s, h1, h2⟩
      exact ⟨s, by simp [h1], h2⟩
  rw [filter_eq_singleton _ List.nodup_range]
  refine ⟨?_, (key j).mpr rfl, fun x _ hx => (key x).mp hx⟩
  obtain ⟨s, hs, _⟩ := (hcol j).mpr rfl
  have := lastCol_gt _ _ j header _ hrow hs (by simp)
  simp only [List.mem_range]
  omega

/-- **C49.**  A sheet with some rows on top, a row of headers and rows of data, read with `row_offset` the number of rows on
top, is read as its rows of data, with the cells of each field taken from the column of that name: whatever the order of
the columns and whatever other columns and top rows there are.  For `.xlsx` files the first row of the sheet has to have
a cell (`xlsx_blank_top_rows_lose_data`), and the last row of data must not be blank (`xl_trailing_row_lost`). -/
theorem xl_sheet_read_partial (env : XlEnv) (cf : IOConf) (dv : Defaults) (o : XlOpts) (ho : o.headers = true) (t : String)
    (c : TabClass) (hne : c.fields ≠ []) (hf : ∀ f ∈ c.fields, env.case.lower f.toList ≠ []) (top : Grid)
    (header : List Cell) (rows : Grid) (hoff : o.offset t = top.length) (cols : List Nat)
    (hcols : HeaderColumns env.case header c.fields cols)
    (hlast : ∀ r, rows.getLast? = some r → blankRow r = false)
    (htop : o.kind = .xls ∨ ∀ r, top.head? = some r → blankRow r = false) :
    xlReadTable env cf dv o t c (top ++ header :: rows) =
      (rows.mapM (fun row => mapCells (xlReadCell env cf dv o t) c.fields (cols.map (SeenCell o.kind row)))).map
        (readerTableX c) := by
  obtain ⟨hlen, hcol⟩ := hcols
  have hhead : ∃ (j : Nat) (s : String), header[j]? = some (.str s) := by
    obtain ⟨f, hf0⟩ : ∃ f, c.fields[0]? = some f := by
      cases hc : c.fields with
      | nil => exact absurd hc hne
      | cons f _ => exact ⟨f, rfl⟩
    have hlt := (List.getElem?_eq_some_iff.mp hf0).1
    have hj := List.getElem?_eq_getElem (l := cols) (i := 0) (by omega)
    obtain ⟨s, hs, _⟩ := (hcol 0 f _ hf0 hj _).mpr rfl
    exact ⟨_, s, hs⟩
  have hhb : blankRow header = false := by
    obtain ⟨j, s, hs⟩ := hhead
    unfold blankRow
    rw [List.all_eq_false]
    exact ⟨_, List.mem_of_getElem? hs, by simp⟩
  have hl : ∃ last, (top ++ header :: rows).getLast? = some last ∧ blankRow last = false := by
    cases hr : rows.getLast? with
    | none =>
      have : rows = [] := List.getLast?_eq_none_iff.mp hr
      subst this
      exact ⟨header, by simp, hhb⟩
    | some r =>
      refine ⟨r, ?_, hlast r hr⟩
      rw [List.getLast?_append, List.getLast?_cons, hr]
      rfl
  obtain ⟨last, hl1, hl2⟩ := hl
  obtain ⟨d1, d2, d3⟩ := dims_of o.kind o.prune (top ++ header :: rows) last hl1 hl2 (by
    rcases htop with h | h
    · exact .inl h
    · right
      intro r hr
      cases top with
      | nil => simp at hr; exact hr ▸ hhb
      | cons a l => simp at hr; exact h r (by simp [hr]))
  have hrow : (top ++ header :: rows)[o.offset t]? = some header := by
    rw [hoff, List.getElem?_append_right (by omega)]
    simp
  have hx : xlColumns env.case o t c.fields (top ++ header :: rows) = some cols := by
    unfold xlColumns
    simp only [ho, if_true]
    rw [if_neg (by rw [d1, hoff]; simp)]
    refine mapM_getElem _ _ _ hlen (fun i f j hi hj => ?_)
    rw [columns_single env.case o.kind f (hf f (List.mem_of_getElem? hi)) _ _ _ hrow j (hcol i f j hi hj) _ d3]
  unfold xlReadTable
  rw [if_neg hne, hx, Option.bind_some, d2]
  congr 1
  have hidx := drop_range_map (top ++ [header]) rows (o.offset t + if o.headers = true then 1 else 0)
    (by rw [ho, hoff]; simp)
    (fun i => mapCells (xlReadCell env cf dv o t) c.fields (cols.map (fun j =>
      xlFill o.kind (Grid.at (top ++ header :: rows) i j))))
    (fun row => mapCells (xlReadCell env cf dv o t) c.fields (cols.map (SeenCell o.kind row)))
    (by
      intro i row hrow
      rw [List.append_assoc, List.singleton_append] at hrow
      simp only [seenCell_eq _ _ _ _ _ hrow])
  rw [List.append_assoc, List.singleton_append] at hidx
  apply option_ext_some
  intro l
  rw [mapM_eq_some_iff, mapM_eq_some_iff, hidx]

theorem lastCol_le_dims (kind : XlKind) (prune : Bool) (g : Grid) : g.lastCol ≤ (xlDims kind prune g).2.2 := by
  unfold xlDims
  cases kind with
  | xls => exact Nat.le_refl _
  | xlsx => cases prune <;> exact Nat.le_max_left _ _

/-- **C49, refusals.**  If a field has no column or more than one column in the row of headers (the row after `row_offset`
rows, taken as empty if there is none), the sheet is refused: no table is read from it. -/
theorem xl_missing_or_ambiguous (env : XlEnv) (cf : IOConf) (dv : Defaults) (o : XlOpts) (ho : o.headers = true) (t : String)
    (c : TabClass) (g : Grid) (f : String) (hfc : f ∈ c.fields) (hf : env.case.lower f.toList ≠ [])
    (h : ¬ ∃ j : Nat, ∀ j' : Nat, (∃ s, ((g[o.offset t]?).getD [])[j']? = some (.str s) ∧
      env.case.lower s.toList = env.case.lower f.toList) ↔ j' = j) :
    xlReadTable env cf dv o t c g = none := by
  suffices hx : xlColumns env.case o t c.fields g = none by
    unfold xlReadTable
    rw [hx]
    split <;> rfl
  unfold xlColumns
  simp only [ho, if_true]
  split
  · rfl
  · cases hm : c.fields.mapM (fun f =>
        match (List.range (xlDims o.kind o.prune g).2.2).filter
          (fun j => xlHeaderMatches env.case f (xlFill o.kind (g.at (o.offset t) j))) with
        | [j] => some j
        | _ => none) with
    | none => rfl
    | some cols =>
      exfalso
      apply h
      rw [mapM_eq_some_iff] at hm
      obtain ⟨i, hi⟩ := List.mem_iff_getElem?.mp hfc
      have hg := congrArg (fun l => l[i]?) hm
      simp only [List.getElem?_map, hi, Option.map_some] at hg
      cases hc : cols[i]? with
      | none => rw [hc] at hg; cases hg
      | some j =>
        rw [hc] at hg
        simp only [Option.map_some, Option.some.injEq] at hg
        refine ⟨j, ?_⟩
        have hs : (List.range (xlDims o.kind o.prune g).2.2).filter
            (fun j => xlHeaderMatches env.case f (xlFill o.kind (g.at (o.offset t) j))) = [j] := by
          split at hg
          · rename_i j0 hj0
            cases hg
            exact hj0
          · cases hg
        rw [filter_eq_singleton _ List.nodup_range] at hs
        obtain ⟨_, h2, h3⟩ := hs
        have key : ∀ j' : Nat, xlHeaderMatches env.case f (xlFill o.kind (g.at (o.offset t) j')) = true ↔
            ∃ s, ((g[o.offset t]?).getD [])[j']? = some (.str s) ∧ env.case.lower s.toList = env.case.lower f.toList := by
          intro j'
          rw [xlHeaderMatches_iff]
          have hfe : ∀ s, s = "" → env.case.lower s.toList ≠ env.case.lower f.toList := by
            rintro s rfl e
            exact hf e.symm
          cases hrow : g[o.offset t]? with
          | none =>
            unfold Grid.at
            simp only [hrow, Option.bind_none, Option.getD_none, List.getElem?_nil]
            constructor
            · rintro ⟨s, h1, h2⟩
              unfold xlFill at h1
              cases hk : o.kind <;> simp [hk] at h1
              exact absurd h2 (hfe s h1)
            · rintro ⟨s, h1, _⟩; cases h1
          | some header =>
            rw [seenCell_eq _ _ _ _ _ hrow]
            simp only [Option.getD_some]
            unfold SeenCell
            constructor
            · rintro ⟨s, h1, h2⟩
              refine ⟨s, ?_, h2⟩
              split at h1
              · exact absurd h2 (hfe s (Cell.str.inj h1).symm)
              · exact absurd h2 (hfe s (Cell.str.inj h1).symm)
              · cases h1
              · rename_i hh _
                rw [hh, h1]
            · rintro ⟨s, h1, h2⟩
              exact ⟨s, by simp [h1], h2⟩
        intro j'
        rw [← key]
        constructor
        · intro hj'
          apply h3 j' _ hj'
          obtain ⟨s, hs, _⟩ := (key j').mp hj'
          cases hrow : g[o.offset t]? with
          | none => rw [hrow] at hs; simp at hs
          | some header =>
            rw [hrow] at hs
            have := lastCol_gt _ _ j' header _ hrow hs (by simp)
            have := lastCol_le_dims o.kind o.prune g
            simp only [List.mem_range]
            omega
        · rintro rfl; exact h2

/-- **C49, without headers.**  The fields are the first columns in order. -/
theorem xl_sheet_read_no_headers_partial (env : XlEnv) (cf : IOConf) (dv : Defaults) (o : XlOpts) (ho : o.headers = false)
    (t : String) (c : TabClass) (hne : c.fields ≠ []) (top rows : Grid) (hoff : o.offset t = top.length)
    (hrows : rows ≠ []) (hlast : ∀ r, rows.getLast? = some r → blankRow r = false)
    (hwide : ∃ row ∈ top ++ rows, ∃ (j : Nat) (x : Cell), row[j]? = some x ∧ x ≠ .none ∧ c.fields.length ≤ j + 1)
    (htop : o.kind = .xls ∨ ∀ r, (top ++ rows).head? = some r → blankRow r = false) :
    xlReadTable env cf dv o t c (top ++ rows) =
      (rows.mapM (fun row => mapCells (xlReadCell env cf dv o t) c.fields
        ((List.range c.fields.length).map (SeenCell o.kind row)))).map (readerTableX c) := by
  obtain ⟨last, hl⟩ : ∃ last, rows.getLast? = some last := by
    cases hr : rows.getLast? with
    | none => exact absurd (List.getLast?_eq_none_iff.mp hr) hrows
    | some r => exact ⟨r, rfl⟩
  have hpos : 0 < rows.length := List.length_pos_iff.mpr hrows
  obtain ⟨d1, d2, d3⟩ := dims_of o.kind o.prune (top ++ rows) last (by rw [List.getLast?_append, hl]; rfl) (hlast last hl) htop
  have hx : xlColumns env.case o t c.fields (top ++ rows) = some (List.range c.fields.length) := by
    obtain ⟨row, hm, j, x, hj, hxn, hle⟩ := hwide
    obtain ⟨i, hi⟩ := List.mem_iff_getElem?.mp hm
    have := lastCol_gt _ _ j row _ hi hj hxn
    unfold xlColumns
    simp only [ho, Bool.false_eq_true, if_false, d1, List.length_append]
    rw [if_neg (by omega), if_neg (by rw [hoff]; omega), if_pos (by omega)]
  unfold xlReadTable
  rw [if_neg hne, hx, Option.bind_some, d2]
  congr 1
  have hidx := drop_range_map top rows (o.offset t + if o.headers = true then 1 else 0)
    (by rw [ho, hoff]; simp)
    (fun i => mapCells (xlReadCell env cf dv o t) c.fields ((List.range c.fields.length).map (fun j =>
      xlFill o.kind (Grid.at (top ++ rows) i j))))
    (fun row => mapCells (xlReadCell env cf dv o t) c.fields ((List.range c.fields.length).map (SeenCell o.kind row)))
    (by
      intro i row hrow
      simp only [seenCell_eq _ _ _ _ _ hrow])
  apply option_ext_some
  intro l
  rw [mapM_eq_some_iff, mapM_eq_some_iff, hidx]

/-- **C49 fails** for an `.xlsx` file with blank rows on top (and no more of them than rows of data), under the default
setting that prunes trailing empty rows: as many rows of data as there are blank rows on top are silently dropped from
the end. -/
theorem xlsx_blank_top_rows_lose_data (env : XlEnv) (cf : IOConf) (dv : Defaults) (o : XlOpts) (ho : o.headers = true)
    (hk : o.kind = .xlsx) (hp : o.prune = true) (t : String)
    (c : TabClass) (hne : c.fields ≠ []) (hf : ∀ f ∈ c.fields, env.case.lower f.toList ≠ []) (top : Grid)
    (header : List Cell) (rows : Grid) (hoff : o.offset t = top.length) (cols : List Nat)
    (hcols : HeaderColumns env.case header c.fields cols)
    (hrows : ∀ r ∈ rows, blankRow r = false) (htop : ∀ r ∈ top, blankRow r = true)
    (hle : top.length ≤ rows.length) :
    xlReadTable env cf dv o t c (top ++ header :: rows) =
      ((rows.take (rows.length - top.length)).mapM (fun row => mapCells (xlReadCell env cf dv o t) c.fields
        (cols.map (SeenCell o.kind row)))).map (readerTableX c) := by
  -- reading the sheet is reading it with the last rows cut off and one cell put above
  obtain ⟨hlen, hcol⟩ := hcols
  have hhb : blankRow header = false := by
    obtain ⟨f, hf0⟩ : ∃ f, c.fields[0]? = some f := by
      cases hc : c.fields with
      | nil => exact absurd hc hne
      | cons f _ => exact ⟨f, rfl⟩
    have hlt := (List.getElem?_eq_some_iff.mp hf0).1
    have hj := List.getElem?_eq_getElem (l := cols) (i := 0) (by omega)
    obtain ⟨s, hs, _⟩ := (hcol 0 f _ hf0 hj _).mpr rfl
    unfold blankRow
    rw [List.all_eq_false]
    exact ⟨_, List.mem_of_getElem? hs, by simp⟩
  have hg : ∀ i row, top.length ≤ i → (top ++ header :: rows)[i]? = some row → blankRow row = false := by
    intro i row hi h
    rw [List.getElem?_append_right hi] at h
    rcases List.mem_cons.mp (List.mem_of_getElem? h) with h | h
    · exact h ▸ hhb
    · exact hrows _ h
  have hlr : Grid.lastRow (top ++ header :: rows) = top.length + 1 + rows.length := by
    obtain ⟨pre, last, hpre⟩ : ∃ pre last, header :: rows = pre ++ [last] := by
      have : header :: rows ≠ [] := by simp
      exact ⟨_, _, (List.dropLast_concat_getLast this).symm⟩
    have hb : blankRow last = false := by
      refine hg (top.length + rows.length) last (by omega) ?_
      rw [List.getElem?_append_right (by omega), hpre]
      have := congrArg List.length hpre
      simp at this
      simp [this]
    rw [hpre, ← List.append_assoc, lastRow_append _ _ hb]
    have := congrArg List.length hpre
    simp at this
    simp
    omega
  have htb : Grid.topBlank (top ++ header :: rows) = top.length := by
    unfold Grid.topBlank
    rw [List.takeWhile_append_of_pos htop, List.takeWhile_cons, hhb]
    simp
  have hpr : Grid.prune (top ++ header :: rows) (rows.length + 1) = rows.length + 1 := by
    have hlt : rows.length < (top ++ header :: rows).length := by simp; omega
    exact prune_stop _ _ _ (List.getElem?_eq_getElem hlt) (hg _ _ hle (List.getElem?_eq_getElem hlt))
  have hd : xlDims o.kind o.prune (top ++ header :: rows) =
      (rows.length + 1, rows.length + 1, max (Grid.lastCol (top ++ header :: rows)) 1) := by
    unfold xlDims
    simp only [hk, hp, if_true, hlr, htb]
    have e1 : max (top.length + 1 + rows.length) 1 = top.length + 1 + rows.length := by omega
    have e2 : ¬ (top.length + 1 + rows.length = 0) := by omega
    have e3 : top.length + 1 + rows.length - (top.length + 1) + 1 = rows.length + 1 := by omega
    simp only [e1, if_neg e2, e3, hpr, Nat.add_one_ne_zero, if_false]
  have hrow : (top ++ header :: rows)[o.offset t]? = some header := by
    rw [hoff, List.getElem?_append_right (by omega)]
    simp
  have hx : xlColumns env.case o t c.fields (top ++ header :: rows) = some cols := by
    unfold xlColumns
    simp only [ho, if_true, hd]
    rw [if_neg (by rw [hoff]; omega)]
    refine mapM_getElem _ _ _ hlen (fun i f j hi hj => ?_)
    rw [columns_single env.case o.kind f (hf f (List.mem_of_getElem? hi)) _ _ _ hrow j (hcol i f j hi hj)]
    have := Nat.le_max_left (Grid.lastCol (top ++ header :: rows)) 1
    exact this
  unfold xlReadTable
  rw [if_neg hne, hx, Option.bind_some, hd]
  congr 1
  have hidx := drop_range_map (top ++ [header]) (rows.take (rows.length - top.length))
    (o.offset t + if o.headers = true then 1 else 0)
    (by rw [ho, hoff]; simp)
    (fun i => mapCells (xlReadCell env cf dv o t) c.fields (cols.map (fun j =>
      xlFill o.kind (Grid.at (top ++ header :: rows) i j))))
    (fun row => mapCells (xlReadCell env cf dv o t) c.fields (cols.map (SeenCell o.kind row)))
    (by
      intro i row hrow
      have : (top ++ header :: rows)[i]? = some row := by
        have hi := (List.getElem?_eq_some_iff.mp hrow).1
        rw [List.append_assoc, List.singleton_append] at hrow
        rw [← hrow]
        have e : top ++ header :: rows = (top ++ header :: rows.take (rows.length - top.length)) ++
            rows.drop (rows.length - top.length) := by
          simp
        rw [e, List.getElem?_append_left]
        simpa using hi
      simp only [seenCell_eq _ _ _ _ _ this])
  have hlen2 : (top ++ [header] ++ rows.take (rows.length - top.length)).length = rows.length + 1 := by
    simp; omega
  rw [hlen2] at hidx
  apply option_ext_some
  intro l
  rw [mapM_eq_some_iff, mapM_eq_some_iff, hidx]

end Ticdat

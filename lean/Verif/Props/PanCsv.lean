import Verif.Spec.PanCsv
import Verif.Props.PanFiles
/-!
# C81: the types of columns in csv files
-/
set_option linter.unusedSectionVars false
set_option linter.unusedSimpArgs false
namespace Ticdat
open Spec

/-! ### Which fields are read as text -/

theorem csv_truthy_iff (s : Strings) : s.truthy = true ↔ s ≠ .oneOf [] := by
  cases s with
  | any => simp [Strings.truthy]
  | oneOf l => cases l <;> simp [Strings.truthy]

/-- **C81 (which fields).**  The reader asks pandas for text in exactly these columns: fields declared as text, and the key and
the value of the parameters table of a factory with declared parameters. -/
theorem csv_text_columns (cf : IOConf) (t : String) (c : TabClass) (f : String) :
    dtypeIsStr cf t c f = true ↔ TextField cf t f ∨ CsvParamField cf t c f := by
  unfold dtypeIsStr
  rw [Bool.or_eq_true]
  apply or_congr
  · unfold TextField
    rw [at_eq_typeOf]
    cases typeOf cf.types t f with
    | none => simp
    | some td => simp [csv_truthy_iff, and_assoc]
  · simp [CsvParamField, and_assoc, and_left_comm]

/-! ### What is read -/

theorem readAs_na {lib : PanCsvLib} {s : String} (h : lib.na s = true) (k : ColKind) : readAs lib k s = .nan := by
  unfold readAs; rw [if_pos h]

theorem readAs_text {lib : PanCsvLib} {s : String} (h : lib.na s = false) : readAs lib .text s = .str s := by
  unfold readAs; rw [if_neg (by simp [h])]

theorem readAs_number {lib : PanCsvLib} {s : String} (h : lib.na s = false) {x : XNum} (hx : lib.number s = some x) :
    readAs lib .number s = .num x := by
  unfold readAs; rw [if_neg (by simp [h])]; simp [hx]

theorem readAs_bool {lib : PanCsvLib} {s : String} (h : lib.na s = false) {b : Bool} (hx : lib.bool s = some b) :
    readAs lib .bool s = .bool b := by
  unfold readAs; rw [if_neg (by simp [h])]; simp [hx]

theorem csvPanText_null {env : TextEnv} {x : Cell} (h : Null x) : csvPanText env x = "" := by
  unfold csvPanText; rw [if_pos ((isNull_iff x).2 h)]

theorem csvPanText_of {env : TextEnv} {x : Cell} (h : ¬ Null x) : csvPanText env x = env.text x := by
  unfold csvPanText; rw [if_neg (fun e => h ((isNull_iff x).1 e))]

theorem not_null_str (s : String) : ¬ Null (.str s) := by simp [Null]
theorem not_null_num (x : XNum) : ¬ Null (.num x) := by simp [Null]
theorem not_null_bool (b : Bool) : ¬ Null (.bool b) := by simp [Null]
theorem not_null_dt (d : Nat) : ¬ Null (.dt d) := by simp [Null]

theorem csvReread_ok {lib : PanCsvLib} {env : TextEnv} {cf : IOConf} {t : String} {c : TabClass} {w : Frame} (hw : FrameOK w) :
    FrameOK (csvReread lib env cf t c w) := by
  refine ⟨hw.cols, by simp [csvReread], ?_⟩
  intro r hr
  obtain ⟨x, hx, e⟩ := List.mem_map.1 hr
  subst e
  simp [csvReread, (hw.rows x hx).2]

theorem reread_cell {lib : PanCsvLib} {env : TextEnv} {cf : IOConf} {t : String} {c : TabClass} {w : Frame} (hw : FrameOK w)
    {l : Label} (hl : l ∈ w.cols) {r : List Cell × List Cell} (hr : r ∈ w.rows) :
    colCell (csvReread lib env cf t c w) ([], (w.cols.zip r.2).map (fun p =>
      readAs lib (csvColKind lib env cf t c w p.1) (csvPanText env p.2))) l =
      readAs lib (csvColKind lib env cf t c w l) (csvPanText env (colCell w r l)) := by
  have hi : w.cols.idxOf l < w.cols.length := List.idxOf_lt_length_of_mem hl
  have hi2 : w.cols.idxOf l < r.2.length := by rw [(hw.rows r hr).2]; exact hi
  unfold colCell
  show (((w.cols.zip r.2).map _)[w.cols.idxOf l]?).getD _ = _
  rw [List.getElem?_map, List.getElem?_eq_getElem (by rw [List.length_zip]; omega), List.getElem_zip,
    List.getElem?_eq_getElem hi2]
  simp

/-- The column of what is read. -/
theorem reread_column {lib : PanCsvLib} {env : TextEnv} {cf : IOConf} {t : String} {c : TabClass} {w : Frame} (hw : FrameOK w)
    {f : String} (hf : Label.name f ∈ w.cols) :
    column (csvReread lib env cf t c w) f =
      (column w f).map (fun x => readAs lib (csvColKind lib env cf t c w (.name f)) (csvPanText env x)) := by
  unfold column
  rw [List.map_map]
  show (w.rows.map _).map _ = _
  rw [List.map_map]
  apply List.map_congr_left
  intro r hr
  exact reread_cell hw hf hr

theorem textKept_readAs {lib : PanCsvLib} {env : TextEnv} (he : lib.na "" = true) (x : Cell) :
    TextKept lib env x (readAs lib .text (csvPanText env x)) := by
  refine ⟨?_, ?_, ?_⟩
  · intro h
    rw [csvPanText_null h, readAs_na he]
  · intro h hn
    rw [csvPanText_of h, readAs_na hn]
  · intro h hn
    rw [csvPanText_of h, readAs_text hn]

/-- **C81 (fields declared as text).**  Whatever the table, a column that is read as text comes back cell by cell: the text of
the cell, or NaN for a null or a text that pandas takes for a missing value. -/
theorem csv_text_exact {lib : PanCsvLib} {env : TextEnv} (he : lib.na "" = true) {cf : IOConf} {t : String} {c : TabClass} {w : Frame}
    (hw : FrameOK w) {f : String} (hf : Label.name f ∈ w.cols) (hx : TextField cf t f ∨ CsvParamField cf t c f) :
    Pairwise2 (TextKept lib env) (column w f) (column (csvReread lib env cf t c w) f) := by
  rw [reread_column hw hf]
  have hk : csvColKind lib env cf t c w (.name f) = .text := by
    unfold csvColKind
    exact if_pos ((csv_text_columns _ _ _ _).2 hx)
  rw [hk]
  generalize column w f = col
  induction col with
  | nil => exact .nil
  | cons x l ih => exact .cons (textKept_readAs he x) ih

/-- The type of a column that is not read as text. -/
theorem csvColKind_infer {lib : PanCsvLib} {env : TextEnv} {cf : IOConf} {t : String} {c : TabClass} {w : Frame} (hw : FrameOK w)
    {f : String} (hf : Label.name f ∈ w.cols) (hx : ¬ (TextField cf t f ∨ CsvParamField cf t c f)) :
    csvColKind lib env cf t c w (.name f) = inferKind lib ((column w f).map (csvPanText env)) := by
  unfold csvColKind
  have h0 : dtypeIsStr cf t c f = false := by
    rw [← Bool.not_eq_true]
    exact fun h => hx ((csv_text_columns _ _ _ _).1 h)
  show (if dtypeIsStr cf t c f = true then _ else _) = _
  rw [if_neg (by simp [h0])]
  congr 1
  unfold column
  rw [List.map_map]
  apply List.map_congr_left
  intro r hr
  rw [FrameOK.cell_eq hw hr, if_pos hf]
  rfl

theorem inferKind_number {lib : PanCsvLib} {texts : List String} (h : ∀ s ∈ texts, lib.na s = true ∨ ∃ x, lib.number s = some x) :
    inferKind lib texts = .number := by
  unfold inferKind
  rw [if_pos]
  rw [List.all_eq_true]
  intro s hs
  rw [Bool.or_eq_true]
  rcases h s hs with h | ⟨x, h⟩
  · exact .inl h
  · exact .inr (by rw [h]; rfl)

theorem inferKind_bool {lib : PanCsvLib} {texts : List String} (h : ∀ s ∈ texts, lib.na s = true ∨ ∃ x, lib.bool s = some x)
    {s : String} (hs : s ∈ texts) (hna : lib.na s = false) (hnum : lib.number s = none) : inferKind lib texts = .bool := by
  unfold inferKind
  rw [if_neg, if_pos]
  · rw [List.all_eq_true]
    intro s hs
    rw [Bool.or_eq_true]
    rcases h s hs with h | ⟨x, h⟩
    · exact .inl h
    · exact .inr (by rw [h]; rfl)
  · rw [List.all_eq_true]
    intro hall
    have := hall s hs
    rw [hna, hnum] at this
    cases this

theorem inferKind_text {lib : PanCsvLib} {texts : List String} {s : String} (hs : s ∈ texts) (h : PlainText lib s) :
    inferKind lib texts = .text := by
  obtain ⟨h1, h2, h3⟩ := h
  unfold inferKind
  rw [if_neg, if_neg]
  · rw [List.all_eq_true]
    intro hall
    have := hall s hs
    rw [h1, h3] at this
    cases this
  · rw [List.all_eq_true]
    intro hall
    have := hall s hs
    rw [h1, h2] at this
    cases this

/-- **C81 (fields not declared as text).**  If every text of the column is a missing value or a number for pandas, numbers come
back: text is not kept, whatever it was. -/
theorem csv_numbers_exact {lib : PanCsvLib} {env : TextEnv} {cf : IOConf} {t : String} {c : TabClass} {w : Frame} (hw : FrameOK w)
    {f : String} (hf : Label.name f ∈ w.cols) (hx : ¬ (TextField cf t f ∨ CsvParamField cf t c f))
    (hall : ∀ x ∈ column w f, Null x ∨ lib.na (env.text x) = true ∨ ∃ y, lib.number (env.text x) = some y) (he : lib.na "" = true) :
    ∀ (i : Nat) x, (column w f)[i]? = some x → ∃ z, (column (csvReread lib env cf t c w) f)[i]? = some z ∧
      ((Null x → z = .nan) ∧ (¬ Null x → lib.na (env.text x) = true → z = .nan) ∧
        (¬ Null x → lib.na (env.text x) = false → ∃ y, z = .num y ∧ lib.number (env.text x) = some y)) := by
  intro i x hi
  have hmem := List.mem_of_getElem? hi
  have hk : csvColKind lib env cf t c w (.name f) = .number := by
    rw [csvColKind_infer hw hf hx]
    apply inferKind_number
    intro s hs
    obtain ⟨y, hy, e⟩ := List.mem_map.1 hs
    subst e
    rcases Classical.em (Null y) with hn | hn
    · rw [csvPanText_null hn]; exact .inl he
    · rw [csvPanText_of hn]
      exact (hall y hy).resolve_left hn
  rw [reread_column hw hf, List.getElem?_map, hi, hk]
  refine ⟨readAs lib .number (csvPanText env x), rfl, ?_, ?_, ?_⟩
  · intro h; rw [csvPanText_null h, readAs_na he]
  · intro h hn; rw [csvPanText_of h, readAs_na hn]
  · intro h hn
    rcases (hall x hmem).resolve_left h with h' | ⟨y, h'⟩
    · rw [hn] at h'; cases h'
    · exact ⟨y, by rw [csvPanText_of h, readAs_number hn h'], h'⟩

/-! ### What is handed over -/

/-- What writing may make of a cell: a number may become another number or `None`. -/
def Shape (x y : Cell) : Prop :=
  y = x ∨ ((∃ a, x = .num a) ∧ (Null y ∨ ∃ b, y = .num b)) ∨ (Null x ∧ Null y)

theorem shape_null {x y : Cell} (h : Shape x y) (hx : Null x) : Null y := by
  rcases h with h | ⟨⟨a, h⟩, _⟩ | h
  · rw [h]; exact hx
  · subst h; exact absurd hx (not_null_num a)
  · exact h.2

theorem shape_num {x y : Cell} (h : Shape x y) {a : XNum} (hx : x = .num a) : Null y ∨ ∃ b, y = .num b := by
  rcases h with h | ⟨_, h⟩ | h
  · exact .inr ⟨a, h.trans hx⟩
  · exact h
  · exact .inl h.2

theorem shape_other {x y : Cell} (h : Shape x y) (hx : ¬ Null x) (hn : ∀ a, x ≠ .num a) : y = x := by
  rcases h with h | ⟨⟨a, h⟩, _⟩ | h
  · exact h
  · exact absurd h (hn a)
  · exact absurd h.1 hx

theorem shape_handed {env : TextEnv} {cf : IOConf} {t f : String} {x w : Cell} (h : Handed env cf true t f x w) : Shape x w := by
  unfold Handed at h
  split at h
  · exact .inl h
  · next q =>
    obtain ⟨h1, h2, h3⟩ := h
    by_cases e1 : x = .num .pinf
    · exact .inr (.inl ⟨⟨_, e1⟩, .inr ⟨_, h1 e1⟩⟩)
    · by_cases e2 : x = .num .ninf
      · exact .inr (.inl ⟨⟨_, e2⟩, .inr ⟨_, h2 e2⟩⟩)
      · exact .inl (h3 e1 e2)
  · rcases h with ⟨_, y, e, _, hw⟩ | ⟨_, h⟩
    · exact .inr (.inl ⟨⟨y, e⟩, .inl (.inl hw)⟩)
    · exact .inl h

theorem shape_write {env : TextEnv} {cf : IOConf} {t f : String} {x w : Cell} (h : writeCell env cf t f x = some w) : Shape x w := by
  unfold writeCell at h
  split at h
  · cases h
    by_cases hn : Null x
    · rw [if_pos ((isNull_iff x).2 hn)]
      exact .inr (.inr ⟨hn, .inl rfl⟩)
    · rw [if_neg (fun e => hn ((isNull_iff x).1 e))]
      exact .inl rfl
  · split at h
    · rw [Option.map_eq_some_iff] at h
      obtain ⟨b, _, e⟩ := h
      subst e
      cases b with
      | none => exact .inl rfl
      | some pos =>
        show Shape x (if x = .num (infOf pos) then .none else x)
        by_cases e : x = .num (infOf pos)
        · rw [if_pos e]; exact .inr (.inl ⟨⟨_, e⟩, .inl (.inl rfl)⟩)
        · rw [if_neg e]; exact .inl rfl
    · split at h
      · cases h; exact .inr (.inl ⟨⟨_, rfl⟩, .inr ⟨_, rfl⟩⟩)
      · cases h; exact .inl rfl
    · cases h; exact .inl rfl

/-- The frame that is handed to pandas, column by column. -/
theorem handed_column {env : TextEnv} {cf : IOConf} (hq : ∀ q, cf.flag = .num q → 0 < q) {t : String} {c : TabClass}
    (hn : c.fields.Nodup) (hpar : t = "parameters" → cf.params ≠ [] → c.dfs.length = 1) {v : Frame} (hv : FrameOK v)
    (hall : ∀ f ∈ c.fields, Label.name f ∈ v.cols) {w : Frame} (hw : panPreAny env cf t c v = some w) :
    FrameOK w ∧ w.cols = c.fields.map .name ∧ ∃ h : String → Cell → Cell, (∀ f ∈ c.fields, column w f = (column v f).map (h f)) ∧
      ∀ f ∈ c.fields, ∀ x ∈ column v f, Shape x (h f x) := by
  obtain ⟨hok, hc, h, hr, hs⟩ := pre_any_rows hq (fun _ _ x => some x) hn hpar hv hall hw
  refine ⟨hok, hc, h, ?_, ?_⟩
  · intro f hf
    have h1 : fieldRows c w = v.rows.map (fun r => c.fields.map (fun f => h f (colCell v r (.name f)))) :=
      (fieldRows_self hn hok hc).trans hr
    have h2 := congrArg (List.map (fun r : List Cell => (r[c.fields.idxOf f]?).getD .none)) h1
    have hi : c.fields.idxOf f < c.fields.length := List.idxOf_lt_length_of_mem hf
    unfold fieldRows at h2
    rw [List.map_map, List.map_map] at h2
    unfold column
    rw [List.map_map]
    have e1 : ∀ g : String → Cell, ((c.fields.map g)[c.fields.idxOf f]?).getD .none = g f := by
      intro g
      rw [List.getElem?_map, List.getElem?_eq_getElem hi]
      simp
    simpa only [Function.comp_def, e1] using h2
  · intro f hf x _
    have := hs f hf x
    unfold panPgCell at this
    split at this
    · have := Option.some.inj this
      rw [← this]
      split
      · next hh => exact .inr (.inr ⟨hh.2.2, .inl rfl⟩)
      · exact .inl rfl
    · unfold pgCell at this
      cases hwc : writeCell env cf t f x with
      | none => rw [hwc] at this; cases this
      | some y =>
        rw [hwc] at this
        have := Option.some.inj this
        rw [← this]
        exact shape_write hwc

/-! ### What csv keeps -/

/-- The type of the columns of the files of an object. -/
def csvKindAt (lib : PanCsvLib) (env : TextEnv) (cf : IOConf) (schema : List (String × TabClass)) (dat : PyDict String Frame)
    (t f : String) : ColKind :=
  match PyDict.get? schema t, (PyDict.get? schema t).bind (fun c => (PyDict.get? dat t).bind (panPreAny env cf t c)) with
  | some c, some w => if Label.name f ∈ w.cols then csvColKind lib env cf t c w (.name f) else .text
  | _, _ => .text

/-- What is read for the cells of an object. -/
def csvStoreOf (lib : PanCsvLib) (env : TextEnv) (cf : IOConf) (schema : List (String × TabClass)) (dat : PyDict String Frame) : Store :=
  fun t f x => some (readAs lib (csvKindAt lib env cf schema dat t f) (csvPanText env x))

theorem csvKindAt_eq {lib : PanCsvLib} {env : TextEnv} {cf : IOConf} {schema : List (String × TabClass)} {dat : PyDict String Frame}
    {t : String} {c : TabClass} (hc : PyDict.get? schema t = some c) {v w : Frame} (hv : PyDict.get? dat t = some v)
    (hw : panPreAny env cf t c v = some w) (f : String) :
    csvKindAt lib env cf schema dat t f = if Label.name f ∈ w.cols then csvColKind lib env cf t c w (.name f) else .text := by
  unfold csvKindAt
  rw [hc, Option.bind_some, hv, Option.bind_some, hw]

/-- pandas reads the files as `csvStoreOf` says. -/
theorem csvPandas_keeps {lib : PanCsvLib} {env : TextEnv} {cf : IOConf} {schema : List (String × TabClass)} {dat : PyDict String Frame}
    {tc : String × TabClass} (hc : PyDict.get? schema tc.1 = some tc.2) (hn : tc.2.fields.Nodup) {v w : Frame}
    (hv : PyDict.get? dat tc.1 = some v) (hw : panPreAny env cf tc.1 tc.2 v = some w) (hok : FrameOK w)
    (hcols : w.cols = tc.2.fields.map .name) :
    ∃ u, csvPandas lib env cf schema tc.1 w = some u ∧ PanKept (csvStoreOf lib env cf schema dat) tc.1 tc.2 w u := by
  refine ⟨csvReread lib env cf tc.1 tc.2 w, by unfold csvPandas; rw [hc]; rfl, csvReread_ok hok, rfl, ?_, ?_⟩
  · intro f hf
    show _ ∈ w.cols
    rw [hcols]
    exact List.mem_map.2 ⟨f, hf, rfl⟩
  · refine ⟨fieldRows tc.2 (csvReread lib env cf tc.1 tc.2 w), ?_, pairwise2_self (fun r => pairwise2_self (fun _ => .inl rfl) r) _⟩
    apply (storedRows_iff _ _ _ _ (fieldRows_length _ w)).mp
    have e : fieldRows tc.2 (csvReread lib env cf tc.1 tc.2 w) = (fieldRows tc.2 w).map (fun r =>
        (tc.2.fields.zip r).map (fun p => readAs lib (csvKindAt lib env cf schema dat tc.1 p.1) (csvPanText env p.2))) := by
      unfold fieldRows
      rw [List.map_map]
      show (w.rows.map _).map _ = _
      rw [List.map_map]
      apply List.map_congr_left
      intro r hr
      show tc.2.fields.map _ = ((tc.2.fields.zip (tc.2.fields.map _)).map _)
      rw [List.zip_map_right, List.map_map]
      have hz : ∀ l : List String, l.zip l = l.map (fun a => (a, a)) := by
        intro l; induction l with
        | nil => rfl
        | cons a l ih => rw [List.zip_cons_cons, ih]; rfl
      rw [hz, List.map_map]
      apply List.map_congr_left
      intro f hf
      have hfc : Label.name f ∈ w.cols := by rw [hcols]; exact List.mem_map.2 ⟨f, hf, rfl⟩
      show _ = readAs lib (csvKindAt lib env cf schema dat tc.1 f) (csvPanText env (colCell w r (.name f)))
      rw [csvKindAt_eq hc hv hw, if_pos hfc]
      exact reread_cell hok hfc hr
    rw [e]
    apply mapM_eq_map
    intro r hr
    unfold mapCells
    apply mapM_eq_map
    intro p _
    rfl

/-- A column that csv keeps: what is read for a cell, from what was handed over for it. -/
theorem csvColumn_kept {lib : PanCsvLib} {env : TextEnv} (hT : TextOK env) (hL : CsvLibOK env lib) {cf : IOConf} {t : String}
    {c : TabClass} {w : Frame} (hw : FrameOK w) {f : String} (hf : Label.name f ∈ w.cols) (hp : ¬ CsvParamField cf t c f) {col : List Cell}
    (hcol : CsvColumn env lib cf t f col) {h : Cell → Cell} (hwc : column w f = col.map h) (hsh : ∀ x ∈ col, Shape x (h x))
    {x : Cell} (hx : x ∈ col) {y : Cell} (hy : Shape x y) :
    SameOrNull y (readAs lib (csvColKind lib env cf t c w (.name f)) (csvPanText env y)) ∨
      (∃ d, x = .dt d) ∧ ∃ td d s, typeOf cf.types t f = some td ∧ td.datetime = true ∧ y = .dt d ∧
        readAs lib (csvColKind lib env cf t c w (.name f)) (csvPanText env y) = .str s ∧ env.date (.str s) = some d := by
  have hnull : ∀ k, Null y → SameOrNull y (readAs lib k (csvPanText env y)) := by
    intro k hn
    rw [csvPanText_null hn, readAs_na hL.empty]
    exact .inr ⟨hn, .inr rfl⟩
  rcases hcol with ⟨htf, hall⟩ | ⟨htf, hcol⟩
  · left
    have hk : csvColKind lib env cf t c w (.name f) = .text := by
      unfold csvColKind
      exact if_pos ((csv_text_columns _ _ _ _).2 (.inl htf))
    rw [hk]
    rcases hall x hx with hn | ⟨s, e, hna⟩
    · exact hnull _ (shape_null hy hn)
    · have e2 := shape_other hy (by rw [e]; exact not_null_str s) (by intro a; rw [e]; intro h; cases h)
      rw [e2, e, csvPanText_of (not_null_str s), hT.str, readAs_text hna]
      exact .inl rfl
  · have hno : ¬ (TextField cf t f ∨ CsvParamField cf t c f) := fun h => h.elim htf hp
    rw [csvColKind_infer hw hf hno, hwc]
    rcases hcol with hall | ⟨hall, s, hs, hpl⟩ | ⟨hall, hne⟩ | ⟨⟨td, htd, hdt⟩, hall⟩
    · left
      rw [inferKind_number]
      · rcases hall x hx with hn | ⟨a, e⟩
        · exact hnull _ (shape_null hy hn)
        · rcases shape_num hy e with hn | ⟨b, e2⟩
          · exact hnull _ hn
          · rw [e2, csvPanText_of (not_null_num b), readAs_number (hL.number b).1 (hL.number b).2]
            exact .inl rfl
      · intro s hs
        obtain ⟨z, hz, e⟩ := List.mem_map.1 hs
        obtain ⟨x', hx', e'⟩ := List.mem_map.1 hz
        subst e e'
        have hz : Null (h x') ∨ ∃ b, h x' = .num b := by
          rcases hall x' hx' with hn | ⟨a, e⟩
          · exact .inl (shape_null (hsh x' hx') hn)
          · exact shape_num (hsh x' hx') e
        rcases hz with hn | ⟨b, e⟩
        · rw [csvPanText_null hn]; exact .inl hL.empty
        · rw [e, csvPanText_of (not_null_num b)]; exact .inr ⟨b, (hL.number b).2⟩
    · left
      rw [inferKind_text (s := s) _ hpl]
      · rcases hall x hx with hn | ⟨s, e, hna⟩
        · exact hnull _ (shape_null hy hn)
        · have e2 := shape_other hy (by rw [e]; exact not_null_str s) (by intro a; rw [e]; intro h; cases h)
          rw [e2, e, csvPanText_of (not_null_str s), hT.str, readAs_text hna]
          exact .inl rfl
      · refine List.mem_map.2 ⟨h (.str s), List.mem_map.2 ⟨_, hs, rfl⟩, ?_⟩
        rw [shape_other (hsh _ hs) (not_null_str s) (by intro a h; cases h), csvPanText_of (not_null_str s), hT.str]
    · left
      have hex : ∃ x' ∈ col, ∃ b, x' = .bool b ∧ lib.na (env.text x') = false ∧ lib.number (env.text x') = none ∧
          lib.bool (env.text x') = some b := by
        apply Classical.byContradiction
        intro hc
        apply hne
        intro x' hx'
        rcases hall x' hx' with hn | hb
        · exact hn
        · exact absurd ⟨x', hx', hb⟩ hc
      obtain ⟨x', hx', b', e', h1, h2, h3⟩ := hex
      have hsame : ∀ z b, z ∈ col → z = .bool b → h z = z := by
        intro z b hz e
        exact shape_other (hsh z hz) (by rw [e]; exact not_null_bool b) (by intro a; rw [e]; intro h; cases h)
      rw [inferKind_bool (s := env.text x') _ _ h1 h2]
      · rcases hall x hx with hn | ⟨b, e, k1, k2, k3⟩
        · exact hnull _ (shape_null hy hn)
        · have e2 := shape_other hy (by rw [e]; exact not_null_bool b) (by intro a; rw [e]; intro h; cases h)
          rw [e2, csvPanText_of (by rw [e]; exact not_null_bool b), readAs_bool k1 k3]
          exact .inl e
      · intro s hs
        obtain ⟨z, hz, e⟩ := List.mem_map.1 hs
        obtain ⟨x2, hx2, e2⟩ := List.mem_map.1 hz
        subst e e2
        rcases hall x2 hx2 with hn | ⟨b, e, k1, k2, k3⟩
        · rw [csvPanText_null (shape_null (hsh x2 hx2) hn)]; exact .inl hL.empty
        · rw [hsame x2 b hx2 e, csvPanText_of (by rw [e]; exact not_null_bool b)]
          exact .inr ⟨b, k3⟩
      · refine List.mem_map.2 ⟨h x', List.mem_map.2 ⟨_, hx', rfl⟩, ?_⟩
        rw [hsame x' b' hx' e', csvPanText_of (by rw [e']; exact not_null_bool b')]
    · rcases hall x hx with hn | ⟨d, e, hpl, hd⟩
      · exact .inl (hnull _ (shape_null hy hn))
      · right
        have hnd : ¬ Null x := by rw [e]; exact not_null_dt d
        have hsame : ∀ z, Shape x z → z = x := fun z hz =>
          shape_other hz hnd (by intro a; rw [e]; intro h; cases h)
        rw [inferKind_text (s := env.text x) _ hpl]
        · refine ⟨⟨d, e⟩, td, d, env.text x, htd, hdt, (hsame y hy).trans e, ?_, hd⟩
          rw [hsame y hy, csvPanText_of hnd, readAs_text hpl.1]
        · refine List.mem_map.2 ⟨h x, List.mem_map.2 ⟨_, hx, rfl⟩, ?_⟩
          rw [hsame _ (hsh x hx), csvPanText_of hnd]

theorem csvPanTable_safe {lib : PanCsvLib} {env : TextEnv} (hT : TextOK env) (hL : CsvLibOK env lib) {cf : IOConf}
    (hq : ∀ q, cf.flag = .num q → 0 < q) {schema : List (String × TabClass)} {dat : PyDict String Frame}
    {tc : String × TabClass} (hc : PyDict.get? schema tc.1 = some tc.2) (hn : tc.2.fields.Nodup) {v : Frame}
    (hv : PyDict.get? dat tc.1 = some v) (hok : FrameOK v) (hcols : ∀ f ∈ tc.2.fields, Label.name f ∈ v.cols)
    (hs : CsvPanTable env lib cf tc.1 tc.2 v) : PgPanSafe env cf (csvStoreOf lib env cf schema dat) tc.1 tc.2 v := by
  obtain ⟨hs1, hs2, hs3, hs4⟩ := hs
  obtain ⟨t, c⟩ := tc
  simp only at *
  have hpar : t = "parameters" → cf.params ≠ [] → c.dfs.length = 1 := by
    intro h1 h2
    obtain ⟨k, f, _, e, _⟩ := hs1 ⟨h1, h2⟩
    rw [e]; rfl
  obtain ⟨w, hw⟩ := pre_any_some hq (t := t) hn hok hcols (fun ht hfl f hf => (hs4 ht f hf).2.1 hfl |>.1)
  obtain ⟨hwok, hwc, h, hcol, hsh⟩ := handed_column hq hn hpar hok hcols hw
  have hin : ∀ f ∈ c.fields, Label.name f ∈ w.cols := by
    intro f hf; rw [hwc]; exact List.mem_map.2 ⟨f, hf, rfl⟩
  refine ⟨?_, ?_, ?_⟩
  · intro ht f hf
    refine ⟨hs4 ht f hf, ?_⟩
    intro x hx y hy
    have hp : ¬ (t = "parameters" ∧ cf.params ≠ []) := fun h => ht h.1
    refine ⟨_, rfl, ?_⟩
    rw [csvKindAt_eq hc hv hw, if_pos (hin f hf)]
    rcases csvColumn_kept hT hL hwok (hin f hf) (fun h => ht h.1) (hs2 hp f hf) (hcol f hf) (hsh f hf) hx (shape_handed hy) with hh | hh
    · exact .inl hh
    · obtain ⟨_, td, d, s, h1, h2, h3, h4, h5⟩ := hh
      exact .inr ⟨td, d, s, h1, h2, h3, h4, by rw [h4]; exact h5⟩
  · intro ht hpe f hf x hx
    have hp : ¬ (t = "parameters" ∧ cf.params ≠ []) := fun h => h.2 hpe
    refine ⟨_, rfl, ?_⟩
    rw [csvKindAt_eq hc hv hw, if_pos (hin f hf)]
    rcases csvColumn_kept hT hL hwok (hin f hf) (fun h => h.2.1 hpe) (hs2 hp f hf) (hcol f hf) (hsh f hf) hx (y := x) (.inl rfl) with hh | hh
    · exact hh
    · obtain ⟨⟨d, e⟩, _⟩ := hh
      rw [e] at hx
      exact absurd hx (hs3 ht hpe f hf d)
  · intro ht hpe
    obtain ⟨k, f, e1, e2, hrows⟩ := hs1 ⟨ht, hpe⟩
    refine ⟨k, f, e1, e2, ?_⟩
    intro r hr
    obtain ⟨x, y, e, ⟨⟨s, ek, hna⟩, td, htd, hval, hy⟩⟩ := hrows r hr
    refine ⟨x, y, e, ?_⟩
    have hkind : ∀ g, csvKindAt lib env cf schema dat "parameters" g = .text := by
      intro g
      rw [← ht, csvKindAt_eq hc hv hw]
      by_cases hg : Label.name g ∈ w.cols
      · rw [if_pos hg]
        unfold csvColKind
        apply if_pos
        rw [csv_text_columns]
        right
        refine ⟨ht, hpe, ?_⟩
        rw [hwc] at hg
        obtain ⟨g', hg', eg⟩ := List.mem_map.1 hg
        cases eg
        unfold TabClass.fields at hg'
        rw [e1, e2] at hg' ⊢
        simp only [List.cons_append, List.nil_append, List.mem_cons, List.not_mem_nil, or_false] at hg'
        rcases hg' with rfl | rfl
        · exact .inl rfl
        · exact .inr rfl
      · rw [if_neg hg]
    have hst : ∀ g z, csvStoreOf lib env cf schema dat "parameters" g z = some (readAs lib .text (csvPanText env z)) := by
      intro g z
      unfold csvStoreOf
      rw [hkind]
    refine ⟨by rw [ek]; exact not_null_str s, ?_, readAs lib .text (csvPanText env (nullAsNone y)), td, fun g => hst g _, htd, hval, ?_⟩
    · intro g
      rw [hst, ek, csvPanText_of (not_null_str s), hT.str, readAs_text hna]
    · rcases hy with hn | ⟨hdt, ⟨a, e⟩ | ⟨s', e, hs', hfl⟩⟩ | ⟨hdt, d, e, hd1, hd2⟩
      · left
        refine ⟨hn, ?_⟩
        have : nullAsNone y = .none := by rcases hn with e | e <;> rw [e] <;> rfl
        rw [this, csvPanText_null (.inl rfl), readAs_na hL.empty]
        exact .inr rfl
      · right; left
        refine ⟨hdt, .inr ?_, .inl ⟨a, e⟩⟩
        have : nullAsNone y = y := by rw [e]; rfl
        rw [this, e, csvPanText_of (not_null_num a), readAs_text (hL.number a).1]
      · right; left
        refine ⟨hdt, .inl ?_, .inr ⟨s', e, hfl⟩⟩
        have : nullAsNone y = y := by rw [e]; rfl
        rw [this, e, csvPanText_of (not_null_str s'), hT.str, readAs_text hs']
      · right; right
        refine ⟨hdt, d, e, .inr ⟨env.text y, ?_, ?_⟩⟩
        · have : nullAsNone y = y := by rw [e]; rfl
          rw [this, csvPanText_of (by rw [e]; exact not_null_dt d), readAs_text hd1]
        · have : nullAsNone y = y := by rw [e]; rfl
          rw [this, csvPanText_of (by rw [e]; exact not_null_dt d), readAs_text hd1]
          exact hd2

/-- **C81 (round trip).**  With pandas reading the types of columns from their texts: an object whose tables csv keeps is
written to a directory and read back the same, in every other respect as in C72. -/
theorem pan_csv_types_round_trip {env : TextEnv} (hT : TextOK env) {cenv : CaseEnv} (laws : CaseLaws cenv) (lower : String → String)
    {lib : PanCsvLib} (hL : CsvLibOK env lib) {cf : IOConf} {schema : List (String × TabClass)} (hsch : PanSchemaOK cenv cf schema)
    {dat : PyDict String Frame}
    (hs : ∀ tc ∈ schema, ∃ v, PyDict.get? dat tc.1 = some v ∧ FrameOK v ∧ (∀ f ∈ tc.2.fields, Label.name f ∈ v.cols) ∧
      CsvPanTable env lib cf tc.1 tc.2 v)
    {missing : TabClass → Frame → List String} (hm : ListsMissing missing) (fill : Bool) {cs : Bool}
    (hcs : cs = true → ∀ tc ∈ schema, CaseRoundTrip cenv tc.1.toList) {dir : PanStore} (hd : (PyDict.keys dir).Nodup)
    (hold : ∀ tc ∈ schema, ∀ f ∈ PyDict.keys dir, SpellsCsv cenv tc.1 f → f = csvFileOut cenv schema cs tc.1) :
    ∃ dir', csvPanWrite env cenv cf schema cs dat dir = some dir' ∧
      (∀ f, (∀ tc ∈ schema, f ≠ csvFileOut cenv schema cs tc.1) → PyDict.get? dir' f = PyDict.get? dir f) ∧
      ∃ dat2, csvPanRead env cenv lower cf fill missing (csvPandas lib env cf schema) schema dir' = some dat2 ∧
        SamePan schema dat dat2 := by
  have hget : ∀ tc ∈ schema, PyDict.get? schema tc.1 = some tc.2 := fun tc htc =>
    PyDict.get?_of_mem (schema_names_nodup hsch) htc
  refine pan_csv_round_trip hT laws lower (store := csvStoreOf lib env cf schema dat) hsch ?_ ?_ hm fill hcs hd hold
  · intro tc htc
    obtain ⟨v, h1, h2, h3, h4⟩ := hs tc htc
    exact ⟨v, h1, h2, h3, csvPanTable_safe hT hL hsch.flag (hget tc htc) (hsch.fields tc htc).1 h1 h2 h3 h4, by simp⟩
  · intro tc htc v w hv hw
    obtain ⟨v', h1, h2, h3, h4⟩ := hs tc htc
    rw [hv] at h1
    cases h1
    have hpar : tc.1 = "parameters" → cf.params ≠ [] → tc.2.dfs.length = 1 := by
      intro e1 e2
      obtain ⟨k, f, _, e, _⟩ := h4.1 ⟨e1, e2⟩
      rw [e]; rfl
    obtain ⟨hwok, hwc, _⟩ := handed_column hsch.flag (hsch.fields tc htc).1 hpar h2 h3 hw
    exact csvPandas_keeps (hget tc htc) (hsch.fields tc htc).1 hv hw hwok hwc

/-! ### Examples -/

/-- A library that reads `unaryText`, with "" and "NA" for missing values. -/
def unaryCsv : PanCsvLib where
  number := fun s => (unaryText.float s).bind id
  na := fun s => decide (((unaryText.float s).bind id) = none) && (decide (s = "") || decide (s = "NA"))
  bool := fun s => if s = "True" then some true else none

theorem unaryCsv_ok : CsvLibOK unaryText unaryCsv := by
  refine ⟨?_, ?_⟩
  · simp [unaryCsv, unaryText_ok.empty]
  · intro x
    simp [unaryCsv, unaryText_ok.num x]

def csvTextType : TypeDict := ⟨false, true, true, .ninf, .pinf, false, .any, true, false⟩
def csvNumType : TypeDict := ⟨true, true, true, .ninf, .pinf, false, .oneOf [], false, false⟩

/-- Codes that are text, declared so; a number; and a parameter. -/
def csvTypesConf : IOConf := ⟨[("items", [("code", csvTextType)])], .num 10, false, [(.str "p", (some csvNumType, .num (.fin 0)))]⟩

/-- The same factory without `set_data_type`. -/
def csvUntyped : IOConf := ⟨[], .num 10, false, [(.str "p", (some csvNumType, .num (.fin 0)))]⟩

def csvTypesSchema : List (String × TabClass) := [("items", ⟨["code"], ["n"], []⟩), ("parameters", ⟨["name"], ["value"], []⟩)]

/-- "aab" is the text of the number 2. -/
def csvTypesItems : Frame := ⟨[], [.name "n", .name "code"], [([], [.num (.fin 3), .str "aab"]), ([], [.num .pinf, .none])]⟩

def csvTypesDat : PyDict String Frame :=
  [("items", csvTypesItems), ("parameters", ⟨[], [.name "name", .name "value"], [([], [.str "p", .num (.fin 5)])]⟩)]

theorem csvTypes_schema : PanSchemaOK asciiEnv csvTypesConf csvTypesSchema :=
  ⟨by decide +kernel, by decide +kernel, by intro q e; cases e; decide +kernel⟩

theorem csvTypes_table : ∀ tc ∈ csvTypesSchema, ∃ v, PyDict.get? csvTypesDat tc.1 = some v ∧ FrameOK v ∧
    (∀ f ∈ tc.2.fields, Label.name f ∈ v.cols) ∧ CsvPanTable unaryText unaryCsv csvTypesConf tc.1 tc.2 v := by
  intro tc htc
  simp only [csvTypesSchema, List.mem_cons, List.not_mem_nil, or_false] at htc
  rcases htc with e | e <;> subst e
  · refine ⟨csvTypesItems, rfl, ⟨by decide +kernel, by decide +kernel, by decide +kernel⟩, by decide +kernel,
      fun h => absurd h.1 (by decide +kernel), ?_, fun h => absurd h (by decide +kernel), ?_⟩
    · intro _ f hf
      simp only [TabClass.fields, List.cons_append, List.nil_append, List.mem_cons, List.not_mem_nil, or_false] at hf
      rcases hf with rfl | rfl
      · left
        refine ⟨⟨csvTextType, rfl, rfl, rfl, by decide +kernel⟩, ?_⟩
        rw [show column csvTypesItems "code" = [.str "aab", .none] by decide +kernel]
        intro x hx
        simp only [List.mem_cons, List.not_mem_nil, or_false] at hx
        rcases hx with rfl | rfl
        · exact .inr ⟨_, rfl, by decide +kernel⟩
        · exact .inl (.inl rfl)
      · right
        refine ⟨(by rintro ⟨td, h, _⟩; cases h), .inl ?_⟩
        rw [show column csvTypesItems "n" = [.num (.fin 3), .num .pinf] by decide +kernel]
        intro x hx
        simp only [List.mem_cons, List.not_mem_nil, or_false] at hx
        rcases hx with rfl | rfl
        · exact .inr ⟨_, rfl⟩
        · exact .inr ⟨_, rfl⟩
    · intro _ f hf
      simp only [TabClass.fields, List.cons_append, List.nil_append, List.mem_cons, List.not_mem_nil, or_false] at hf
      rcases hf with rfl | rfl
      · refine ⟨?_, (by intro h; cases h), ?_⟩
        · intro x _ td h
          cases h
          exact ⟨fun h => absurd h (by decide), fun _ h => absurd h (by decide)⟩
        · intro q e
          cases e
          refine ⟨by decide +kernel, ?_⟩
          rw [show column csvTypesItems "code" = [.str "aab", .none] by decide +kernel]
          intro x hx a e
          simp only [List.mem_cons, List.not_mem_nil, or_false] at hx
          rcases hx with rfl | rfl <;> cases e
      · refine ⟨?_, (by intro h; cases h), ?_⟩
        · intro x _ td h
          cases h
        · intro q e
          cases e
          refine ⟨by decide +kernel, ?_⟩
          rw [show column csvTypesItems "n" = [.num (.fin 3), .num .pinf] by decide +kernel]
          intro x hx a e
          simp only [List.mem_cons, List.not_mem_nil, or_false] at hx
          rcases hx with rfl | rfl <;> cases e
          decide +kernel
  · refine ⟨_, rfl, ⟨by decide +kernel, by decide +kernel, by decide +kernel⟩, by decide +kernel, ?_,
      fun h => absurd ⟨rfl, by decide +kernel⟩ h, fun _ h => absurd h (by decide +kernel), fun h => absurd rfl h⟩
    intro _
    refine ⟨"name", "value", rfl, rfl, ?_⟩
    intro r hr
    have : r = [.str "p", .num (.fin 5)] := by
      rw [show fieldRows ⟨["name"], ["value"], []⟩ ⟨[], [.name "name", .name "value"], [([], [.str "p", .num (.fin 5)])]⟩ =
        [[.str "p", .num (.fin 5)]] by decide +kernel] at hr
      exact List.mem_singleton.1 hr
    refine ⟨_, _, this, ⟨"p", rfl, by decide +kernel⟩, csvNumType, by decide +kernel, ?_, .inr (.inl ⟨rfl, .inl ⟨_, rfl⟩⟩)⟩
    refine .inr (.inr (.inl ⟨rfl, _, rfl, rfl, ?_, ?_⟩))
    · exact ⟨.inl .below, .inl .above⟩
    · intro h; cases h

example : ∃ dir', csvPanWrite unaryText asciiEnv csvTypesConf csvTypesSchema true csvTypesDat [] = some dir' ∧
    ∃ dat2, csvPanRead unaryText asciiEnv id csvTypesConf false plainMissing (csvPandas unaryCsv unaryText csvTypesConf csvTypesSchema)
      csvTypesSchema dir' = some dat2 ∧ SamePan csvTypesSchema csvTypesDat dat2 := by
  obtain ⟨dir', h1, _, h3⟩ := pan_csv_types_round_trip unaryText_ok asciiLaws id unaryCsv_ok csvTypes_schema csvTypes_table
    plainMissing_lists false (cs := true) (fun _ tc _ => asciiRoundTrip _) (dir := []) (by decide +kernel) (by
      intro tc _ f hf; simp [PyDict.keys] at hf)
  exact ⟨dir', h1, h3⟩


/-- **C81 (undeclared text is lost).**  Without the declaration the codes come back as numbers. -/
theorem csv_undeclared_text_lost : ∃ dir' dat2, csvPanWrite unaryText asciiEnv csvUntyped csvTypesSchema true csvTypesDat [] = some dir' ∧
    csvPanRead unaryText asciiEnv id csvUntyped false plainMissing (csvPandas unaryCsv unaryText csvUntyped csvTypesSchema)
      csvTypesSchema dir' = some dat2 ∧
    (PyDict.get? dat2 "items").map (fun v => column v "code") = some [.num (.fin 2), .nan] ∧
    column csvTypesItems "code" = [.str "aab", .none] := by
  cases h : csvPanWrite unaryText asciiEnv csvUntyped csvTypesSchema true csvTypesDat [] with
  | none => exact absurd h (by decide +kernel)
  | some dir' =>
    cases h2 : csvPanRead unaryText asciiEnv id csvUntyped false plainMissing (csvPandas unaryCsv unaryText csvUntyped csvTypesSchema)
      csvTypesSchema dir' with
    | none =>
      have : (csvPanWrite unaryText asciiEnv csvUntyped csvTypesSchema true csvTypesDat []).bind (fun dir' =>
        csvPanRead unaryText asciiEnv id csvUntyped false plainMissing (csvPandas unaryCsv unaryText csvUntyped csvTypesSchema)
          csvTypesSchema dir') = none := by rw [h]; exact h2
      exact absurd this (by decide +kernel)
    | some dat2 =>
      refine ⟨dir', dat2, rfl, h2, ?_, by decide +kernel⟩
      have : (csvPanWrite unaryText asciiEnv csvUntyped csvTypesSchema true csvTypesDat []).bind (fun dir' =>
        (csvPanRead unaryText asciiEnv id csvUntyped false plainMissing (csvPandas unaryCsv unaryText csvUntyped csvTypesSchema)
          csvTypesSchema dir').bind (fun dat2 => (PyDict.get? dat2 "items").map (fun v => column v "code"))) =
          some [.num (.fin 2), .nan] := by decide +kernel
      rw [h, Option.bind_some, h2, Option.bind_some] at this
      exact this

/-- The declaration with a text that pandas takes for a missing value: it is lost. -/
example : column (csvReread unaryCsv unaryText csvTypesConf "items" ⟨["code"], ["n"], []⟩
      ⟨[], [.name "code"], [([], [.str "NA"]), ([], [.str "aab"])]⟩) "code" = [.nan, .str "aab"] := by decide +kernel

end Ticdat

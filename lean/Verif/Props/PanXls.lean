import Verif.Props.PanAdjust
/-!
# C60: trailing empty rows of Excel sheets
-/
set_option linter.unusedSectionVars false
set_option linter.unusedSimpArgs false
namespace Ticdat
open Spec

theorem nullStays_iff {env : TextEnv} {cf : IOConf} {t f : String} :
    NullStaysNull env cf t f ↔ infBias env cf t f = some none := by
  unfold NullStaysNull infBias
  by_cases hf : cf.flag = .none
  · rw [if_neg (by simp [hf]), at_eq_typeOf]
    simp only [hf, ne_eq, not_true_eq_false, false_or]
    cases h : typeOf cf.types t f with
    | none => simp
    | some td =>
      simp only [Option.some.injEq, forall_eq', ← valid_data_iff]
      cases td.numberAllowed <;> cases td.validData env.parses .none <;> cases td.validData env.parses (.num .pinf) <;>
        cases td.validData env.parses (.num .ninf) <;> simp
  · rw [if_pos hf]
    simp [hf]

/-- NaN cells at the end of a column stay there. -/
theorem panReadCol_blank {env : TextEnv} {lower : String → String} {cf : IOConf} {t f : String}
    (h : NullStaysNull env cf t f) (col : List Cell) (n : Nat) :
    panReadCol env lower cf false t f (col ++ List.replicate n .nan) =
      (panReadCol env lower cf false t f col).map (fun r => r ++ List.replicate n .nan) := by
  rw [nullStays_iff] at h
  unfold panReadCol
  cases hf : cf.flag with
  | num q =>
    simp only [panRead_infStep, Bool.false_and, Bool.false_eq_true, if_false]
    change some _ = some _
    congr 1
    split <;> split <;> simp [toFloat, dateAdjust, infCellAdj]
  | na =>
    simp only [Bool.false_and, Bool.false_eq_true, if_false, h, Option.map_some]
    change some _ = some _
    congr 1
    split <;> split <;> simp [toFloat, dateAdjust]
  | none =>
    simp only [Bool.false_and, Bool.false_eq_true, if_false, h, Option.map_some]
    change some _ = some _
    congr 1
    split <;> split <;> simp [toFloat, dateAdjust]

/-- There is one way to split off the empty rows at the end. -/
theorem trailing_unique {k1 b1 k2 b2 : List (List Cell)} (h : k1 ++ b1 = k2 ++ b2) (e1 : ∀ r ∈ b1, EmptyRow r)
    (e2 : ∀ r ∈ b2, EmptyRow r) (l1 : ∀ r, k1.getLast? = some r → ¬ EmptyRow r)
    (l2 : ∀ r, k2.getLast? = some r → ¬ EmptyRow r) : k1 = k2 := by
  have key : ∀ {k1 b1 k2 b2 : List (List Cell)}, k1 ++ b1 = k2 ++ b2 → (∀ r ∈ b2, EmptyRow r) →
      (∀ r, k1.getLast? = some r → ¬ EmptyRow r) → k1.length ≤ k2.length := by
    intro k1 b1 k2 b2 h e2 l1
    apply Classical.byContradiction
    intro hlt
    have hpos : k1.length - 1 < k1.length := by omega
    have hlast : k1.getLast? = some (k1[k1.length - 1]) := by
      rw [List.getLast?_eq_getElem?, List.getElem?_eq_getElem hpos]
    apply l1 _ hlast
    apply e2
    have hg := congrArg (fun l => l[k1.length - 1]?) h
    simp only [List.getElem?_append_left hpos, List.getElem?_append_right (show k2.length ≤ k1.length - 1 by omega)] at hg
    rw [List.getElem?_eq_getElem hpos] at hg
    exact List.mem_of_getElem? hg.symm
  have hle := Nat.le_antisymm (key h e2 l1) (key h.symm e1 l2)
  exact (List.append_inj h hle).1

theorem prune_blank {u1 u2 : Frame} {n : Nat} (hi : u1.index = u2.index) (hc : u1.cols = u2.cols)
    (hr : u1.rows = u2.rows ++ List.replicate n ([], u2.cols.map (fun _ => Cell.nan))) : u1.prune = u2.prune := by
  obtain ⟨k1, b1, h1, d1, e1, l1⟩ := remove_trailing_exact (u1.rows.map Prod.snd)
  obtain ⟨k2, b2, h2, d2, e2, l2⟩ := remove_trailing_exact (u2.rows.map Prod.snd)
  have hk : k1 = k2 := by
    refine trailing_unique (b1 := b1) (b2 := b2 ++ List.replicate n (u2.cols.map (fun _ => Cell.nan))) ?_ e1 ?_ l1 l2
    · rw [← d1, hr, List.map_append, d2, List.append_assoc]; simp
    · intro r hr
      rcases List.mem_append.1 hr with h | h
      · exact e2 r h
      · rw [(List.mem_replicate.1 h).2]
        intro x hx
        obtain ⟨_, _, e⟩ := List.mem_map.1 hx
        exact .inr e.symm
  unfold Frame.prune
  rw [h1, h2, hk, Option.map_some, Option.map_some, hr]
  have hlen : k2.length ≤ u2.rows.length := by
    have := congrArg List.length d2
    simp at this
    omega
  rw [List.take_append_of_le_length hlen, hi, hc]

/-- What the reader removes: the rows that are kept are the first ones, all the others are empty, and the last kept row is
not empty.  (`panPost` and the default values come first.) -/
theorem prune_exact (u : Frame) : ∃ k, u.prune = some { u with rows := u.rows.take k } ∧ k ≤ u.rows.length ∧
    (∀ r ∈ u.rows.drop k, EmptyRow r.2) ∧ ∀ r, (u.rows.take k).getLast? = some r → ¬ EmptyRow r.2 := by
  obtain ⟨kept, block, h, d, e, l⟩ := remove_trailing_exact (u.rows.map Prod.snd)
  have hlen : kept.length ≤ u.rows.length := by
    have := congrArg List.length d
    simp at this
    omega
  refine ⟨kept.length, by unfold Frame.prune; rw [h]; rfl, hlen, ?_, ?_⟩
  · intro r hr
    apply e
    have : (u.rows.map Prod.snd).drop kept.length = block := by rw [d]; simp
    rw [← this, ← List.map_drop]
    exact List.mem_map.2 ⟨r, hr, rfl⟩
  · intro r hr
    apply l
    have : (u.rows.map Prod.snd).take kept.length = kept := by rw [d]; simp
    rw [← this, ← List.map_take, List.getLast?_map, hr]
    rfl

/-- **C60, partial.**  Blank rows at the end of a sheet make no difference, if the sheet has all the fields of the table and
null cells of these fields are not read as infinity.  Without these conditions the claim is false, see below. -/
theorem xls_trailing_blank_partial {env : TextEnv} {lower : String → String} {cf : IOConf} {t : String} {c : TabClass}
    (hn : c.fields.Nodup) (hne : c.fields ≠ []) (hd : (PyDict.keys c.defaults).Nodup)
    (hsub : ∀ f ∈ PyDict.keys c.defaults, f ∈ c.fields) {v : Frame} (hv : FrameOK v) (hi : v.index = [])
    (hall : ∀ f ∈ c.fields, Label.name f ∈ v.cols) (hnull : ∀ f ∈ c.fields, NullStaysNull env cf t f) (fill : Bool)
    (missing : List String) (hm : MissingFields c v missing) (n : Nat) :
    xlsPanTable env lower cf true t c fill missing (withBlank v n) = xlsPanTable env lower cf true t c fill missing v := by
  have hok1 : FrameOK (withBlank v n) := by
    refine ⟨hv.cols, hv.index, ?_⟩
    intro r hr
    rcases List.mem_append.1 hr with h | h
    · exact hv.rows r h
    · rw [(List.mem_replicate.1 h).2]; simp [withBlank]
  unfold xlsPanTable
  rw [(pan_read_table c hn hne hd hsub fill v hv hi missing hm).2 (fun f hf => .inl (hall f hf)),
    (pan_read_table c hn hne hd hsub fill (withBlank v n) hok1 hi missing hm).2 (fun f hf => .inl (hall f hf))]
  simp only [Option.bind_some, if_true, panPost]
  have hc2 : ∀ f ∈ c.fields, column (plainFrame c.fields (v.rows.map (fun r => c.fields.map (fileCell c v r)))) f = column v f := by
    intro f hf
    rw [column_plain _ _ hf]
    unfold column fileCell
    simp only [hall f hf, if_true]
  have hc1 : ∀ f ∈ c.fields, column (plainFrame c.fields ((withBlank v n).rows.map (fun r => c.fields.map
      (fileCell c (withBlank v n) r)))) f = column v f ++ List.replicate n .nan := by
    intro f hf
    rw [column_plain _ _ hf]
    have hh : Label.name f ∈ (withBlank v n).cols := hall f hf
    unfold column fileCell
    simp only [hh, if_true]
    have hidx := List.idxOf_lt_length_iff.2 (hall f hf)
    simp [withBlank, colCell, hidx]
  have ok2 : FrameOK (plainFrame c.fields (v.rows.map (fun r => c.fields.map (fileCell c v r)))) :=
    plainFrame_ok hn (fun r hr => by obtain ⟨x, _, e⟩ := List.mem_map.1 hr; subst e; simp)
  have ok1 : FrameOK (plainFrame c.fields ((withBlank v n).rows.map (fun r => c.fields.map (fileCell c (withBlank v n) r)))) :=
    plainFrame_ok hn (fun r hr => by obtain ⟨x, _, e⟩ := List.mem_map.1 hr; subst e; simp)
  have in2 : ∀ f ∈ c.fields, Label.name f ∈
      (plainFrame c.fields (v.rows.map (fun r => c.fields.map (fileCell c v r)))).cols :=
    fun f hf => List.mem_map.2 ⟨f, hf, rfl⟩
  have in1 : ∀ f ∈ c.fields, Label.name f ∈
      (plainFrame c.fields ((withBlank v n).rows.map (fun r => c.fields.map (fileCell c (withBlank v n) r)))).cols :=
    fun f hf => List.mem_map.2 ⟨f, hf, rfl⟩
  obtain ⟨x1, y1⟩ := adjust_spec (panReadCol env lower cf false t) (fun _ _ _ => panReadCol_len) c.fields hn _ ok1 in1
  obtain ⟨x2, y2⟩ := adjust_spec (panReadCol env lower cf false t) (fun _ _ _ => panReadCol_len) c.fields hn _ ok2 in2
  have hsame : ∀ f ∈ c.fields, panReadCol env lower cf false t f (column (plainFrame c.fields ((withBlank v n).rows.map
      (fun r => c.fields.map (fileCell c (withBlank v n) r)))) f) =
      (panReadCol env lower cf false t f (column (plainFrame c.fields (v.rows.map (fun r => c.fields.map (fileCell c v r)))) f)).map
        (fun r => r ++ List.replicate n .nan) := by
    intro f hf
    rw [hc1 f hf, hc2 f hf, panReadCol_blank (hnull f hf)]
  cases a2 : Frame.adjust (panReadCol env lower cf false t)
      (plainFrame c.fields (v.rows.map (fun r => c.fields.map (fileCell c v r)))) c.fields with
  | none =>
    obtain ⟨f, hf, h⟩ := x2.1 a2
    rw [x1.2 ⟨f, hf, by rw [hsame f hf, h]; rfl⟩]
  | some u2 =>
    cases a1 : Frame.adjust (panReadCol env lower cf false t)
        (plainFrame c.fields ((withBlank v n).rows.map (fun r => c.fields.map (fileCell c (withBlank v n) r)))) c.fields with
    | none =>
      obtain ⟨f, hf, h⟩ := x1.1 a1
      rw [hsame f hf, Option.map_eq_none_iff] at h
      rw [x2.2 ⟨f, hf, h⟩] at a2
      simp at a2
    | some u1 =>
      obtain ⟨o1, i1, c1, f1, g1, _⟩ := y1 u1 a1
      obtain ⟨o2, i2, c2, f2, g2, _⟩ := y2 u2 a2
      rw [Option.bind_some, Option.bind_some]
      have hcols : u1.cols = u2.cols := by rw [c1, c2]; rfl
      have hcol : ∀ f ∈ c.fields, column u1 f = column u2 f ++ List.replicate n .nan := by
        intro f hf
        have := hsame f hf
        rw [g1 f hf, g2 f hf, Option.map_some] at this
        exact Option.some.inj this
      have hext : u1 = { u2 with rows := u2.rows ++ List.replicate n ([], u2.cols.map (fun _ => Cell.nan)) } := by
        apply frame_ext o1
        · refine ⟨o2.cols, o2.index, ?_⟩
          intro r hr
          rcases List.mem_append.1 hr with h | h
          · exact o2.rows r h
          · rw [(List.mem_replicate.1 h).2, i2]; simp [plainFrame]
        · rw [i1, i2]; rfl
        · exact hcols
        · rw [f1, List.map_append, f2]
          simp [withBlank, plainFrame]
        · intro l hl
          rw [c1] at hl
          obtain ⟨f, hf, e⟩ := List.mem_map.1 hl
          subst e
          have hin : Label.name f ∈ u2.cols := by rw [c2]; exact in2 f hf
          have hidx := List.idxOf_lt_length_iff.2 hin
          have := hcol f hf
          unfold column at this
          rw [this]
          simp [colCell, hidx]
      exact prune_blank (by rw [hext]) (by rw [hext]) (by rw [hext])

/-! ## Where blank rows do make a difference -/

/-- A field that is a number from 0 to infinity and not nullable. -/
def capType : TypeDict := ⟨true, true, true, .fin 0, .pinf, false, .oneOf [], false, false⟩

def capClass : TabClass := ⟨["id"], ["cap"], [("cap", .num (.fin 5))]⟩

def capConf : IOConf := ⟨[("arc", [("cap", capType)])], .none, true, []⟩

def capSheet : Frame := ⟨[], [.name "id", .name "cap"], [([], [.str "a", .num (.fin 3)])]⟩

theorem prune_two (r : List Cell) (x : Cell) (hx : x.isNull = false) (i : List String) (cs : List Label) :
    Frame.prune ⟨i, cs, [([], r), ([], [.nan, x])]⟩ = some ⟨i, cs, [([], r), ([], [.nan, x])]⟩ := by
  simp [Frame.prune, removeTrailingNan, numberNanLastRows, isLastRowsAllNan, tailRows, dfApply, allNanRow, hx]

theorem prune_one (x y : Cell) (hx : x.isNull = false) (i : List String) (cs : List Label) :
    Frame.prune ⟨i, cs, [([], [x, y])]⟩ = some ⟨i, cs, [([], [x, y])]⟩ := by
  simp [Frame.prune, removeTrailingNan, numberNanLastRows, isLastRowsAllNan, tailRows, dfApply, allNanRow, hx]

/-- **C60 fails with the flag `None`.**  `None` stands for infinity in the field "cap" of this table.  A sheet with one row has
one row; the same sheet with a blank row after it has two, because the blank cell has become infinity before trailing rows are
removed. -/
theorem xls_blank_becomes_infinity (env : TextEnv) (lower : String → String) :
    xlsPanTable env lower capConf true "arc" capClass false [] capSheet =
      some ⟨[], [.name "id", .name "cap"], [([], [.str "a", .num (.fin 3)])]⟩ ∧
    xlsPanTable env lower capConf true "arc" capClass false [] (withBlank capSheet 1) =
      some ⟨[], [.name "id", .name "cap"], [([], [.str "a", .num (.fin 3)]), ([], [.nan, .num .pinf])]⟩ := by
  constructor
  · exact prune_one (.str "a") (.num (.fin 3)) rfl [] _
  · exact prune_two [.str "a", .num (.fin 3)] (.num .pinf) rfl [] _

/-- **C60 fails for filled in fields.**  The field "cap" is no column of this sheet and has a default value; the blank row
gets the default value before trailing rows are removed. -/
theorem xls_blank_gets_default (env : TextEnv) (lower : String → String) (cf : IOConf) (hf : cf = ⟨[], .na, true, []⟩) :
    let v : Frame := ⟨[], [.name "id"], [([], [.str "a"])]⟩
    xlsPanTable env lower cf true "arc" capClass true ["cap"] v =
      some ⟨[], [.name "id", .name "cap"], [([], [.str "a", .num (.fin 5)])]⟩ ∧
    xlsPanTable env lower cf true "arc" capClass true ["cap"] (withBlank v 1) =
      some ⟨[], [.name "id", .name "cap"], [([], [.str "a", .num (.fin 5)]), ([], [.nan, .num (.fin 5)])]⟩ := by
  subst hf
  constructor
  · exact prune_one (.str "a") (.num (.fin 5)) rfl [] _
  · exact prune_two [.str "a", .num (.fin 5)] (.num (.fin 5)) rfl [] _

/-! ## Non-vacuity -/

theorem cap_class_ok : capClass.fields.Nodup ∧ capClass.fields ≠ [] ∧ (PyDict.keys capClass.defaults).Nodup ∧
    ∀ f ∈ PyDict.keys capClass.defaults, f ∈ capClass.fields := by
  refine ⟨by decide, by decide, by decide, by decide⟩

theorem cap_sheet_ok : FrameOK capSheet ∧ capSheet.index = [] ∧ ∀ f ∈ capClass.fields, Label.name f ∈ capSheet.cols := by
  refine ⟨⟨by decide, by decide, by decide⟩, rfl, by decide⟩

/-- A sheet whose columns come in another order, with a column that is no field: it is read; a sheet without "id" is refused. -/
example : panReadTable capClass false [] ⟨[], [.name "cap", .name "x", .name "id"],
      [([], [.num (.fin 3), .nan, .str "a"]), ([], [.nan, .bool true, .str "b"])]⟩ =
    some ⟨[], [.name "id", .name "cap"], [([], [.str "a", .num (.fin 3)]), ([], [.str "b", .nan])]⟩ := by decide +kernel

example : panReadTable capClass true ["id"] ⟨[], [.name "cap"], [([], [.num (.fin 3)])]⟩ = none := by
  rw [← Option.isNone_iff_eq_none]; decide +kernel

example : panReadLol capClass [[.str "a", .num (.fin 3), .num (.fin 4)], [.str "b"]] =
    some ⟨[], [.name "id", .name "cap"], [([], [.str "a", .num (.fin 3)]), ([], [.str "b", .none])]⟩ := by decide +kernel

/-- Infinity goes through a file with the flag 1000000, together with text. -/
example (env : TextEnv) : ∀ f ∈ capClass.fields, Survives env ⟨[], .num 1000000, true, []⟩ "arc" f
    (column ⟨[], [.name "id", .name "cap"], [([], [.str "a", .num .pinf]), ([], [.nan, .num (.fin 7)])]⟩ f) := by
  intro f hf
  refine ⟨fun x _ td h => (by simp [typeOf] at h), fun h => (by cases h), fun q hq => ?_⟩
  cases hq
  refine ⟨by decide +kernel, ?_⟩
  have hf : f = "id" ∨ f = "cap" := by simpa [capClass, TabClass.fields] using hf
  rcases hf with rfl | rfl
  · intro x hx a e
    subst e
    revert hx
    simp [column, colCell]
  · intro x hx a e
    subst e
    have : a = 7 := by
      have h : Cell.num (.fin a) ∈ [Cell.num .pinf, .num (.fin 7)] := hx
      simpa using h
    subst this
    constructor <;> decide +kernel

/-- So do datetimes in a field of datetimes, and text and numbers in a field that is both. -/
example : ∀ f ∈ capClass.fields, Survives unaryText ⟨[("arc", [("id", ⟨true, true, false, .fin 0, .pinf, false, .oneOf [], true, true⟩),
      ("cap", ⟨true, true, true, .fin 0, .pinf, false, .any, false, false⟩)])], .none, true, []⟩ "arc" f
    (column ⟨[], [.name "id", .name "cap"], [([], [.dt 3, .num .pinf]), ([], [.nan, .str "open"])]⟩ f) := by
  intro f hf
  have hf : f = "id" ∨ f = "cap" := by simpa [capClass, TabClass.fields] using hf
  rcases hf with rfl | rfl
  · refine ⟨?_, fun _ => ⟨?_, ?_⟩, fun q hq => (by cases hq)⟩
    · intro x hx td htd
      have hx : x = .dt 3 ∨ x = .nan := by simpa [column, colCell] using hx
      obtain rfl := Option.some.inj htd
      refine ⟨fun _ => ?_, fun h => (by cases h)⟩
      rcases hx with rfl | rfl
      · exact .inl ⟨3, rfl⟩
      · exact .inr ⟨.inr rfl, by decide +kernel⟩
    · rintro ⟨td, htd, _, h, _⟩
      obtain rfl := Option.some.inj htd
      exact h (.inl ⟨.inl rfl, rfl⟩)
    · intro x hx td htd
      have hx : x = .dt 3 ∨ x = .nan := by simpa [column, colCell] using hx
      obtain rfl := Option.some.inj htd
      rw [← valid_data_iff]
      rcases hx with rfl | rfl <;> decide +kernel
  · refine ⟨?_, fun _ => ⟨?_, ?_⟩, fun q hq => (by cases hq)⟩
    · intro x hx td htd
      have hx : x = .num .pinf ∨ x = .str "open" := by
        have h : x ∈ [Cell.num .pinf, .str "open"] := hx
        simpa using h
      obtain rfl := Option.some.inj htd
      refine ⟨fun h => (by cases h), fun _ _ _ _ => ?_⟩
      rcases hx with rfl | rfl
      · exact ⟨fun b h => (by cases h), fun s h => (by cases h)⟩
      · refine ⟨fun b h => (by cases h), fun s h => ?_⟩
        cases h
        decide +kernel
    · rintro ⟨td, htd, _, _, _, h⟩
      obtain rfl := Option.some.inj htd
      rw [← valid_data_iff] at h
      revert h
      decide +kernel
    · intro x hx td htd
      have hx : x = .num .pinf ∨ x = .str "open" := by
        have h : x ∈ [Cell.num .pinf, .str "open"] := hx
        simpa using h
      obtain rfl := Option.some.inj htd
      rw [← valid_data_iff]
      rcases hx with rfl | rfl <;> decide +kernel

example (env : TextEnv) : ∀ f ∈ capClass.fields, NullStaysNull env ⟨[("arc", [("cap", capType)])], .na, true, []⟩ "arc" f :=
  fun _ _ => .inl (by simp)

end Ticdat

import Verif.Props.PanInit
import Verif.Props.Copy
import Verif.Props.TableShapes
import Verif.Spec.Good
/-!
# C54: `good_tic_dat_object` and the constructor agree
-/
set_option linter.unusedSimpArgs false
namespace Ticdat
open Spec

theorem strictRow_iff (dfs : List String) (r : RowIn) : strictRow dfs r = true ↔ ExactRow dfs r := by
  cases r with
  | dict d =>
    simp only [strictRow, ExactRow, Bool.and_eq_true, List.all_eq_true, decide_eq_true_eq]
    exact ⟨fun h f => ⟨h.1 f, h.2 f⟩, fun h => ⟨fun f => (h f).mp, fun f => (h f).mpr⟩⟩
  | seq vs => simp [strictRow, ExactRow]
  | scalar v => simp [strictRow, ExactRow]

theorem exactRow_fits {dfs : List String} {r : RowIn} (h : ExactRow dfs r) : RowFits dfs r := by
  cases r with
  | dict d => exact fun f hf => (h f).mp hf
  | seq vs => exact h.elim
  | scalar v => exact h.elim

theorem goodRows_strict (dfs : List String) (rows : List RowIn) :
    goodRows true dfs rows = true ↔ ∀ r ∈ rows, ExactRow dfs r := by
  unfold goodRows
  simp only [Bool.not_true, Bool.false_or, Bool.and_eq_true, List.all_eq_true, strictRow_iff, goodRow_iff_fits]
  exact ⟨fun h => h.2, fun h => ⟨fun r hr => exactRow_fits (h r hr), h⟩⟩

theorem goodRows_generous (dfs : List String) (rows : List RowIn) :
    goodRows false dfs rows = true ↔ ∀ r ∈ rows, RowFits dfs r := by
  unfold goodRows
  simp only [Bool.not_false, Bool.true_or, Bool.and_true, List.all_eq_true, goodRow_iff_fits]

theorem asRow_not_exact (dfs : List String) (k : KeyArg) : ¬ ExactRow dfs k.asRow := by
  cases k <;> exact fun h => h

/-- The check of one table, with the two tests on DataFrames that precede it. -/
theorem strict_table_iff (k : TabKind) (a : AttrVal) :
    (¬ (a.isFrame != k.isGeneric) = true ∧ goodTicDatTable true k a = some true) ↔ StrictTable k a := by
  cases k with
  | generic =>
    cases a <;> simp [AttrVal.isFrame, TabKind.isGeneric, goodTicDatTable, StrictTable]
  | generator c =>
    cases a with
    | tab x =>
      cases x with
      | dict d => simp [AttrVal.isFrame, TabKind.isGeneric, goodTicDatTable, StrictTable]
      | seq rows =>
        simp only [AttrVal.isFrame, TabKind.isGeneric, goodTicDatTable, StrictTable, bne_self_eq_false, Bool.false_eq_true,
          not_false_eq_true, true_and, Option.some.injEq, goodRows_strict]
        constructor
        · intro h; exact ⟨rows, .inl rfl, h⟩
        · rintro ⟨rows', h | h, hr⟩ <;> cases h
          exact hr
    | call rows =>
      simp only [AttrVal.isFrame, TabKind.isGeneric, goodTicDatTable, StrictTable, bne_self_eq_false, Bool.false_eq_true,
        not_false_eq_true, true_and, Option.some.injEq, goodRows_strict]
      constructor
      · intro h; exact ⟨rows, .inr rfl, h⟩
      · rintro ⟨rows', h | h, hr⟩ <;> cases h
        exact hr
    | frame v => simp [AttrVal.isFrame, TabKind.isGeneric, StrictTable]
    | other => simp [AttrVal.isFrame, TabKind.isGeneric, goodTicDatTable, StrictTable]
  | plain c =>
    by_cases hp : c.pks = []
    · cases a with
      | tab x =>
        cases x with
        | dict d =>
          simp only [AttrVal.isFrame, TabKind.isGeneric, goodTicDatTable, StrictTable, hp, goodRowsTable, TableIn.iter,
            ne_eq, not_true_eq_false, if_true, if_false,
            bne_self_eq_false, Bool.false_eq_true, not_false_eq_true, true_and, Option.some.injEq, goodRows_strict]
          constructor
          · intro h
            left
            cases d with
            | nil => rfl
            | cons p rest => exact absurd (h _ (List.mem_map.mpr ⟨p.1, List.mem_cons_self, rfl⟩)) (asRow_not_exact _ _)
          · rintro (h | ⟨rows, h, _⟩) <;> cases h
            intro r hr; cases hr
        | seq rows =>
          simp only [AttrVal.isFrame, TabKind.isGeneric, goodTicDatTable, StrictTable, hp, goodRowsTable, TableIn.iter,
            ne_eq, not_true_eq_false, if_true, if_false,
            bne_self_eq_false, Bool.false_eq_true, not_false_eq_true, true_and, Option.some.injEq, goodRows_strict]
          constructor
          · intro h; exact .inr ⟨rows, rfl, h⟩
          · rintro (h | ⟨rows, h, hr⟩) <;> cases h
            exact hr
      | call rows => simp [AttrVal.isFrame, TabKind.isGeneric, goodTicDatTable, StrictTable, hp, goodRowsTable]
      | frame v => simp [AttrVal.isFrame, TabKind.isGeneric, StrictTable, hp]
      | other => simp [AttrVal.isFrame, TabKind.isGeneric, goodTicDatTable, StrictTable, hp, goodRowsTable]
    · cases a with
      | tab x =>
        cases x with
        | dict d =>
          simp only [AttrVal.isFrame, TabKind.isGeneric, goodTicDatTable, StrictTable, hp, goodKeyed,
            ne_eq, not_true_eq_false, if_true, if_false, Bool.or_eq_true, Bool.and_eq_true,
            bne_self_eq_false, Bool.false_eq_true, not_false_eq_true, true_and, Option.some.injEq, goodRows_strict]
          constructor
          · intro h
            refine ⟨d, rfl, fun p hpd => ?_⟩
            rcases h with h | ⟨h1, h2⟩
            · rw [List.isEmpty_iff.mp h] at hpd; cases hpd
            · exact ⟨of_decide_eq_true (List.all_eq_true.mp h1 p.1 (List.mem_map.mpr ⟨p, hpd, rfl⟩)),
                h2 p.2 (List.mem_map.mpr ⟨p, hpd, rfl⟩)⟩
          · rintro ⟨d', h, hd⟩
            cases h
            refine .inr ⟨List.all_eq_true.mpr (fun k hk => ?_), fun r hr => ?_⟩
            · obtain ⟨p, hpd, rfl⟩ := List.mem_map.mp hk
              exact decide_eq_true (hd p hpd).1
            · obtain ⟨p, hpd, rfl⟩ := List.mem_map.mp hr
              exact (hd p hpd).2
        | seq rows => simp [AttrVal.isFrame, TabKind.isGeneric, goodTicDatTable, StrictTable, hp, goodKeyed]
      | call rows => simp [AttrVal.isFrame, TabKind.isGeneric, goodTicDatTable, StrictTable, hp, goodKeyed]
      | frame v => simp [AttrVal.isFrame, TabKind.isGeneric, StrictTable, hp]
      | other => simp [AttrVal.isFrame, TabKind.isGeneric, goodTicDatTable, StrictTable, hp, goodKeyed]

theorem goodLoop_true (strict : Bool) (obj : PyDict String AttrVal) (kinds : List (String × TabKind)) (rtn : Bool) :
    goodLoop strict obj rtn kinds = some true ↔ rtn = true ∧ ∀ tk ∈ kinds, ∃ a, PyDict.get? obj tk.1 = some a ∧
      ¬ (a.isFrame != tk.2.isGeneric) = true ∧ goodTicDatTable strict tk.2 a = some true := by
  induction kinds generalizing rtn with
  | nil => simp [goodLoop]
  | cons tk rest ih =>
    obtain ⟨t, k⟩ := tk
    simp only [goodLoop, List.forall_mem_cons]
    cases hg : PyDict.get? obj t with
    | none => simp
    | some a =>
      simp only [Option.some.injEq, exists_eq_left']
      by_cases hf : (a.isFrame != k.isGeneric) = true
      · simp [hf]
      · rw [if_neg hf]
        simp only [hf, not_false_eq_true, true_and]
        cases rtn with
        | false => simp [ih]
        | true =>
          simp only [if_true, true_and, Bool.false_eq_true, not_false_eq_true]
          rw [Option.bind_eq_some_iff]
          constructor
          · rintro ⟨b, hb, h⟩
            obtain ⟨rfl, h2⟩ := (ih b).mp h
            exact ⟨hb, h2⟩
          · rintro ⟨hb, h⟩
            exact ⟨true, hb, (ih true).mpr ⟨rfl, h⟩⟩

/-- **C54, the check.**  `good_tic_dat_object` returns `True` exactly if the object has every table of the schema as an
attribute of the right kind: DataFrames for generic tables, dictionaries with keys of the right length for tables with
primary key, containers of rows (or functions, for generator tables) otherwise, and every row is a dictionary with exactly
the data fields.  The order in which the tables are visited does not matter for this. -/
theorem strict_good_iff (kinds : List (String × TabKind)) (obj : PyDict String AttrVal) :
    goodTicDatObject true kinds obj = some true ↔
      ∀ tk ∈ kinds, ∃ a, PyDict.get? obj tk.1 = some a ∧ StrictTable tk.2 a := by
  unfold goodTicDatObject
  rw [goodLoop_true]
  simp only [true_and, strict_table_iff]

theorem goodTable_raises (strict : Bool) (k : TabKind) (a : AttrVal) (hf : ¬ (a.isFrame != k.isGeneric) = true) :
    goodTicDatTable strict k a = none ↔ CheckRaises k a := by
  cases k with
  | generic =>
    cases a <;> simp [AttrVal.isFrame, TabKind.isGeneric, goodTicDatTable, CheckRaises] at hf ⊢
  | generator c =>
    cases a with
    | tab x => cases x <;> simp [goodTicDatTable, CheckRaises]
    | _ => simp [AttrVal.isFrame, TabKind.isGeneric, goodTicDatTable, CheckRaises] at hf ⊢
  | plain c =>
    by_cases hp : c.pks = []
    · cases a with
      | tab x => cases x <;> simp [goodTicDatTable, CheckRaises, hp, goodRowsTable]
      | _ => simp [AttrVal.isFrame, TabKind.isGeneric, goodTicDatTable, CheckRaises, hp, goodRowsTable] at hf ⊢
    · cases a with
      | tab x => cases x <;> simp [goodTicDatTable, CheckRaises, hp, goodRowsTable]
      | _ => simp [AttrVal.isFrame, TabKind.isGeneric, goodTicDatTable, CheckRaises, hp, goodRowsTable] at hf ⊢

/-- The check raises an exception only if some attribute is neither a container (or function, for a generator table), for
a table without primary key. -/
theorem good_raises_only (strict : Bool) (kinds : List (String × TabKind)) (obj : PyDict String AttrVal)
    (h : goodTicDatObject strict kinds obj = none) :
    ∃ tk ∈ kinds, ∃ a, PyDict.get? obj tk.1 = some a ∧ CheckRaises tk.2 a := by
  have : ∀ (kinds : List (String × TabKind)) (rtn : Bool), goodLoop strict obj rtn kinds = none →
      ∃ tk ∈ kinds, ∃ a, PyDict.get? obj tk.1 = some a ∧ CheckRaises tk.2 a := by
    intro kinds
    induction kinds with
    | nil => intro rtn h; simp [goodLoop] at h
    | cons tk rest ih =>
      intro rtn h
      obtain ⟨t, k⟩ := tk
      simp only [goodLoop] at h
      cases hg : PyDict.get? obj t with
      | none => rw [hg] at h; simp at h
      | some a =>
        simp only [hg] at h
        by_cases hf : (a.isFrame != k.isGeneric) = true
        · simp [hf] at h
        · rw [if_neg hf] at h
          cases rtn with
          | false =>
            simp only [Bool.false_eq_true, if_false] at h
            obtain ⟨tk, htk, hr⟩ := ih false h
            exact ⟨tk, List.mem_cons_of_mem _ htk, hr⟩
          | true =>
            simp only [if_true, Option.bind_eq_none_iff] at h
            cases hb : goodTicDatTable strict k a with
            | none => exact ⟨(t, k), List.mem_cons_self, a, hg, (goodTable_raises strict k a hf).mp hb⟩
            | some b =>
              obtain ⟨tk, htk, hr⟩ := ih b (h b hb)
              exact ⟨tk, List.mem_cons_of_mem _ htk, hr⟩
  exact this kinds true h

/-- With `row_checking="generous"`, for rows and no DataFrames, the check of one table is the one of `copy_tic_dat`. -/
theorem generous_is_copy_check (c : TabClass) (x : TableIn) :
    goodTicDatTable false (.plain c) (.tab x) = some (goodTable c x) := by
  unfold goodTable goodTableForInit
  by_cases hp : c.pks = []
  · cases x with
    | dict d =>
      simp only [goodTicDatTable, hp, ne_eq, not_true_eq_false, if_false, goodRowsTable, TableIn.iter, goodRows]
      simp [List.all_map, Function.comp_def]
    | seq rows => simp [goodTicDatTable, hp, goodRowsTable, TableIn.iter, goodRows]
  · cases x with
    | dict d =>
      simp only [goodTicDatTable, hp, ne_eq, not_false_eq_true, if_true, goodKeyed, goodRows]
      simp [List.all_map, Function.comp_def]
    | seq rows => simp [goodTicDatTable, hp, goodKeyed]

theorem asRow_fits (dfs : List String) (k : KeyArg) : RowFits dfs k.asRow ↔ keyLen k = dfs.length := by
  cases k with
  | one v => exact ⟨fun h => Eq.symm h, fun h => Eq.symm h⟩
  | tup vs => exact Iff.rfl

theorem goodRows_iter (dfs : List String) (d : PyDict KeyArg RowIn) :
    goodRows false dfs (TableIn.dict d).iter = true ↔ ∀ p ∈ d, keyLen p.1 = dfs.length := by
  rw [goodRows_generous]
  constructor
  · intro h p hp
    exact (asRow_fits dfs p.1).mp (h _ (List.mem_map.mpr ⟨p.1, List.mem_map.mpr ⟨p, hp, rfl⟩, rfl⟩))
  · intro h r hr
    obtain ⟨k, hk, rfl⟩ := List.mem_map.mp hr
    obtain ⟨p, hp, rfl⟩ := List.mem_map.mp hk
    exact (asRow_fits dfs p.1).mpr (h p hp)

theorem frameGood_plain (c : TabClass) (v : Frame) : frameGood c v = true ↔ FrameGoodFor c v := by
  have h0 := frameGood_iff { c with defaults := [] } (by simp [PyDict.keys]) v
  have hw : v.withDefaults ({ c with defaults := [] } : TabClass).defaults = v := rfl
  rw [hw] at h0
  have hg : frameGood { c with defaults := [] } v = frameGood c v := rfl
  rw [hg] at h0
  rw [h0]
  unfold FrameGoodFor Provided
  simp only [PyDict.keys, List.map_nil, List.not_mem_nil, or_false]
  constructor
  · rintro ⟨h1, h2, h3, h4⟩
    refine ⟨h1, fun hm => Nat.le_antisymm (h2 hm) (List.length_pos_of_mem hm), h3, ?_⟩
    rcases h4 with h | h | h
    · right; intro f hf; rw [h] at hf; cases hf
    · exact .inl h
    · exact .inr h
  · rintro ⟨h1, h2, h3, h4⟩
    exact ⟨h1, fun hm => Nat.le_of_eq (h2 hm), h3, .inr h4⟩

theorem rowLen_entries (r : RowIn) : rowLen r = entries r := by cases r <;> rfl

/-- **C54, the generous check of one table**, with the exact condition for each kind of table and argument. -/
theorem generous_table_iff (k : TabKind) (a : AttrVal) : goodTicDatTable false k a = some true ↔ GenerousTable k a := by
  cases k with
  | generic =>
    cases a with
    | frame v => simp [goodTicDatTable, GenerousTable]
    | tab x =>
      cases x with
      | seq rows => simp only [goodTicDatTable, goodRowsTable, GenerousTable, Option.some.injEq, TableIn.iter, goodRows_generous]
      | dict d => simp only [goodTicDatTable, goodRowsTable, GenerousTable, Option.some.injEq, goodRows_iter]; rfl
    | call rows => simp [goodTicDatTable, goodRowsTable, GenerousTable]
    | other => simp [goodTicDatTable, goodRowsTable, GenerousTable]
  | generator c =>
    cases a with
    | frame v => simp [goodTicDatTable, GenerousTable]
    | tab x =>
      cases x with
      | seq rows => simp only [goodTicDatTable, GenerousTable, Option.some.injEq, goodRows_generous]
      | dict d => simp [goodTicDatTable, GenerousTable]
    | call rows => simp only [goodTicDatTable, GenerousTable, Option.some.injEq, goodRows_generous]
    | other => simp [goodTicDatTable, GenerousTable]
  | plain c =>
    cases a with
    | frame v =>
      simp only [goodTicDatTable, GenerousTable, Option.some.injEq, Bool.not_false, Bool.true_and]
      exact frameGood_plain c v
    | call rows => by_cases hp : c.pks = [] <;> simp [goodTicDatTable, goodRowsTable, GenerousTable, hp, goodKeyed]
    | other => by_cases hp : c.pks = [] <;> simp [goodTicDatTable, goodRowsTable, GenerousTable, hp, goodKeyed]
    | tab x =>
      by_cases hp : c.pks = []
      · cases x with
        | seq rows =>
          simp only [goodTicDatTable, goodRowsTable, GenerousTable, hp, ne_eq, not_true_eq_false, if_false, if_true, Option.some.injEq,
            TableIn.iter, goodRows_generous]
        | dict d =>
          simp only [goodTicDatTable, goodRowsTable, GenerousTable, hp, ne_eq, not_true_eq_false, if_false, if_true, Option.some.injEq,
            goodRows_iter]
      · cases x with
        | seq rows =>
          simp only [goodTicDatTable, GenerousTable, hp, ne_eq, not_false_eq_true, if_false, if_true, Option.some.injEq, goodKeyed,
            Bool.not_false, Bool.true_and, Bool.and_eq_true, decide_eq_true_eq, List.all_eq_true, rowLen_entries]
        | dict d =>
          simp only [goodTicDatTable, GenerousTable, hp, ne_eq, not_false_eq_true, if_false, if_true, Option.some.injEq, goodKeyed,
            Bool.or_eq_true, Bool.and_eq_true, goodRows_generous]
          constructor
          · intro h p hpd
            rcases h with h | ⟨h1, h2⟩
            · rw [List.isEmpty_iff.mp h] at hpd; cases hpd
            · exact ⟨of_decide_eq_true (List.all_eq_true.mp h1 p.1 (List.mem_map.mpr ⟨p, hpd, rfl⟩)),
                h2 p.2 (List.mem_map.mpr ⟨p, hpd, rfl⟩)⟩
          · intro h
            refine .inr ⟨List.all_eq_true.mpr (fun k hk => ?_), fun r hr => ?_⟩
            · obtain ⟨p, hpd, rfl⟩ := List.mem_map.mp hk
              exact decide_eq_true (h p hpd).1
            · obtain ⟨p, hpd, rfl⟩ := List.mem_map.mp hr
              exact (h p hpd).2

/-- With `row_checking="generous"`, for whole objects. -/
theorem generous_good_iff (kinds : List (String × TabKind)) (obj : PyDict String AttrVal) :
    goodTicDatObject false kinds obj = some true ↔
      ∀ tk ∈ kinds, ∃ a, PyDict.get? obj tk.1 = some a ∧ ((∃ v, a = .frame v) ↔ tk.2 = .generic) ∧ GenerousTable tk.2 a := by
  unfold goodTicDatObject
  rw [goodLoop_true]
  simp only [true_and, generous_table_iff]
  have : ∀ (a : AttrVal) (k : TabKind), ¬ (a.isFrame != k.isGeneric) = true ↔ ((∃ v, a = .frame v) ↔ k = .generic) := by
    intro a k
    cases a <;> cases k <;> simp [AttrVal.isFrame, TabKind.isGeneric]
  simp only [this]

/-! ## The constructor -/

theorem initTable_dict_ne (c : TabClass) (hp : c.pks ≠ []) (d : PyDict KeyArg RowIn) :
    initTable c (.dict d) ≠ none ↔ ∀ p ∈ d, keyLen p.1 = c.pks.length ∧ RowFits c.dfs p.2 := by
  unfold initTable goodTableForInit
  simp only [ne_eq, hp, not_false_eq_true, if_true]
  have hbuild : (∀ p ∈ d, keyLen p.1 = c.pks.length ∧ RowFits c.dfs p.2) →
      (PyDict.keys d).all (keyVerify c.pks.length) = true ∧
        ∃ l, d.mapM (fun p => (initRow c p.2).map (fun row => (p.1, row))) = some l := by
    intro h
    constructor
    · rw [List.all_eq_true]
      intro k hk
      obtain ⟨p, hpd, rfl⟩ := List.mem_map.mp hk
      exact keyVerify_of_len (h p hpd).1 (fun e => hp (List.length_eq_zero_iff.mp e))
    · apply mapM_some_of_forall
      intro p hpd
      obtain ⟨row, hr⟩ := (goodRow_iff c p.2).mp ((goodRow_iff_fits _ _).mpr (h p hpd).2)
      rw [hr]
      rfl
  constructor
  · intro h p hpd
    split at h
    · rename_i hg
      rw [Bool.or_eq_true] at hg
      rcases hg with hg | hg
      · rw [List.isEmpty_iff.mp hg] at hpd; cases hpd
      · rw [Bool.and_eq_true] at hg
        exact ⟨of_decide_eq_true (List.all_eq_true.mp hg.1 p.1 (List.mem_map.mpr ⟨p, hpd, rfl⟩)),
          (goodRow_iff_fits _ _).mp (List.all_eq_true.mp hg.2 p hpd)⟩
    · exact absurd rfl h
  · intro h
    obtain ⟨h1, l, h2⟩ := hbuild h
    rw [if_pos, h1, h2]
    · simp
    · rw [Bool.or_eq_true, Bool.and_eq_true]
      refine .inr ⟨List.all_eq_true.mpr (fun k hk => ?_), List.all_eq_true.mpr (fun p hpd => (goodRow_iff_fits _ _).mpr (h p hpd).2)⟩
      obtain ⟨p, hpd, rfl⟩ := List.mem_map.mp hk
      exact decide_eq_true (h p hpd).1

theorem initTable_plain_ne (c : TabClass) (hp : c.pks = []) (rows : List RowIn) :
    initTable c (.seq rows) ≠ none ↔ ∀ r ∈ rows, RowFits c.dfs r := by
  unfold initTable goodTableForInit
  simp only [ne_eq, hp, not_true_eq_false, if_false]
  constructor
  · intro h r hr
    split at h
    · rename_i hg
      exact (goodRow_iff_fits _ _).mp (List.all_eq_true.mp hg r hr)
    · exact absurd rfl h
  · intro h
    rw [if_pos (List.all_eq_true.mpr (fun r hr => (goodRow_iff_fits _ _).mpr (h r hr)))]
    obtain ⟨l, hl⟩ := mapM_some_of_forall (initRow c) rows (fun r hr =>
      Option.isSome_iff_exists.mpr ((goodRow_iff c r).mp ((goodRow_iff_fits _ _).mpr (h r hr))))
    rw [hl]
    simp

theorem initTable_dict_plain_ne (c : TabClass) (hp : c.pks = []) (d : PyDict KeyArg RowIn) :
    initTable c (.dict d) ≠ none ↔ ∀ k ∈ PyDict.keys d, keyLen k = c.dfs.length := by
  have hfit : ∀ k : KeyArg, RowFits c.dfs k.asRow ↔ keyLen k = c.dfs.length := by
    intro k
    cases k with
    | one v => exact ⟨fun h => Eq.symm h, fun h => Eq.symm h⟩
    | tup vs => exact Iff.rfl
  unfold initTable goodTableForInit
  simp only [ne_eq, hp, not_true_eq_false, if_false]
  constructor
  · intro h k hk
    split at h
    · rename_i hg
      exact (hfit k).mp ((goodRow_iff_fits _ _).mp (List.all_eq_true.mp hg k hk))
    · exact absurd rfl h
  · intro h
    rw [if_pos (List.all_eq_true.mpr (fun k hk => (goodRow_iff_fits _ _).mpr ((hfit k).mpr (h k hk))))]
    obtain ⟨l, hl⟩ := mapM_some_of_forall (fun k => initRow c k.asRow) (PyDict.keys d) (fun k hk =>
      Option.isSome_iff_exists.mpr ((goodRow_iff c k.asRow).mp ((goodRow_iff_fits _ _).mpr ((hfit k).mpr (h k hk)))))
    rw [hl]
    simp

/-- The assumptions on a schema: distinct fields, distinct default entries. -/
def KindOK : TabKind → Prop
  | .generic => True
  | .generator _ => True
  | .plain c => (c.pks ++ c.dfs).Nodup ∧ (PyDict.keys c.defaults).Nodup

/-- The assumptions on an argument: Python dictionaries have distinct keys, DataFrames are rectangular. -/
def ArgOK : AttrVal → Prop
  | .tab (.dict d) => (PyDict.keys d).Nodup ∧ ∀ p ∈ d, DictRow p.2
  | .tab (.seq rows) => ∀ r ∈ rows, DictRow r
  | .call rows => ∀ r ∈ rows, DictRow r
  | .frame v => FrameOK v
  | .other => True

theorem initAttr_ne (mk : AttrVal → Option Frame) (k : TabKind) (hk : KindOK k) (a : AttrVal) (ha : ArgOK a) :
    initAttr mk k a ≠ none ↔ Builds mk k a := by
  cases k with
  | generic => simp [initAttr, Builds]
  | generator c =>
    cases a with
    | tab x =>
      cases x with
      | dict d => simp [initAttr, Builds]
      | seq rows =>
        simp only [initAttr, Builds]
        constructor
        · intro h
          refine ⟨rows, .inl rfl, ?_⟩
          split at h
          · rename_i hg; exact (goodRows_generous _ _).mp hg
          · exact absurd rfl h
        · rintro ⟨rows', h | h, hr⟩ <;> cases h
          rw [if_pos ((goodRows_generous _ _).mpr hr)]
          simp
    | call rows =>
      simp only [initAttr, Builds]
      constructor
      · intro h
        refine ⟨rows, .inr rfl, ?_⟩
        split at h
        · rename_i hg; exact (goodRows_generous _ _).mp hg
        · exact absurd rfl h
      · rintro ⟨rows', h | h, hr⟩ <;> cases h
        rw [if_pos ((goodRows_generous _ _).mpr hr)]
        simp
    | frame v => simp [initAttr, Builds]
    | other => simp [initAttr, Builds]
  | plain c =>
    cases a with
    | tab x =>
      have : initAttr mk (.plain c) (.tab x) ≠ none ↔ initTable c x ≠ none := by simp [initAttr]
      rw [this]
      cases x with
      | dict d =>
        simp only [Builds]
        by_cases hp : c.pks = []
        · rw [if_pos hp, initTable_dict_plain_ne c hp]
        · rw [if_neg hp, initTable_dict_ne c hp]
      | seq rows =>
        simp only [Builds]
        by_cases hp : c.pks = []
        · rw [initTable_plain_ne c hp, hp, List.nil_append]
        · exact (init_from_rows_partial c hp hk.1 rows).1
    | call rows => simp [initAttr, Builds]
    | frame v =>
      have : initAttr mk (.plain c) (.frame v) ≠ none ↔ initFrame c v ≠ none := by simp [initAttr]
      rw [this]
      exact (init_from_frame c hk.1 hk.2 v ha).1
    | other => simp [initAttr, Builds]

/-- The length test of the constructor, for one argument. -/
theorem lost_iff (mk : AttrVal → Option Frame) (k : TabKind) (hk : KindOK k) (a : AttrVal) (ha : ArgOK a) (out : OutTab)
    (h : initAttr mk k a = some out) (t : String) (tabs : PyDict String OutTab) (ht : PyDict.get? tabs t = some out) :
    lostRows tabs (t, a) = true ↔ SeemsLost mk k a := by
  unfold lostRows
  simp only [ht, Option.bind_some]
  cases k with
  | generic =>
    simp only [initAttr, Option.map_eq_some_iff] at h
    obtain ⟨v, hv, rfl⟩ := h
    simp only [SeemsLost, OutTab.len, Option.getD_some, hv]
    cases a.len with
    | none => simp
    | some n => simp
  | generator c =>
    have hgen : ∃ rows, out = .gen c rows ∧ (a = .tab (.seq rows) ∨ a = .call rows) := by
      cases a with
      | tab x =>
        cases x with
        | dict d => cases h
        | seq rows =>
          simp only [initAttr] at h
          split at h
          · cases h; exact ⟨rows, rfl, .inl rfl⟩
          · cases h
      | call rows =>
        simp only [initAttr] at h
        split at h
        · cases h; exact ⟨rows, rfl, .inr rfl⟩
        · cases h
      | frame v => cases h
      | other => cases h
    obtain ⟨rows, rfl, ha | ha⟩ := hgen
    · subst ha
      simp only [SeemsLost, OutTab.len, AttrVal.len, TableIn.size, Option.getD_none, decide_eq_true_eq, gt_iff_lt,
        List.length_pos_iff, AttrVal.tab.injEq, TableIn.seq.injEq]
      exact ⟨fun h => ⟨rows, rfl, h⟩, fun ⟨_, e, h⟩ => e ▸ h⟩
    · subst ha
      simp [SeemsLost, AttrVal.len]
  | plain c =>
    cases a with
    | tab x =>
      simp only [initAttr, Option.map_eq_some_iff] at h
      obtain ⟨tab, hv, rfl⟩ := h
      simp only [AttrVal.len, OutTab.len, Option.getD_some]
      refine Iff.trans decide_eq_true_iff ?_
      rw [initTable_size c x tab hk.1 (fun d e => by subst e; exact ha.1) hv]
      cases x with
      | dict d => simp [SeemsLost]
      | seq rows =>
        simp only [SeemsLost, TableIn.seq.injEq]
        exact ⟨fun ⟨h1, rows', e, h2⟩ => ⟨h1, e ▸ h2⟩, fun ⟨h1, h2⟩ => ⟨h1, rows, rfl, h2⟩⟩
    | call rows => cases h
    | other => cases h
    | frame v =>
      simp only [initAttr, Option.map_eq_some_iff] at h
      obtain ⟨tab, hv, rfl⟩ := h
      obtain ⟨_, rfl⟩ := (initFrame_val c hk.1 hk.2 v ha tab).mp hv
      simp only [AttrVal.len, OutTab.len, Option.getD_some, decide_eq_true_eq, rowsTable_size, SeemsLost]

/-- **C54, the constructor.**  `TicDat(**tables)`, for a schema with generic tables and generator tables, succeeds exactly
if every argument is for a table of the schema and can be made into that table and, with the default policy for
duplicates, no rows seem to be lost.  Every table is then made of its argument, or empty if there is none. -/
theorem init_kinds_iff (mk : AttrVal → Option Frame) (policy : DupPolicy) (kinds : List (String × TabKind))
    (hs : (kinds.map Prod.fst).Nodup) (hk : ∀ tk ∈ kinds, KindOK tk.2) (input : PyDict String AttrVal)
    (hi : (PyDict.keys input).Nodup) (ha : ∀ p ∈ input, ArgOK p.2) :
    (initKinds mk policy kinds input ≠ none ↔ (∀ t ∈ PyDict.keys input, t ∈ kinds.map Prod.fst) ∧
      ∀ tk ∈ kinds, ∀ a, PyDict.get? input tk.1 = some a → Builds mk tk.2 a ∧ (policy = .assert → ¬ SeemsLost mk tk.2 a)) ∧
    ∀ tabs, initKinds mk policy kinds input = some tabs → PyDict.keys tabs = kinds.map Prod.fst ∧
      ∀ tk ∈ kinds, ∃ out, PyDict.get? tabs tk.1 = some out ∧
        (PyDict.get? input tk.1 = none → out = emptyAttr tk.2) ∧
        ∀ a, PyDict.get? input tk.1 = some a → initAttr mk tk.2 a = some out := by
  -- facts about the tables, if they can be built
  have hfacts : ∀ tabs, kinds.mapM (initKindEntry mk input) = some tabs → PyDict.keys tabs = kinds.map Prod.fst ∧
      ∀ tk ∈ kinds, ∃ out, PyDict.get? tabs tk.1 = some out ∧
        (PyDict.get? input tk.1 = none → out = emptyAttr tk.2) ∧
        ∀ a, PyDict.get? input tk.1 = some a → initAttr mk tk.2 a = some out := by
    intro tabs h
    rw [mapM_eq_some_iff] at h
    have hfst : ∀ tk x, initKindEntry mk input tk = some x → x.1 = tk.1 := by
      intro tk x hx
      unfold initKindEntry at hx
      split at hx
      · cases hx; rfl
      · obtain ⟨v, _, rfl⟩ := Option.map_eq_some_iff.mp hx; rfl
    have hkeys : PyDict.keys tabs = kinds.map Prod.fst := by
      clear hs hk
      unfold PyDict.keys
      induction kinds generalizing tabs with
      | nil => cases tabs with
        | nil => rfl
        | cons x xs => simp at h
      | cons tk rest ih => cases tabs with
        | nil => simp at h
        | cons x xs =>
          simp only [List.map_cons, List.cons.injEq] at h ⊢
          exact ⟨hfst tk x h.1, ih xs h.2⟩
    refine ⟨hkeys, fun tk htk => ?_⟩
    have hm : initKindEntry mk input tk ∈ tabs.map some := by rw [← h]; exact List.mem_map.mpr ⟨tk, htk, rfl⟩
    obtain ⟨x, hx, he⟩ := List.mem_map.mp hm
    have hg : PyDict.get? tabs tk.1 = some x.2 := by
      apply PyDict.get?_of_mem
      · rw [hkeys]; exact hs
      · rw [← hfst tk x he.symm]; exact hx
    refine ⟨x.2, hg, fun hn => ?_, fun a hin => ?_⟩
    · unfold initKindEntry at he; rw [hn] at he; cases he; rfl
    · unfold initKindEntry at he; rw [hin] at he
      obtain ⟨v, hv, hx⟩ := Option.map_eq_some_iff.mp he.symm
      rw [hv, ← hx]
  have hlost : ∀ tabs, kinds.mapM (initKindEntry mk input) = some tabs → (∀ t ∈ PyDict.keys input, t ∈ kinds.map Prod.fst) →
      (input.any (lostRows tabs) = true ↔ ∃ tk ∈ kinds, ∃ a, PyDict.get? input tk.1 = some a ∧ SeemsLost mk tk.2 a) := by
    intro tabs ht hin
    obtain ⟨_, hf⟩ := hfacts tabs ht
    rw [List.any_eq_true]
    constructor
    · rintro ⟨p, hp, hl⟩
      obtain ⟨tk, htk, he⟩ := List.mem_map.mp (hin p.1 (List.mem_map.mpr ⟨p, hp, rfl⟩))
      obtain ⟨out, ho, _, hb⟩ := hf tk htk
      have hg : PyDict.get? input tk.1 = some p.2 := PyDict.get?_of_mem hi (by rw [he]; exact hp)
      refine ⟨tk, htk, p.2, hg, (lost_iff mk tk.2 (hk tk htk) p.2 (ha p hp) out (hb p.2 hg) tk.1 tabs ho).mp ?_⟩
      rw [he]; exact hl
    · rintro ⟨tk, htk, a, hg, hsl⟩
      obtain ⟨out, ho, _, hb⟩ := hf tk htk
      have hp := PyDict.get?_mem hg
      exact ⟨(tk.1, a), hp, (lost_iff mk tk.2 (hk tk htk) a (ha _ hp) out (hb a hg) tk.1 tabs ho).mpr hsl⟩
  constructor
  · constructor
    · intro h
      unfold initKinds at h
      split at h
      · rename_i hall
        have hin : ∀ t ∈ PyDict.keys input, t ∈ kinds.map Prod.fst := by
          intro t ht
          obtain ⟨p, hp, rfl⟩ := List.mem_map.mp ht
          exact of_decide_eq_true (List.all_eq_true.mp hall p hp)
        refine ⟨hin, fun tk htk a hg => ?_⟩
        cases hm : kinds.mapM (initKindEntry mk input) with
        | none => rw [hm] at h; exact absurd rfl h
        | some tabs =>
          simp only [hm] at h
          obtain ⟨_, hf⟩ := hfacts tabs hm
          obtain ⟨out, ho, _, hb⟩ := hf tk htk
          refine ⟨(initAttr_ne mk tk.2 (hk tk htk) a (ha _ (PyDict.get?_mem hg))).mp (by rw [hb a hg]; simp), fun hpol hsl => ?_⟩
          have := (hlost tabs hm hin).mpr ⟨tk, htk, a, hg, hsl⟩
          rw [hpol, this] at h
          exact h rfl
      · exact absurd rfl h
    · rintro ⟨hin, hb⟩
      have hall : input.all (fun p => decide (p.1 ∈ kinds.map Prod.fst)) = true :=
        List.all_eq_true.mpr (fun p hp => decide_eq_true (hin p.1 (List.mem_map.mpr ⟨p, hp, rfl⟩)))
      obtain ⟨tabs, hm⟩ := mapM_some_of_forall (initKindEntry mk input) kinds (fun tk htk => by
        unfold initKindEntry
        cases hg : PyDict.get? input tk.1 with
        | none => rfl
        | some a =>
          simp only [Option.isSome_map]
          have := (initAttr_ne mk tk.2 (hk tk htk) a (ha _ (PyDict.get?_mem hg))).mpr (hb tk htk a hg).1
          exact Option.isSome_iff_ne_none.mpr this)
      unfold initKinds
      rw [if_pos hall, hm]
      simp only
      rw [if_neg]
      · simp
      · rw [Bool.and_eq_true]
        rintro ⟨hpol, hl⟩
        obtain ⟨tk, htk, a, hg, hsl⟩ := (hlost tabs hm hin).mp hl
        exact (hb tk htk a hg).2 (of_decide_eq_true hpol) hsl
  · intro tabs h
    unfold initKinds at h
    split at h
    · cases hm : kinds.mapM (initKindEntry mk input) with
      | none => rw [hm] at h; cases h
      | some tabs' =>
        simp only [hm] at h
        split at h
        · cases h
        · cases h
          exact hfacts _ hm
    · cases h

/-! ## A good object can be rebuilt, and what is built is good -/

theorem pairwise2_mapM_of {A B : Type} {R : A → B → Prop} {g : A → Option B} (l : List A)
    (h : ∀ a ∈ l, ∃ b, g a = some b ∧ R a b) : ∃ l', l.mapM g = some l' ∧ Pairwise2 R l l' := by
  induction l with
  | nil => exact ⟨[], rfl, .nil⟩
  | cons a l ih =>
    obtain ⟨b, hb, hr⟩ := h a List.mem_cons_self
    obtain ⟨l', hl, hp⟩ := ih (fun x hx => h x (List.mem_cons_of_mem _ hx))
    exact ⟨b :: l', by simp [List.mapM_cons, hb, hl], .cons hr hp⟩

theorem exactRow_same (c : TabClass) (hn : c.dfs.Nodup) (r : RowIn) (hd : DictRow r) (h : ExactRow c.dfs r) :
    ∃ row, initRow c r = some row ∧ SameRow c.dfs r row := by
  cases r with
  | seq vs => exact h.elim
  | scalar v => exact h.elim
  | dict d =>
    refine ⟨filledRow c d, (initRow_iff c hn (.dict d) hd _).mpr ⟨fun f hf => (h f).mp hf, rfl⟩, d, rfl, ?_, ?_⟩
    · unfold PyDict.keys filledRow; simp [Function.comp_def]
    · intro f hf
      have hm : (f, match PyDict.get? d f with
          | some v => v
          | none => match PyDict.get? c.defaults f with
            | some v => v
            | none => .num (.fin 0)) ∈ filledRow c d := List.mem_map.mpr ⟨f, hf, rfl⟩
      rw [PyDict.get?_of_mem (by unfold PyDict.keys filledRow; simpa [Function.comp_def] using hn) hm]
      cases hg : PyDict.get? d f with
      | some v => rfl
      | none => exact absurd ((h f).mpr hf) ((PyDict.get?_eq_none d f).mp hg)

theorem pairwise2_fst_map {A B : Type} {R : (KeyArg × A) → (KeyArg × B) → Prop} {l : List (KeyArg × A)} {l' : List (KeyArg × B)}
    (h : Pairwise2 R l l') (hr : ∀ p q, R p q → q.1 = p.1) : l'.map Prod.fst = l.map Prod.fst := by
  induction h with
  | nil => rfl
  | cons h _ ih => simp [hr _ _ h, ih]

/-- A table that passes the strict check is rebuilt with the same rows. -/
theorem strict_table_rebuilt (c : TabClass) (hn : (c.pks ++ c.dfs).Nodup) (x : TableIn) (ha : ArgOK (.tab x))
    (h : StrictTable (.plain c) (.tab x)) : ∃ v, initTable c x = some v ∧ SameTable c x v ∧ ¬ SeemsLost (fun _ => none) (.plain c) (.tab x) := by
  have hnd := (List.nodup_append.mp hn).2.1
  by_cases hp : c.pks = []
  · simp only [StrictTable, hp, if_true] at h
    rcases h with h | ⟨rows, h, hr⟩
    · cases h
      refine ⟨.plain [], ?_, ⟨rfl, rfl⟩, fun h => h⟩
      unfold initTable goodTableForInit
      simp [hp, PyDict.keys]
    · cases h
      obtain ⟨out, ho, hs⟩ := pairwise2_mapM_of (g := initRow c) rows (fun r hrm => exactRow_same c hnd r (ha r hrm) (hr r hrm))
      refine ⟨.plain out, ?_, hs, fun h => h.1 hp⟩
      unfold initTable goodTableForInit
      simp only [hp, ne_eq, not_true_eq_false, if_false]
      rw [if_pos (List.all_eq_true.mpr (fun r hrm => (goodRow_iff_fits _ _).mpr (exactRow_fits (hr r hrm)))), ho]
      rfl
  · simp only [StrictTable, hp, if_false] at h
    obtain ⟨d, h, hd⟩ := h
    cases h
    obtain ⟨l, hl, hs⟩ := pairwise2_mapM_of (g := fun p : KeyArg × RowIn => (initRow c p.2).map (fun row => (p.1, row)))
      (R := fun (p : KeyArg × RowIn) (q : KeyArg × RowVal) => q.1 = p.1 ∧ SameRow c.dfs p.2 q.2) d (fun p hpd => by
        obtain ⟨row, h1, h2⟩ := exactRow_same c hnd p.2 (ha.2 p hpd) (hd p hpd).2
        exact ⟨(p.1, row), by rw [h1]; rfl, rfl, h2⟩)
    refine ⟨.keyed l, ?_, hs, fun h => h⟩
    have hkeys : (l.map Prod.fst).Nodup := by
      rw [pairwise2_fst_map hs (fun p q h => h.1)]
      exact ha.1
    unfold initTable goodTableForInit
    simp only [hp, ne_eq, not_false_eq_true, if_true]
    rw [if_pos, if_pos, hl]
    · rw [Option.map_some, PyDict.ofList_of_nodup _ hkeys]
    · rw [List.all_eq_true]
      intro k hk
      obtain ⟨p, hpd, rfl⟩ := List.mem_map.mp hk
      exact keyVerify_of_len (hd p hpd).1 (fun e => hp (List.length_eq_zero_iff.mp e))
    · rw [Bool.or_eq_true, Bool.and_eq_true]
      refine .inr ⟨List.all_eq_true.mpr (fun k hk => ?_),
        List.all_eq_true.mpr (fun p hpd => (goodRow_iff_fits _ _).mpr (exactRow_fits (hd p hpd).2))⟩
      obtain ⟨p, hpd, rfl⟩ := List.mem_map.mp hk
      exact decide_eq_true (hd p hpd).1

/-- **C54, good objects can be built.**  If `good_tic_dat_object` returns `True` for an object with just the tables of the
schema, the constructor accepts its tables under every policy for duplicates and makes an object with the same rows and
DataFrames, provided that generator tables are given as functions (or empty, or the policy is not the default one). -/
theorem strict_good_builds (mk : AttrVal → Option Frame) (hmk : ∀ v, mk (.frame v) = some v) (policy : DupPolicy)
    (kinds : List (String × TabKind)) (hs : (kinds.map Prod.fst).Nodup) (hk : ∀ tk ∈ kinds, KindOK tk.2)
    (obj : PyDict String AttrVal) (hi : (PyDict.keys obj).Nodup) (ha : ∀ p ∈ obj, ArgOK p.2)
    (hin : ∀ t ∈ PyDict.keys obj, t ∈ kinds.map Prod.fst)
    (hgen : policy = .assert → ∀ t c rows, (t, TabKind.generator c) ∈ kinds → PyDict.get? obj t = some (.tab (.seq rows)) → rows = [])
    (hgood : goodTicDatObject true kinds obj = some true) :
    ∃ tabs, initKinds mk policy kinds obj = some tabs ∧ PyDict.keys tabs = kinds.map Prod.fst ∧
      ∀ tk ∈ kinds, ∃ a out, PyDict.get? obj tk.1 = some a ∧ PyDict.get? tabs tk.1 = some out ∧ SameAttr a out tk.2 := by
  have hg := (strict_good_iff kinds obj).mp hgood
  obtain ⟨hiff, hcont⟩ := init_kinds_iff mk policy kinds hs hk obj hi ha
  have hone : ∀ tk ∈ kinds, ∀ a, PyDict.get? obj tk.1 = some a → ∃ out, initAttr mk tk.2 a = some out ∧ SameAttr a out tk.2 ∧
      (policy = .assert → ¬ SeemsLost mk tk.2 a) := by
    intro tk htk a hga
    obtain ⟨a', hga', hst⟩ := hg tk htk
    rw [hga] at hga'
    cases hga'
    have haok := ha _ (PyDict.get?_mem hga)
    obtain ⟨t, k⟩ := tk
    cases k with
    | generic =>
      obtain ⟨v, rfl⟩ := hst
      refine ⟨.frame v, by simp [initAttr, hmk], rfl, fun _ => ?_⟩
      rintro ⟨v', n, h1, h2, h3⟩
      rw [hmk] at h1
      cases h1
      cases h2
      exact Nat.lt_irrefl _ h3
    | generator c =>
      obtain ⟨rows, rfl | rfl, hr⟩ := hst
      · refine ⟨.gen c rows, ?_, ⟨rfl, rfl⟩, ?_⟩
        · simp only [initAttr]
          rw [if_pos ((goodRows_generous _ _).mpr (fun r hrm => exactRow_fits (hr r hrm)))]
        · rintro hpol ⟨rows', e, hne⟩
          cases e
          exact hne (hgen hpol t c rows htk hga)
      · refine ⟨.gen c rows, ?_, ⟨rfl, rfl⟩, ?_⟩
        · simp only [initAttr]
          rw [if_pos ((goodRows_generous _ _).mpr (fun r hrm => exactRow_fits (hr r hrm)))]
        · rintro _ ⟨rows', e, _⟩
          cases e
    | plain c =>
      have htab : ∃ x, a = .tab x := by
        simp only [StrictTable] at hst
        split at hst
        · rcases hst with h | ⟨rows, h, _⟩
          · exact ⟨_, h⟩
          · exact ⟨_, h⟩
        · obtain ⟨d, h, _⟩ := hst; exact ⟨_, h⟩
      obtain ⟨x, rfl⟩ := htab
      obtain ⟨v, hv, hsame, hlost⟩ := strict_table_rebuilt c (hk _ htk).1 x haok hst
      refine ⟨.tab v, by simp [initAttr, hv], by cases x <;> exact hsame, fun _ h => hlost ?_⟩
      cases x with
      | dict d => exact h
      | seq rows => exact h
  have hne : initKinds mk policy kinds obj ≠ none := hiff.mpr ⟨hin, fun tk htk a hga => by
    obtain ⟨out, h1, _, h3⟩ := hone tk htk a hga
    exact ⟨(initAttr_ne mk tk.2 (hk tk htk) a (ha _ (PyDict.get?_mem hga))).mp (by rw [h1]; simp), h3⟩⟩
  obtain ⟨tabs, ht⟩ := Option.ne_none_iff_exists'.mp hne
  obtain ⟨hkeys, hc⟩ := hcont tabs ht
  refine ⟨tabs, ht, hkeys, fun tk htk => ?_⟩
  obtain ⟨a, hga, _⟩ := hg tk htk
  obtain ⟨out, ho, _, hb⟩ := hc tk htk
  obtain ⟨out', h1, h2, _⟩ := hone tk htk a hga
  rw [hb a hga] at h1
  cases h1
  exact ⟨a, out, hga, ho, h2⟩

/-- What `good_tic_dat_object` sees of a table that the constructor made: rows are dictionaries, a generator table is a
function (ticdatfactory.py:733-740). -/
def OutTab.attr : OutTab → AttrVal
  | .tab (.keyed d) => .tab (.dict (d.map (fun p => (p.1, .dict p.2))))
  | .tab (.plain rows) => .tab (.seq (rows.map .dict))
  | .gen c rows => .call ((rows.filterMap (initRow c)).map .dict)
  | .frame v => .frame v

theorem exact_of_keys (dfs : List String) (row : RowVal) (h : PyDict.keys row = dfs) : ExactRow dfs (.dict row) := by
  intro f; rw [h]

theorem keyShape_len {n : Nat} {k : KeyArg} (h : KeyShape n k) : keyLen k = n := by
  cases k with
  | one v => exact Eq.symm h
  | tup vs => exact h.1.symm

theorem wellShaped_strict (c : TabClass) (v : TabVal) (h : WellShaped c v) : StrictTable (.plain c) (OutTab.tab v).attr := by
  cases v with
  | keyed d =>
    simp only [StrictTable, h.1, if_false, OutTab.attr]
    refine ⟨_, rfl, fun p hp => ?_⟩
    obtain ⟨q, hq, rfl⟩ := List.mem_map.mp hp
    exact ⟨keyShape_len (h.2.2 q hq).1, exact_of_keys _ _ (h.2.2 q hq).2⟩
  | plain rows =>
    simp only [StrictTable, h.1, if_true, OutTab.attr]
    refine .inr ⟨_, rfl, fun r hr => ?_⟩
    obtain ⟨q, hq, rfl⟩ := List.mem_map.mp hr
    exact exact_of_keys _ _ (h.2 q hq)

theorem initRow_keys (c : TabClass) (hn : c.dfs.Nodup) (r : RowIn) (hd : DictRow r) (row : RowVal) (h : initRow c r = some row) :
    PyDict.keys row = c.dfs := rowGives_keys c r row ((initRow_iff c hn r hd row).mp h)

theorem built_table_strict (c : TabClass) (hn : (c.pks ++ c.dfs).Nodup) (x : TableIn) (ha : ArgOK (.tab x)) (v : TabVal)
    (h : initTable c x = some v) : StrictTable (.plain c) (OutTab.tab v).attr := by
  have hnd := (List.nodup_append.mp hn).2.1
  cases x with
  | seq rows => exact wellShaped_strict c v (init_well_shaped c hn rows ha v h)
  | dict d =>
    by_cases hp : c.pks = []
    · unfold initTable at h
      simp only [hp, ne_eq, not_true_eq_false, if_false] at h
      split at h
      · obtain ⟨rows, hr, rfl⟩ := Option.map_eq_some_iff.mp h
        refine wellShaped_strict c _ ⟨hp, fun r hrm => ?_⟩
        rw [mapM_eq_some_iff] at hr
        have : some r ∈ (PyDict.keys d).map (fun k => initRow c k.asRow) := by rw [hr]; exact List.mem_map.mpr ⟨r, hrm, rfl⟩
        obtain ⟨k, _, hk⟩ := List.mem_map.mp this
        exact initRow_keys c hnd k.asRow (by cases k <;> trivial) r hk
      · cases h
    · obtain ⟨hlen, d', rfl, hkeys, hget⟩ := (init_from_dict c hp hnd d ha.1 ha.2 v).mp h
      simp only [StrictTable, hp, if_false, OutTab.attr]
      refine ⟨_, rfl, fun p hpd => ?_⟩
      obtain ⟨q, hq, rfl⟩ := List.mem_map.mp hpd
      have hqk : q.1 ∈ PyDict.keys d := by rw [← hkeys]; exact List.mem_map.mpr ⟨q, hq, rfl⟩
      refine ⟨hlen q.1 hqk, ?_⟩
      obtain ⟨p, hp', he⟩ := List.mem_map.mp hqk
      obtain ⟨row, hrow, hgv⟩ := hget q.1 p.2 (PyDict.get?_of_mem ha.1 (by rw [← he]; exact hp'))
      have : PyDict.get? d' q.1 = some q.2 := PyDict.get?_of_mem (by rw [hkeys]; exact ha.1) hq
      rw [this] at hrow
      cases hrow
      exact exact_of_keys _ _ (rowGives_keys c p.2 q.2 hgv)

theorem rowsTable_wellShaped {R : Type} (c : TabClass) (rows : List R) (cell : R → String → Cell) :
    WellShaped c (rowsTable c rows cell) := by
  unfold rowsTable
  split
  · rename_i hp
    refine ⟨hp, fun r hr => ?_⟩
    obtain ⟨q, _, rfl⟩ := List.mem_map.mp hr
    exact dataFrom_keys _ _
  · rename_i hp
    refine ⟨hp, PyDict.ofList_keys_nodup _, fun p hpd => ?_⟩
    have hg := PyDict.get?_of_mem (PyDict.ofList_keys_nodup _) hpd
    rw [get?_ofList_last] at hg
    obtain ⟨q, hq, he⟩ := Option.map_eq_some_iff.mp hg
    have hm := List.mem_filter.mp (List.mem_of_getLast? hq)
    obtain ⟨r, _, rfl⟩ := List.mem_map.mp hm.1
    have hk := of_decide_eq_true hm.2
    simp only at he hk
    rw [← he, ← hk]
    refine ⟨?_, dataFrom_keys _ _⟩
    exact keyShape_of_keyOK (keyFrom_shape c.pks hp (cell r))

/-- **C54, what is built is good.**  Whatever tables the constructor accepts, `good_tic_dat_object` returns `True` for the
object that it makes. -/
theorem built_is_good (mk : AttrVal → Option Frame) (policy : DupPolicy) (kinds : List (String × TabKind))
    (hs : (kinds.map Prod.fst).Nodup) (hk : ∀ tk ∈ kinds, KindOK tk.2) (hg : ∀ t c, (t, TabKind.generator c) ∈ kinds → c.dfs.Nodup)
    (input : PyDict String AttrVal) (hi : (PyDict.keys input).Nodup) (ha : ∀ p ∈ input, ArgOK p.2) (tabs : PyDict String OutTab)
    (h : initKinds mk policy kinds input = some tabs) :
    goodTicDatObject true kinds (tabs.map (fun p => (p.1, p.2.attr))) = some true := by
  obtain ⟨hkeys, hc⟩ := (init_kinds_iff mk policy kinds hs hk input hi ha).2 tabs h
  rw [strict_good_iff]
  intro tk htk
  obtain ⟨out, ho, hnone, hsome⟩ := hc tk htk
  refine ⟨out.attr, ?_, ?_⟩
  · apply PyDict.get?_of_mem
    · unfold PyDict.keys at hkeys ⊢
      rw [List.map_map]
      show (tabs.map Prod.fst).Nodup
      rw [hkeys]; exact hs
    · exact List.mem_map.mpr ⟨(tk.1, out), PyDict.get?_mem ho, rfl⟩
  · obtain ⟨t, k⟩ := tk
    have hgenOK : ∀ c rows, k = .generator c → (∀ r ∈ rows, DictRow r) → out = .gen c rows → StrictTable k out.attr := by
      rintro c rows rfl hd rfl
      refine ⟨_, .inr rfl, fun r hr => ?_⟩
      obtain ⟨row, hrow, rfl⟩ := List.mem_map.mp hr
      obtain ⟨r0, hr0, he⟩ := List.mem_filterMap.mp hrow
      exact exact_of_keys _ _ (initRow_keys c (hg t c htk) r0 (hd r0 hr0) row he)
    cases hin : PyDict.get? input t with
    | none =>
      have he := hnone hin
      cases k with
      | generic => subst he; exact ⟨_, rfl⟩
      | generator c => exact hgenOK c [] rfl (fun r hr => by cases hr) he
      | plain c =>
        subst he
        refine wellShaped_strict c _ ?_
        unfold emptyTable
        split
        · rename_i hp; exact ⟨hp, by simp [PyDict.keys], fun p hp => by cases hp⟩
        · rename_i hp; exact ⟨Decidable.not_not.mp hp, fun r hr => by cases hr⟩
    | some a =>
      have he := hsome a hin
      have haok := ha _ (PyDict.get?_mem hin)
      cases k with
      | generic =>
        simp only [initAttr, Option.map_eq_some_iff] at he
        obtain ⟨v, _, rfl⟩ := he
        exact ⟨_, rfl⟩
      | generator c =>
        cases a with
        | tab x =>
          cases x with
          | dict d => cases he
          | seq rows =>
            simp only [initAttr] at he
            split at he
            · cases he; exact hgenOK c rows rfl haok rfl
            · cases he
        | call rows =>
          simp only [initAttr] at he
          split at he
          · cases he; exact hgenOK c rows rfl haok rfl
          · cases he
        | frame v => cases he
        | other => cases he
      | plain c =>
        cases a with
        | tab x =>
          simp only [initAttr, Option.map_eq_some_iff] at he
          obtain ⟨v, hv, rfl⟩ := he
          exact built_table_strict c (hk _ htk).1 x haok v hv
        | call rows => cases he
        | other => cases he
        | frame v =>
          simp only [initAttr, Option.map_eq_some_iff] at he
          obtain ⟨tab, hv, rfl⟩ := he
          obtain ⟨_, rfl⟩ := (initFrame_val c (hk _ htk).1 (hk _ htk).2 v haok tab).mp hv
          exact wellShaped_strict c _ (rowsTable_wellShaped c _ _)

/-! ## Examples and findings -/

def itemClass : TabClass := ⟨["id"], ["qty"], []⟩
def logClass : TabClass := ⟨[], ["line"], []⟩

/-- A schema with a table of each kind. -/
def mixedKinds : List (String × TabKind) :=
  [("items", .plain itemClass), ("log", .generator logClass), ("raw", .generic), ("notes", .plain logClass)]

def mixedObj : PyDict String AttrVal :=
  [("items", .tab (.dict [(.one (.str "a"), .dict [("qty", .num (.fin 1))])])), ("log", .call [.dict [("line", .str "x")]]),
   ("raw", .frame ⟨[], [.name "z"], [([], [.num (.fin 2)])]⟩), ("notes", .tab (.seq [.dict [("line", .str "y")]]))]

/-- `DataFrame(x)` of a DataFrame; anything else is left out. -/
def frameOnly : AttrVal → Option Frame
  | .frame v => some v
  | _ => none

theorem mixedObj_args : ∀ p ∈ mixedObj, ArgOK p.2 := by
  intro p hp
  simp only [mixedObj, List.mem_cons, List.not_mem_nil, or_false] at hp
  rcases hp with rfl | rfl | rfl | rfl
  · refine ⟨by decide, fun p hp => ?_⟩
    simp only [List.mem_cons, List.not_mem_nil, or_false] at hp
    subst hp
    show (PyDict.keys _).Nodup
    decide
  · intro r hr
    simp only [List.mem_cons, List.not_mem_nil, or_false] at hr
    subst hr
    show (PyDict.keys _).Nodup
    decide
  · exact ⟨by decide, by decide, by decide⟩
  · intro r hr
    simp only [List.mem_cons, List.not_mem_nil, or_false] at hr
    subst hr
    show (PyDict.keys _).Nodup
    decide

theorem mixedKinds_ok : ∀ tk ∈ mixedKinds, KindOK tk.2 := by
  intro tk htk
  simp only [mixedKinds, List.mem_cons, List.not_mem_nil, or_false] at htk
  rcases htk with rfl | rfl | rfl | rfl
  · exact ⟨by decide, by decide⟩
  · trivial
  · trivial
  · exact ⟨by decide, by decide⟩

example : goodTicDatObject true mixedKinds mixedObj = some true := by rfl

example : ∃ tabs, initKinds frameOnly .assert mixedKinds mixedObj = some tabs ∧ PyDict.keys tabs = mixedKinds.map Prod.fst ∧
    ∀ tk ∈ mixedKinds, ∃ a out, PyDict.get? mixedObj tk.1 = some a ∧ PyDict.get? tabs tk.1 = some out ∧ SameAttr a out tk.2 := by
  refine strict_good_builds frameOnly (fun v => rfl) .assert mixedKinds (by decide) mixedKinds_ok mixedObj (by decide) mixedObj_args
    (by decide) (fun _ t c rows h hg => ?_) rfl
  simp only [mixedKinds, List.mem_cons, List.not_mem_nil, or_false, Prod.mk.injEq, TabKind.generator.injEq, reduceCtorEq,
    and_false, false_or] at h
  obtain ⟨rfl, _⟩ := h
  cases hg

/-- Finding: under the default policy for duplicates, a container that is not empty cannot be passed for a generator
table: the function that is made of it has no length, so that rows seem to be lost (ticdatfactory.py:780, 852-856). -/
theorem generator_rows_assert (mk : AttrVal → Option Frame) (kinds : List (String × TabKind)) (hs : (kinds.map Prod.fst).Nodup)
    (hk : ∀ tk ∈ kinds, KindOK tk.2) (input : PyDict String AttrVal) (hi : (PyDict.keys input).Nodup)
    (ha : ∀ p ∈ input, ArgOK p.2) (t : String) (c : TabClass) (ht : (t, TabKind.generator c) ∈ kinds) (rows : List RowIn)
    (hr : rows ≠ []) (hg : PyDict.get? input t = some (.tab (.seq rows))) : initKinds mk .assert kinds input = none := by
  refine Classical.byContradiction (fun hne => ?_)
  have := ((init_kinds_iff mk .assert kinds hs hk input hi ha).1.mp hne).2 (t, .generator c) ht _ hg
  exact this.2 rfl ⟨rows, rfl, hr⟩

example : initKinds frameOnly .assert mixedKinds [("log", .tab (.seq [.dict [("line", .str "x")]]))] = none ∧
    (initKinds frameOnly .warn mixedKinds [("log", .tab (.seq [.dict [("line", .str "x")]]))]).isSome = true := by
  constructor <;> rfl

/-- Finding: a dictionary of columns for a generic table seems to lose rows if it has more columns than rows. -/
theorem generic_columns_assert :
    let mk : AttrVal → Option Frame := fun _ => some ⟨[], [.name "a", .name "b"], [([], [.num (.fin 1), .num (.fin 2)])]⟩
    initKinds mk .assert [("raw", .generic)]
      [("raw", .tab (.dict [(.one (.str "a"), .seq [.num (.fin 1)]), (.one (.str "b"), .seq [.num (.fin 2)])]))] = none := by rfl

/-- Finding: for a table without primary key, an attribute that is no container makes the check raise an exception, where
`False` is documented; which of the two happens can depend on the order in which the tables are visited. -/
theorem good_order_matters :
    let obj : PyDict String AttrVal := [("notes", .other)]
    goodTicDatObject true [("notes", .plain logClass), ("items", .plain itemClass)] obj = none ∧
      goodTicDatObject true [("items", .plain itemClass), ("notes", .plain logClass)] obj = some false := by
  constructor <;> rfl

/-- Finding: with `row_checking="generous"` a container of dictionaries is judged by its length alone for a table of keys:
it is judged good although the constructor raises. -/
theorem generous_accepts_unbuildable :
    let c : TabClass := ⟨["id"], [], []⟩
    goodTicDatTable false (.plain c) (.tab (.seq [.dict [("other", .num (.fin 1))]])) = some true ∧
      initTable c (.seq [.dict [("other", .num (.fin 1))]]) = none := by constructor <;> rfl

/-- Finding: a container of full rows for a table with data fields is judged bad although the constructor accepts it. -/
theorem generous_refuses_buildable :
    goodTicDatTable false (.plain itemClass) (.tab (.seq [.seq [.str "a", .num (.fin 1)]])) = some false ∧
      (initTable itemClass (.seq [.seq [.str "a", .num (.fin 1)]])).isSome = true := by constructor <;> rfl

end Ticdat

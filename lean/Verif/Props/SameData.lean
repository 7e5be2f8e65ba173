import Verif.Spec.SameData
import Verif.Props.NearlySame
import Verif.Props.AsDict
import Verif.Props.ObfusTotal
/-!
# C74: comparing data objects
-/
set_option linter.unusedSimpArgs false
namespace Ticdat
open Spec

/-! ## `nearly_same` with NaN -/

/-- `PerError` as a number or NaN. -/
def PerError.pnum : PerError → PNum
  | .num x => some x
  | .nan => none

theorem pmax_fin (a b : Rat) : PNum.max (some (.fin a)) (some (.fin b)) = some (.fin (max a b)) := by
  unfold PNum.max
  simp only [PNum.lt, XNum.lt, decide_eq_true_eq]
  split <;> congr 2 <;> grind

theorem pmin_fin (a b : Rat) : PNum.min (some (.fin a)) (some (.fin b)) = some (.fin (min a b)) := by
  unfold PNum.min
  simp only [PNum.lt, XNum.lt, decide_eq_true_eq]
  split <;> congr 2 <;> grind

theorem perErrPos_num (x y : XNum) : perErrPos (some x) (some y) = (perErrorPos x y).pnum := by
  cases x <;> cases y
  case fin.fin a b =>
    simp only [perErrPos, perErrorPos, PNum.abs, pmax_fin, pmin_fin, PNum.lt, XNum.lt, PNum.sub, PNum.div,
      Option.some.injEq, reduceCtorEq, if_false, decide_eq_true_eq]
    split <;> rfl
  all_goals
    simp [perErrPos, perErrorPos, PNum.abs, PNum.max, PNum.min, PNum.lt, XNum.lt, PNum.sub, PNum.div, PerError.pnum]

/-- The two models of `per_error` agree on numbers that are not NaN. -/
theorem perErr_num (x y : XNum) : perErr (some x) (some y) = (perError x y).pnum := by
  unfold perErr perError
  simp only [PNum.lt, PNum.neg, Option.map_some]
  by_cases h : (x.lt (XNum.fin 0) && y.lt (XNum.fin 0)) = true
  · rw [if_pos h]; exact (if_pos h).trans (perErrPos_num _ _)
  · rw [if_neg h]; exact (if_neg h).trans (perErrPos_num _ _)

theorem nearlySameN_num (x y : XNum) (eps : Rat) : nearlySameN (some x) (some y) eps = nearlySame x y (.fin eps) := by
  unfold nearlySameN nearlySame
  rw [perErr_num]
  cases perError x y <;> rfl

theorem perErr_nan_left (y : PNum) : perErr none y = some (.fin 0) := by
  cases y <;> rfl

theorem perErr_nan_right (a : Rat) : perErr (some (.fin a)) none = some (.fin 0) := by
  unfold perErr
  have : PNum.lt none (some (.fin 0)) = false := rfl
  rw [this, Bool.and_false]
  simp only [Bool.false_eq_true, if_false, perErrPos, Option.some.injEq, reduceCtorEq, PNum.abs, PNum.max, PNum.min, PNum.lt,
    PNum.sub, XNum.lt, decide_eq_true_eq, PNum.div]
  split
  · congr 2
    have : a - a = 0 := by grind
    rw [this, Rat.div_def, Rat.zero_mul]
  · rfl

/-- Finding for C39: `nearly_same` says `True` for NaN and every number, and for every finite number and NaN, whatever the
(positive) tolerance; for an infinity and NaN in this order it says `False`. -/
theorem nearlySame_nan (eps : Rat) (he : 0 < eps) (y : PNum) (a : Rat) :
    nearlySameN none y eps = true ∧ nearlySameN (some (.fin a)) none eps = true ∧
      nearlySameN (some .pinf) none eps = false ∧ nearlySameN (some .ninf) none eps = false := by
  refine ⟨?_, ?_, rfl, rfl⟩
  · simp [nearlySameN, perErr_nan_left, PNum.lt, XNum.lt, he]
  · simp [nearlySameN, perErr_nan_right, PNum.lt, XNum.lt, he]

theorem canon_eq_iff (a b : Cell) : a.canon = b.canon ↔ a = b ∨ ∃ x, finiteOf a = some x ∧ finiteOf b = some x := by
  cases a with
  | num x =>
    cases b with
    | num y => cases x <;> cases y <;> simp [Cell.canon, finiteOf] <;> grind
    | bool q => cases x <;> cases q <;> simp [Cell.canon, finiteOf] <;> grind
    | _ => cases x <;> simp [Cell.canon, finiteOf]
  | bool p =>
    cases b with
    | num y => cases y <;> cases p <;> simp [Cell.canon, finiteOf] <;> grind
    | bool q => cases p <;> cases q <;> simp [Cell.canon, finiteOf] <;> grind
    | _ => simp [Cell.canon, finiteOf]
  | _ => cases b <;> simp [Cell.canon, finiteOf]

theorem isNanCell_iff (en : Bool) (a : Cell) : isNanCell en a = true ↔ Missing en a := by
  unfold isNanCell Missing
  cases a <;> simp [Cell.isNull]
  exact And.comm

theorem nearCell_iff (eps : Rat) (he : 0 < eps) (a b : Cell) : Equal a b ∨ nearCell eps a b = true ↔
    Equal a b ∨ ((∃ x y, finiteOf a = some x ∧ finiteOf b = some y ∧ Close eps x y) ∨
      (a = .nan ∧ (b = .nan ∨ (finiteOf b).isSome ∨ Infinite b)) ∨ (b = .nan ∧ (finiteOf a).isSome)) := by
  have hinf : ∀ x y : XNum, (x = .pinf ∨ x = .ninf) → (nearlySame x y (.fin eps) = true ↔ x = y) := by
    intro x y hx
    rw [nearlySame_infinite x y _ hx]
    simp [XNum.lt, he]
  have hfi : ∀ q : Rat, ∀ y : XNum, (y = .pinf ∨ y = .ninf) → nearlySame (.fin q) y (.fin eps) = false :=
    fun q y hy => nearlySame_fin_inf q y _ hy
  have hL := fun y => (nearlySame_nan eps he y 0).1
  have hR := fun a => (nearlySame_nan eps he none a).2.1
  have hP : nearlySameN (some .pinf) none eps = false := rfl
  have hN : nearlySameN (some .ninf) none eps = false := rfl
  have hfin : ∀ a b : Rat, nearlySame (.fin a) (.fin b) (.fin eps) = true ↔ Close eps a b := fun a b => nearlySame_fin a b eps
  cases a with
  | num x =>
    cases x with
    | fin q =>
      cases b with
      | num y => cases y with
        | fin r => simp [nearCell, Cell.pnum, nearlySameN_num, finiteOf, hfin]
        | pinf => simp [nearCell, Cell.pnum, nearlySameN_num, finiteOf, hfi]
        | ninf => simp [nearCell, Cell.pnum, nearlySameN_num, finiteOf, hfi]
      | bool r => simp [nearCell, Cell.pnum, nearlySameN_num, finiteOf, hfin]
      | nan => simp [nearCell, Cell.pnum, finiteOf, hR]
      | _ => simp [nearCell, Cell.pnum, finiteOf]
    | pinf =>
      cases b with
      | num y => simp [nearCell, Cell.pnum, nearlySameN_num, finiteOf, hinf .pinf y (.inl rfl), Equal]
                 try (intro h; exact .inl h)
      | bool r => simp [nearCell, Cell.pnum, nearlySameN_num, finiteOf, hinf .pinf _ (.inl rfl)]
      | nan => simp [nearCell, Cell.pnum, finiteOf, hP]
      | _ => simp [nearCell, Cell.pnum, finiteOf]
    | ninf =>
      cases b with
      | num y => simp [nearCell, Cell.pnum, nearlySameN_num, finiteOf, hinf .ninf y (.inr rfl), Equal]
                 try (intro h; exact .inl h)
      | bool r => simp [nearCell, Cell.pnum, nearlySameN_num, finiteOf, hinf .ninf _ (.inr rfl)]
      | nan => simp [nearCell, Cell.pnum, finiteOf, hN]
      | _ => simp [nearCell, Cell.pnum, finiteOf]
  | nan =>
    cases b with
    | num y => cases y <;> simp [nearCell, Cell.pnum, finiteOf, hL, Infinite]
    | _ => simp [nearCell, Cell.pnum, finiteOf, hL, Infinite]
  | bool p =>
    cases b with
    | num y => cases y with
      | fin r => simp [nearCell, Cell.pnum, nearlySameN_num, finiteOf, hfin]
      | pinf => simp [nearCell, Cell.pnum, nearlySameN_num, finiteOf, hfi]
      | ninf => simp [nearCell, Cell.pnum, nearlySameN_num, finiteOf, hfi]
    | bool r => simp [nearCell, Cell.pnum, nearlySameN_num, finiteOf, hfin]
    | nan => simp [nearCell, Cell.pnum, finiteOf, hR]
    | _ => simp [nearCell, Cell.pnum, finiteOf]
  | _ => simp [nearCell, Cell.pnum, finiteOf]

theorem valEq_iff (a b : Cell) : Cell.valEq a b = true ↔ Equal a b := by
  unfold Cell.valEq Equal
  rw [Bool.and_eq_true, decide_eq_true_eq, decide_eq_true_eq, canon_eq_iff, And.comm]

theorem sameCell_iff (o : SameOpts) (a b : Cell) : sameCell o a b = true ↔ CellsAgree o a b := by
  unfold sameCell CellsAgree
  simp only [Bool.or_eq_true, Bool.and_eq_true, decide_eq_true_eq, isNanCell_iff, valEq_iff]
  by_cases he : 0 < o.eps
  · have := nearCell_iff o.eps he a b
    simp only [he, true_and]
    constructor
    · rintro (h | h)
      · exact (this.mp h).elim .inl (fun h => .inr (.inr h))
      · exact .inr (.inl h)
    · rintro (h | h | h)
      · exact .inl (.inl h)
      · exact .inr h
      · exact .inl (this.mpr (.inr h))
  · simp [he]

theorem sameRow_iff (o : SameOpts) (r1 r2 : RowVal) (h1 : (PyDict.keys r1).Nodup) : sameRow o r1 r2 = true ↔ RowsAgree o r1 r2 := by
  unfold sameRow RowsAgree
  by_cases hk : ∀ f, f ∈ PyDict.keys r1 ↔ f ∈ PyDict.keys r2
  · have hemp : (r1.isEmpty != r2.isEmpty) = false := by
      cases r1 with
      | nil => cases r2 with
        | nil => rfl
        | cons p r => exact absurd ((hk p.1).mpr (by simp [PyDict.keys])) (by simp [PyDict.keys])
      | cons p r => cases r2 with
        | nil => exact absurd ((hk p.1).mp (by simp [PyDict.keys])) (by simp [PyDict.keys])
        | cons p r => rfl
    have ha : (PyDict.keys r1).all (fun f => decide (f ∈ PyDict.keys r2)) = true := by
      rw [List.all_eq_true]; intro f hf; exact decide_eq_true ((hk f).mp hf)
    have hb : (PyDict.keys r2).all (fun f => decide (f ∈ PyDict.keys r1)) = true := by
      rw [List.all_eq_true]; intro f hf; exact decide_eq_true ((hk f).mpr hf)
    rw [hemp, ha, hb]
    simp only [Bool.and_self, Bool.not_true, Bool.or_self, Bool.false_eq_true, if_false]
    rw [List.all_eq_true]
    constructor
    · refine fun h => ⟨hk, fun f a b ha hb => ?_⟩
      have := h (f, a) (PyDict.get?_mem ha)
      simp only [hb] at this
      exact (sameCell_iff o a b).mp this
    · rintro ⟨_, h⟩ p hp
      have hg := PyDict.get?_of_mem h1 (show (p.1, p.2) ∈ r1 from hp)
      have hm : p.1 ∈ PyDict.keys r2 := (hk p.1).mp (List.mem_map.mpr ⟨p, hp, rfl⟩)
      obtain ⟨b, hb⟩ := Option.isSome_iff_exists.mp ((PyDict.has_iff r2 p.1).mpr hm)
      simp only [hb]
      exact (sameCell_iff o _ b).mpr (h _ _ _ hg hb)
  · refine ⟨fun h => ?_, fun h => absurd h.1 hk⟩
    exfalso
    split at h
    · cases h
    · rename_i hn
      simp only [Bool.or_eq_true, not_or, Bool.not_eq_true, Bool.not_eq_false', Bool.and_eq_true, List.all_eq_true,
        decide_eq_true_eq] at hn
      exact hk (fun f => ⟨hn.2.1 f, hn.2.2 f⟩)

theorem plain_iff (o : SameOpts) (l1 l2 : List RowVal) (h : ∀ r ∈ l1, (PyDict.keys r).Nodup) :
    (decide (l1.length = l2.length) && l1.all (fun r1 => l2.any (sameRow o r1))) = true ↔
      l1.length = l2.length ∧ ∀ r1 ∈ l1, ∃ r2 ∈ l2, RowsAgree o r1 r2 := by
  rw [Bool.and_eq_true, decide_eq_true_eq, List.all_eq_true]
  refine and_congr Iff.rfl (forall_congr' fun r1 => forall_congr' fun hr => ?_)
  rw [List.any_eq_true]
  exact exists_congr fun r2 => and_congr Iff.rfl (sameRow_iff o r1 r2 (h r1 hr))

theorem keyed_iff (o : SameOpts) (d1 d2 : PyDict KeyArg RowVal) (hn : (PyDict.keys d1).Nodup)
    (h : ∀ p ∈ d1, (PyDict.keys p.2).Nodup) :
    ((PyDict.keys d1).all (fun k => decide (k ∈ PyDict.keys d2)) && (PyDict.keys d2).all (fun k => decide (k ∈ PyDict.keys d1)) &&
      d1.all (fun p => match PyDict.get? d2 p.1 with | some r2 => sameRow o p.2 r2 | none => false)) = true ↔
      TabsAgree o (.tab (.keyed d1)) (.tab (.keyed d2)) := by
  simp only [Bool.and_eq_true, List.all_eq_true, decide_eq_true_eq, TabsAgree]
  constructor
  · rintro ⟨⟨ha, hb⟩, hc⟩
    refine ⟨fun k => ⟨ha k, hb k⟩, fun k r1 r2 h1 h2 => ?_⟩
    have hm := PyDict.get?_mem h1
    have := hc _ hm
    simp only [h2] at this
    exact (sameRow_iff o r1 r2 (h _ hm)).mp this
  · rintro ⟨hk, hr⟩
    refine ⟨⟨fun k => (hk k).mp, fun k => (hk k).mpr⟩, fun p hp => ?_⟩
    have hg := PyDict.get?_of_mem hn (show (p.1, p.2) ∈ d1 from hp)
    have hm : p.1 ∈ PyDict.keys d2 := (hk p.1).mp (List.mem_map.mpr ⟨p, hp, rfl⟩)
    obtain ⟨b, hb⟩ := Option.isSome_iff_exists.mp ((PyDict.has_iff d2 p.1).mpr hm)
    simp only [hb]
    exact (sameRow_iff o p.2 b (h p hp)).mpr (hr _ _ _ hg hb)

/-- Neither table is a DataFrame with columns. -/
def NoColumns : OutTab → Prop
  | .frame v => v.cols = []
  | _ => True

theorem sameTab_iff (o : SameOpts) (k : TabKind) (t1 t2 : OutTab) (s1 : KindShape k t1) (s2 : KindShape k t2) (h1 : DictTab t1)
    (n1 : NoColumns t1) (n2 : NoColumns t2) : ∃ b, sameTab o t1 t2 = some b ∧ (b = true ↔ TabsAgree o t1 t2) := by
  cases k with
  | generic =>
    cases t1 with
    | tab v => exact s1.elim
    | gen c rows => exact s1.elim
    | frame v => cases t2 with
      | tab v => exact s2.elim
      | gen c rows => exact s2.elim
      | frame w =>
        have e1 : v.cols = [] := n1
        have e2 : w.cols = [] := n2
        exact ⟨true, by simp [sameTab, e1, e2], by simp [TabsAgree, e1, e2]⟩
  | generator c =>
    cases t1 with
    | tab v => cases v <;> exact s1.elim
    | frame v => exact s1.elim
    | gen c1 rows1 => cases t2 with
      | tab v => cases v <;> exact s2.elim
      | frame v => exact s2.elim
      | gen c2 rows2 => exact ⟨_, rfl, plain_iff o _ _ h1⟩
  | plain c =>
    cases t1 with
    | frame v => exact s1.elim
    | gen c rows => exact s1.elim
    | tab v1 => cases t2 with
      | frame v => exact s2.elim
      | gen c rows => exact s2.elim
      | tab v2 =>
        cases v1 with
        | keyed d1 => cases v2 with
          | keyed d2 => exact ⟨_, rfl, keyed_iff o d1 d2 h1.1 h1.2⟩
          | plain rows2 => exact absurd s2.1 s1.1
        | plain rows1 => cases v2 with
          | keyed d2 => exact absurd s1.1 s2.1
          | plain rows2 => exact ⟨_, rfl, plain_iff o _ _ h1⟩

/-- **C74, what `_same_data` finds.**  For two objects of the same schema (without columns in generic tables) the
comparison does not raise, and it says `True` exactly if all tables agree: with primary key, the same keys and for each key
the same cells; without, as many rows, and for every row of the first object one that agrees in the second. -/
theorem same_data_iff (o : SameOpts) (he : 0 ≤ o.eps) (kinds : List (String × TabKind)) (o1 o2 : PyDict String OutTab)
    (s1 : DatShape kinds o1) (s2 : DatShape kinds o2) (hd : ∀ p ∈ o1, DictTab p.2)
    (n1 : ∀ p ∈ o1, NoColumns p.2) (n2 : ∀ p ∈ o2, NoColumns p.2) :
    ∃ b, sameData o kinds o1 o2 = some b ∧
      (b = true ↔ ∀ tk ∈ kinds, ∀ t1 t2, PyDict.get? o1 tk.1 = some t1 → PyDict.get? o2 tk.1 = some t2 → TabsAgree o t1 t2) := by
  have hget : ∀ tk ∈ kinds, ∃ t1 t2, PyDict.get? o1 tk.1 = some t1 ∧ PyDict.get? o2 tk.1 = some t2 := by
    intro tk htk
    have m1 : tk.1 ∈ PyDict.keys o1 := by rw [s1.1]; exact List.mem_map.mpr ⟨tk, htk, rfl⟩
    have m2 : tk.1 ∈ PyDict.keys o2 := by rw [s2.1]; exact List.mem_map.mpr ⟨tk, htk, rfl⟩
    obtain ⟨t1, h1⟩ := Option.isSome_iff_exists.mp ((PyDict.has_iff o1 tk.1).mpr m1)
    obtain ⟨t2, h2⟩ := Option.isSome_iff_exists.mp ((PyDict.has_iff o2 tk.1).mpr m2)
    exact ⟨t1, t2, h1, h2⟩
  have hloop : ∀ l : List (String × TabKind), (∀ tk ∈ l, tk ∈ kinds) → ∃ b, sameLoop o o1 o2 l = some b ∧
      (b = true ↔ ∀ tk ∈ l, ∀ t1 t2, PyDict.get? o1 tk.1 = some t1 → PyDict.get? o2 tk.1 = some t2 → TabsAgree o t1 t2) := by
    intro l
    induction l with
    | nil => exact fun _ => ⟨true, rfl, by simp⟩
    | cons tk l ih =>
      intro hl
      have htk := hl tk (List.mem_cons_self ..)
      obtain ⟨t1, t2, g1, g2⟩ := hget tk htk
      obtain ⟨b, hb, hbi⟩ := sameTab_iff o tk.2 t1 t2 (s1.2 tk htk t1 g1) (s2.2 tk htk t2 g2)
        (hd _ (PyDict.get?_mem g1)) (n1 _ (PyDict.get?_mem g1)) (n2 _ (PyDict.get?_mem g2))
      obtain ⟨b', hb', hbi'⟩ := ih (fun x hx => hl x (List.mem_cons_of_mem _ hx))
      have hstep : sameLoop o o1 o2 (tk :: l) = if b then some b' else some false := by
        simp only [sameLoop, g1, g2, Option.bind_some, hb]
        cases b <;> simp [hb']
      cases b with
      | false =>
        refine ⟨false, hstep, by simp, fun h => ?_⟩
        exact absurd (hbi.mpr (h tk (List.mem_cons_self ..) t1 t2 g1 g2)) (by simp)
      | true =>
        refine ⟨b', hstep, hbi'.trans ⟨fun h x hx u1 u2 e1 e2 => ?_, fun h x hx => h x (List.mem_cons_of_mem _ hx)⟩⟩
        rcases List.mem_cons.mp hx with rfl | hx
        · rw [g1] at e1; rw [g2] at e2
          cases e1; cases e2
          exact hbi.mp rfl
        · exact h x hx u1 u2 e1 e2
  obtain ⟨b, hb, hbi⟩ := hloop kinds (fun _ h => h)
  refine ⟨b, ?_, hbi⟩
  unfold sameData
  rw [if_neg (by grind)]
  exact hb

/-! ## When is the comparison an equality of tables? -/

/-- Without tolerance the comparison of cells is symmetric and transitive. -/
theorem cells_symm (o : SameOpts) (he : o.eps = 0) {a b : Cell} (h : CellsAgree o a b) : CellsAgree o b a := by
  rcases h with h | h | h
  · obtain ⟨hn, rfl | ⟨x, h1, h2⟩⟩ := h
    · exact .inl ⟨hn, .inl rfl⟩
    · refine .inl ⟨?_, .inr ⟨x, h2, h1⟩⟩
      rintro rfl
      cases h2
  · exact .inr (.inl ⟨h.1, h.2.2, h.2.1⟩)
  · rw [he] at h; exact absurd h.1 (by decide)

theorem missing_equal {en : Bool} {a b : Cell} (hm : Missing en a) (h : Equal a b) : a = b := by
  obtain ⟨hn, rfl | ⟨x, h1, _⟩⟩ := h
  · rfl
  · rcases hm with rfl | rfl | ⟨_, rfl⟩ <;> cases h1

theorem cells_trans (o : SameOpts) (he : o.eps = 0) {a b c : Cell} (h : CellsAgree o a b) (h' : CellsAgree o b c) :
    CellsAgree o a c := by
  have no : ¬ (0 : Rat) < 0 := by decide
  rcases h with h | h | h
  · rcases h' with h' | h' | h'
    · obtain ⟨hn, rfl | ⟨x, h1, h2⟩⟩ := h
      · exact .inl h'
      · obtain ⟨_, rfl | ⟨y, h3, h4⟩⟩ := h'
        · exact .inl ⟨hn, .inr ⟨x, h1, h2⟩⟩
        · rw [h2] at h3
          cases h3
          exact .inl ⟨hn, .inr ⟨x, h1, h4⟩⟩
    · have hb : Equal b a := by
        obtain ⟨hn, rfl | ⟨x, h1, h2⟩⟩ := h
        · exact ⟨hn, .inl rfl⟩
        · refine ⟨?_, .inr ⟨x, h2, h1⟩⟩
          rintro rfl
          cases h2
      have := missing_equal h'.2.1 hb
      subst this
      exact .inr (.inl h')
    · rw [he] at h'; exact absurd h'.1 no
  · rcases h' with h' | h' | h'
    · have := missing_equal h.2.2 h'
      subst this
      exact .inr (.inl h)
    · exact .inr (.inl ⟨h.1, h.2.1, h'.2.2⟩)
    · rw [he] at h'; exact absurd h'.1 no
  · rw [he] at h; exact absurd h.1 no

theorem rows_symm (o : SameOpts) (he : o.eps = 0) {r1 r2 : RowVal} (h : RowsAgree o r1 r2) : RowsAgree o r2 r1 :=
  ⟨fun f => (h.1 f).symm, fun f a b h1 h2 => cells_symm o he (h.2 f b a h2 h1)⟩

theorem rows_trans (o : SameOpts) (he : o.eps = 0) {r1 r2 r3 : RowVal} (h : RowsAgree o r1 r2) (h' : RowsAgree o r2 r3) :
    RowsAgree o r1 r3 := by
  refine ⟨fun f => (h.1 f).trans (h'.1 f), fun f a c h1 h3 => ?_⟩
  have hm : f ∈ PyDict.keys r2 := (h.1 f).mp ((PyDict.has_iff r1 f).mp (by simp [PyDict.has, h1]))
  obtain ⟨b, hb⟩ := Option.isSome_iff_exists.mp ((PyDict.has_iff r2 f).mpr hm)
  exact cells_trans o he (h.2 f a b h1 hb) (h'.2 f b c hb h3)

theorem pair_up {A : Type} (R : A → A → Prop) (symm : ∀ a b, R a b → R b a) (trans : ∀ a b c, R a b → R b c → R a c) (l1 : List A) :
    ∀ l2 : List A, l1.Pairwise (fun a b => ¬ R a b) → l1.length = l2.length → (∀ a ∈ l1, ∃ b ∈ l2, R a b) →
      ∃ l2', l2'.Perm l2 ∧ Pairwise2 R l1 l2' := by
  induction l1 with
  | nil =>
    intro l2 _ hl _
    have : l2 = [] := List.length_eq_zero_iff.mp hl.symm
    exact ⟨[], by rw [this], by exact .nil⟩
  | cons a l1 ih =>
    intro l2 hp hl hm
    obtain ⟨b, hb, hab⟩ := hm a (List.mem_cons_self ..)
    obtain ⟨s, t, rfl⟩ := List.append_of_mem hb
    rw [List.pairwise_cons] at hp
    obtain ⟨l2', hperm, hpw⟩ := ih (s ++ t) hp.2 (by simp at hl ⊢; omega) (fun x hx => by
      obtain ⟨c, hc, hxc⟩ := hm x (List.mem_cons_of_mem _ hx)
      rcases List.mem_append.mp hc with hc | hc
      · exact ⟨c, List.mem_append_left _ hc, hxc⟩
      · rcases List.mem_cons.mp hc with rfl | hc
        · exact absurd (trans _ _ _ hab (symm _ _ hxc)) (hp.1 x hx)
        · exact ⟨c, List.mem_append_right _ hc, hxc⟩)
    exact ⟨b :: l2', (List.Perm.cons b hperm).trans List.perm_middle.symm, by exact .cons hab hpw⟩

/-- **C74, tables without primary key.**  If no two rows of the first table agree with each other and there is no
tolerance, the comparison says `True` exactly if the rows of the two tables can be paired so that each pair agrees. -/
theorem same_plain_iff (o : SameOpts) (he : o.eps = 0) (rows1 rows2 : List RowVal) (hd : ∀ r ∈ rows1, (PyDict.keys r).Nodup)
    (hdist : rows1.Pairwise (fun a b => ¬ RowsAgree o a b)) :
    sameTab o (.tab (.plain rows1)) (.tab (.plain rows2)) = some true ↔ Paired o rows1 rows2 := by
  have h0 : sameTab o (.tab (.plain rows1)) (.tab (.plain rows2)) = some (decide (rows1.length = rows2.length) &&
      rows1.all (fun r1 => rows2.any (sameRow o r1))) := rfl
  rw [h0, Option.some.injEq, plain_iff o rows1 rows2 hd]
  constructor
  · rintro ⟨hl, hm⟩
    exact pair_up (RowsAgree o) (fun _ _ => rows_symm o he) (fun _ _ _ => rows_trans o he) rows1 rows2 hdist hl hm
  · rintro ⟨l, hp, hpw⟩
    refine ⟨(pairwise2_length hpw).symm.trans hp.length_eq, fun r hr => ?_⟩
    obtain ⟨r2, h2, h3⟩ := pairwise2_left hpw hr
    exact ⟨r2, hp.mem_iff.mp h2, h3⟩

/-- Finding: for tables without primary key the comparison is not symmetric, as it does not count how often a row occurs. -/
theorem same_data_not_symmetric :
    let kinds : List (String × TabKind) := [("log", .plain ⟨[], ["line"], []⟩)]
    let o1 : PyDict String OutTab := [("log", .tab (.plain [[("line", .str "a")], [("line", .str "a")]]))]
    let o2 : PyDict String OutTab := [("log", .tab (.plain [[("line", .str "a")], [("line", .str "b")]]))]
    sameData ⟨0, false, false⟩ kinds o1 o2 = some true ∧ sameData ⟨0, false, false⟩ kinds o2 o1 = some false := by
  constructor <;> decide +kernel

/-- Finding: with any tolerance, an object with NaN is the same as one with a number in its place. -/
theorem same_data_nan_any_number (eps : Rat) (he : 0 < eps) (q : Rat) :
    let kinds : List (String × TabKind) := [("costs", .plain ⟨["id"], ["cost"], []⟩)]
    let at_ : Cell → PyDict String OutTab := fun c => [("costs", .tab (.keyed [(.one (.str "x"), [("cost", c)])]))]
    sameData ⟨eps, false, false⟩ kinds (at_ .nan) (at_ (.num (.fin q))) = some true ∧
      sameData ⟨eps, false, false⟩ kinds (at_ (.num (.fin q))) (at_ .nan) = some true := by
  have h1 := (sameCell_iff ⟨eps, false, false⟩ .nan (.num (.fin q))).mpr
    (.inr (.inr ⟨he, .inr (.inl ⟨rfl, .inr (.inl rfl)⟩)⟩))
  have h2 := (sameCell_iff ⟨eps, false, false⟩ (.num (.fin q)) .nan).mpr (.inr (.inr ⟨he, .inr (.inr ⟨rfl, rfl⟩)⟩))
  have hn : ¬ eps < 0 := by grind
  constructor <;>
    simp [sameData, sameLoop, sameTab, sameRow, PyDict.get?, PyDict.keys, hn, h1, h2]

theorem cells_refl (o : SameOpts) (h : o.nansSame = true) (a : Cell) : CellsAgree o a a := by
  by_cases hn : a = .nan
  · exact .inr (.inl ⟨h, .inr (.inl hn), .inr (.inl hn)⟩)
  · exact .inl ⟨hn, .inl rfl⟩

/-- **C74, an object is the same as itself**, for every tolerance, if NaNs are to count as the same. -/
theorem same_data_refl (o : SameOpts) (he : 0 ≤ o.eps) (hs : o.nansSame = true) (kinds : List (String × TabKind))
    (dat : PyDict String OutTab) (s : DatShape kinds dat) (hd : ∀ p ∈ dat, DictTab p.2) (hn : ∀ p ∈ dat, NoColumns p.2) :
    sameData o kinds dat dat = some true := by
  obtain ⟨b, hb, hbi⟩ := same_data_iff o he kinds dat dat s s hd hn hn
  rw [hb, hbi.mpr]
  intro tk htk t1 t2 g1 g2
  rw [g1] at g2
  cases g2
  have hrow : ∀ r, RowsAgree o r r := fun r => ⟨fun _ => Iff.rfl, fun f a b h1 h2 => by
    rw [h1] at h2
    cases h2
    exact cells_refl o hs a⟩
  have hsh := s.2 tk htk t1 g1
  have hnc := hn _ (PyDict.get?_mem g1)
  cases t1 with
  | tab v => cases v with
    | keyed d => exact ⟨fun _ => Iff.rfl, fun k r1 r2 h1 h2 => by rw [h1] at h2; cases h2; exact hrow r1⟩
    | plain rows => exact ⟨rfl, fun r hr => ⟨r, hr, hrow r⟩⟩
  | gen c rows => exact ⟨rfl, fun r hr => ⟨r, hr, hrow r⟩⟩
  | frame v => exact ⟨hnc, hnc⟩

/-- Finding: with the default arguments, an object with a NaN in a row is not the same as itself. -/
theorem same_data_nan_not_refl (kinds : List (String × TabKind)) (dat : PyDict String OutTab) (s : DatShape kinds dat)
    (hd : ∀ p ∈ dat, DictTab p.2) (hn : ∀ p ∈ dat, NoColumns p.2) (tk : String × TabKind) (htk : tk ∈ kinds)
    (d : PyDict KeyArg RowVal) (hg : PyDict.get? dat tk.1 = some (.tab (.keyed d))) (k : KeyArg) (r : RowVal)
    (hr : PyDict.get? d k = some r) (f : String) (hf : PyDict.get? r f = some .nan) :
    sameData ⟨0, false, false⟩ kinds dat dat = some false := by
  obtain ⟨b, hb, hbi⟩ := same_data_iff ⟨0, false, false⟩ (by decide) kinds dat dat s s hd hn hn
  rw [hb]
  cases b with
  | false => rfl
  | true =>
    have := ((hbi.mp rfl tk htk _ _ hg hg).2 k r r hr hr).2 f _ _ hf hf
    rcases this with h | h | h
    · exact absurd rfl h.1
    · exact absurd h.1 (by decide)
    · exact absurd h.1 (by decide)

/-- Finding: the comparison raises an exception for generic tables that have the same columns. -/
theorem same_data_generic_raises (o : SameOpts) (v w : Frame) (hc : ∀ l, l ∈ v.cols ↔ l ∈ w.cols) (hne : v.cols ≠ []) :
    sameData o [("raw", .generic)] [("raw", .frame v)] [("raw", .frame w)] = none := by
  have h1 : (v.cols.all (fun l => decide (l ∈ w.cols)) && w.cols.all (fun l => decide (l ∈ v.cols))) = true := by
    rw [Bool.and_eq_true, List.all_eq_true, List.all_eq_true]
    exact ⟨fun l hl => decide_eq_true ((hc l).mp hl), fun l hl => decide_eq_true ((hc l).mpr hl)⟩
  unfold sameData
  split
  · rfl
  · simp only [sameLoop, PyDict.get?, if_true, Option.bind_some, sameTab, h1, hne, if_false]

/-! ## Examples -/

/-- Kinds and an object with a keyed table and a table without primary key. -/
def sameKinds : List (String × TabKind) :=
  [("costs", .plain ⟨["src", "dst"], ["cost", "note"], []⟩), ("log", .plain ⟨[], ["line"], []⟩)]

/-- An object of these kinds with two cells to choose. -/
def sameObj (a b : Cell) (l : List String) : PyDict String OutTab :=
  [("costs", .tab (.keyed [(.tup [.str "x", .str "y"], [("cost", a), ("note", b)])])),
    ("log", .tab (.plain (l.map (fun s => [("line", .str s)]))))]

theorem sameObj_shape (a b : Cell) (l : List String) : DatShape sameKinds (sameObj a b l) := by
  refine ⟨rfl, fun tk htk w hw => ?_⟩
  simp only [sameKinds, List.mem_cons, List.not_mem_nil, or_false] at htk
  rcases htk with rfl | rfl <;> cases hw
  · refine ⟨by decide, by simp [PyDict.keys], fun p hp => ?_⟩
    simp only [List.mem_cons, List.not_mem_nil, or_false] at hp
    subst hp
    exact ⟨by simp [KeyShape], rfl⟩
  · refine ⟨rfl, fun p hp => ?_⟩
    obtain ⟨s, _, rfl⟩ := List.mem_map.mp hp
    rfl

theorem sameObj_dict (a b : Cell) (l : List String) : ∀ p ∈ sameObj a b l, DictTab p.2 ∧ NoColumns p.2 := by
  intro p hp
  simp only [sameObj, List.mem_cons, List.not_mem_nil, or_false] at hp
  rcases hp with rfl | rfl
  · exact ⟨⟨by simp [PyDict.keys], fun q hq => by
      simp only [List.mem_cons, List.not_mem_nil, or_false] at hq
      subst hq
      simp [PyDict.keys]⟩, trivial⟩
  · refine ⟨fun r hr => ?_, trivial⟩
    obtain ⟨s, _, rfl⟩ := List.mem_map.mp hr
    simp [PyDict.keys]

example : sameData ⟨1 / 100, true, true⟩ sameKinds (sameObj (.num (.fin 1000)) (.str "") ["p", "q"])
      (sameObj (.num (.fin 1001)) .none ["q", "p"]) = some true ∧
    sameData ⟨1 / 10000, true, true⟩ sameKinds (sameObj (.num (.fin 1000)) (.str "") ["p", "q"])
      (sameObj (.num (.fin 1001)) .none ["q", "p"]) = some false ∧
    sameData ⟨1 / 100, true, false⟩ sameKinds (sameObj (.num (.fin 1000)) (.str "") ["p", "q"])
      (sameObj (.num (.fin 1001)) .none ["q", "p"]) = some false := by decide +kernel

/-- The hypotheses of `same_data_iff` hold for these objects. -/
example (a b c e : Cell) (l m : List String) : ∃ r, sameData ⟨0, false, false⟩ sameKinds (sameObj a b l) (sameObj c e m) = some r ∧
    (r = true ↔ ∀ tk ∈ sameKinds, ∀ t1 t2, PyDict.get? (sameObj a b l) tk.1 = some t1 → PyDict.get? (sameObj c e m) tk.1 = some t2 →
      TabsAgree ⟨0, false, false⟩ t1 t2) :=
  same_data_iff ⟨0, false, false⟩ (by decide) sameKinds _ _ (sameObj_shape a b l) (sameObj_shape c e m)
    (fun p hp => (sameObj_dict a b l p hp).1) (fun p hp => (sameObj_dict a b l p hp).2) (fun p hp => (sameObj_dict c e m p hp).2)

example : sameData ⟨0, true, false⟩ sameKinds (sameObj .nan .none ["p"]) (sameObj .nan .none ["p"]) = some true :=
  same_data_refl ⟨0, true, false⟩ (by decide) rfl sameKinds _ (sameObj_shape _ _ _) (fun p hp => (sameObj_dict _ _ _ p hp).1)
    (fun p hp => (sameObj_dict _ _ _ p hp).2)

example : sameData ⟨0, false, false⟩ sameKinds (sameObj .nan .none ["p"]) (sameObj .nan .none ["p"]) = some false :=
  same_data_nan_not_refl sameKinds _ (sameObj_shape _ _ _) (fun p hp => (sameObj_dict _ _ _ p hp).1)
    (fun p hp => (sameObj_dict _ _ _ p hp).2) _ (List.mem_cons_self ..) _ rfl (.tup [.str "x", .str "y"]) _ rfl "cost" rfl

/-- The rows of `same_plain_iff` can be as it asks. -/
example : sameTab ⟨0, false, false⟩ (.tab (.plain [[("line", .str "a")], [("line", .str "b")]]))
      (.tab (.plain [[("line", .str "b")], [("line", .str "a")]])) = some true ∧
    List.Pairwise (fun a b => ¬ RowsAgree ⟨0, false, false⟩ a b) [[("line", .str "a")], [("line", .str "b")]] := by
  refine ⟨by decide +kernel, ?_⟩
  simp only [List.pairwise_cons, List.mem_cons, List.not_mem_nil, or_false, forall_eq, List.Pairwise.nil, and_true, false_imp_iff,
    implies_true]
  intro h
  have := (sameRow_iff ⟨0, false, false⟩ [("line", .str "a")] [("line", .str "b")] (by simp [PyDict.keys])).mpr h
  revert this
  decide +kernel

end Ticdat

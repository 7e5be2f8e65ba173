import Verif.Spec.FKReport
import Verif.Props.PanFK
import Verif.Props.FindFK
/-!
# C92: the forms in which foreign key failures are reported
-/
set_option linter.unusedSectionVars false
set_option linter.unusedSimpArgs false
namespace Ticdat
open Spec
variable {V : Type} [DecidableEq V]

theorem highNames_iff (s : Schema) (k : FK) (key : HighKey) : HighNames s k key ↔ key = highKey s k := by
  obtain ⟨a, b, m, c⟩ := key
  obtain ⟨n, f, l⟩ := k
  unfold HighNames highKey FK.pyMapping
  simp only [HighKey.mk.injEq]
  cases m with
  | one x y =>
    rcases l with _ | ⟨p, _ | ⟨q, l⟩⟩
    · simp
    · simp only [List.cons.injEq, and_true, FKMap.one.injEq]
      constructor
      · rintro ⟨rfl, rfl, rfl, rfl⟩; exact ⟨rfl, rfl, ⟨rfl, rfl⟩, rfl⟩
      · rintro ⟨rfl, rfl, ⟨rfl, rfl⟩, rfl⟩; exact ⟨rfl, rfl, rfl, rfl⟩
    · simp
  | many m =>
    rcases l with _ | ⟨p, _ | ⟨q, l⟩⟩
    · constructor
      · rintro ⟨rfl, rfl, rfl, rfl, _⟩; exact ⟨rfl, rfl, rfl, rfl⟩
      · rintro ⟨rfl, rfl, h, rfl⟩; cases h; exact ⟨rfl, rfl, rfl, rfl, by simp⟩
    · constructor
      · rintro ⟨_, _, _, rfl, h⟩; exact absurd rfl h
      · rintro ⟨_, _, h, _⟩; cases h
    · constructor
      · rintro ⟨rfl, rfl, rfl, rfl, _⟩; exact ⟨rfl, rfl, rfl, rfl⟩
      · rintro ⟨rfl, rfl, h, rfl⟩; cases h; exact ⟨rfl, rfl, rfl, rfl, by simp⟩

theorem lowNames_iff (s : Schema) (k : FK) (key : LowKey) : LowNames k key ↔ key = lowKey (highKey s k) := by
  obtain ⟨a, b, m⟩ := key
  obtain ⟨n, f, l⟩ := k
  unfold LowNames lowKey highKey FK.pyMapping
  simp only [LowKey.mk.injEq]
  cases m with
  | fields x y =>
    rcases l with _ | ⟨p, _ | ⟨q, l⟩⟩
    · simp
    · simp only [List.cons.injEq, and_true, LowMap.fields.injEq]
      constructor
      · rintro ⟨rfl, rfl, rfl⟩; exact ⟨rfl, rfl, rfl, rfl⟩
      · rintro ⟨rfl, rfl, rfl, rfl⟩; exact ⟨rfl, rfl, rfl⟩
    · simp
  | pairs m =>
    rcases l with _ | ⟨p, _ | ⟨q, l⟩⟩
    · constructor
      · rintro ⟨rfl, rfl, rfl, _⟩; exact ⟨rfl, rfl, rfl⟩
      · rintro ⟨rfl, rfl, h⟩; cases h; exact ⟨rfl, rfl, rfl, by simp⟩
    · constructor
      · rintro ⟨_, _, rfl, h⟩; exact absurd rfl h
      · rintro ⟨_, _, h⟩; cases h
    · constructor
      · rintro ⟨rfl, rfl, rfl, _⟩; exact ⟨rfl, rfl, rfl⟩
      · rintro ⟨rfl, rfl, h⟩; cases h; exact ⟨rfl, rfl, rfl, by simp⟩

theorem lowKey_inj (s : Schema) {k k' : FK} (h : lowKey (highKey s k) = lowKey (highKey s k')) : k = k' := by
  have h1 := (lowNames_iff s k _).2 rfl
  have h2 := (lowNames_iff s k' _).2 h
  obtain ⟨a, b, l⟩ := k
  obtain ⟨a', b', l'⟩ := k'
  obtain ⟨e1, e2, e3⟩ := h1
  obtain ⟨e4, e5, e6⟩ := h2
  have e7 : l = l' := by
    revert e3 e6
    cases (lowKey (highKey s ⟨a, b, l⟩)).mapping with
    | fields x y => intro e3 e6; exact e3.trans e6.symm
    | pairs m => intro e3 e6; exact e3.1.trans e6.1.symm
  rw [e1] at e4
  rw [e2] at e5
  simp only at e4 e5
  rw [e4, e5, e7]

theorem highKey_inj (s : Schema) {k k' : FK} (h : highKey s k = highKey s k') : k = k' := lowKey_inj s (by rw [h])

theorem fk_nodup_map {A B : Type} {g : A → B} (hg : ∀ a b, g a = g b → a = b) {l : List A} (h : l.Nodup) : (l.map g).Nodup := by
  induction l with
  | nil => simp
  | cons a l ih =>
    rw [List.nodup_cons] at h
    rw [List.map_cons, List.nodup_cons]
    refine ⟨fun hm => ?_, ih h.2⟩
    obtain ⟨b, hb, e⟩ := List.mem_map.1 hm
    rw [hg _ _ e] at hb
    exact h.1 hb

/-- Both forms say what was found. -/
theorem report_says {R : Type} (s : Schema) (verbosity : String) (found : List (FK × R)) (hn : (found.map Prod.fst).Nodup) :
    ReportSays s (fun k v => (k, v) ∈ found) (fkReport s verbosity found) := by
  have h1 : ((found.map (fun p => (highKey s p.1, p.2))).map Prod.fst).Nodup := by
    rw [List.map_map]
    have := fk_nodup_map (fun a b h => highKey_inj s h) hn
    rw [List.map_map] at this
    exact this
  have h2 : ((found.map (fun p => (lowKey (highKey s p.1), p.2))).map Prod.fst).Nodup := by
    rw [List.map_map]
    have := fk_nodup_map (fun a b h => lowKey_inj s h) hn
    rw [List.map_map] at this
    exact this
  have e1 : PyDict.ofList (found.map (fun p => (highKey s p.1, p.2))) = found.map (fun p => (highKey s p.1, p.2)) :=
    PyDict.ofList_of_nodup _ h1
  have e2 : PyDict.ofList (found.map (fun p => (lowKey (highKey s p.1), p.2))) = found.map (fun p => (lowKey (highKey s p.1), p.2)) :=
    PyDict.ofList_of_nodup _ h2
  unfold fkReport
  simp only [e1]
  by_cases hv : verbosity = "Low"
  · rw [if_pos hv, List.map_map]
    simp only [Function.comp_def]
    rw [e2]
    refine ⟨h2, fun key v => ?_⟩
    rw [PyDict.get?_iff_mem h2, List.mem_map]
    constructor
    · rintro ⟨p, hp, e⟩
      cases e
      exact ⟨p.1, (lowNames_iff s _ _).2 rfl, hp⟩
    · rintro ⟨k, hk, hm⟩
      exact ⟨(k, v), hm, by rw [(lowNames_iff s _ _).1 hk]⟩
  · rw [if_neg hv]
    refine ⟨h1, fun key v => ?_⟩
    rw [PyDict.get?_iff_mem h1, List.mem_map]
    constructor
    · rintro ⟨p, hp, e⟩
      cases e
      exact ⟨p.1, (highNames_iff s _ _).2 rfl, hp⟩
    · rintro ⟨k, hk, hm⟩
      exact ⟨(k, v), hm, by rw [(highNames_iff s _ _).1 hk]⟩

theorem report_form {R : Type} (s : Schema) (verbosity : String) (hv : verbosity ∈ ["High", "Low"]) (found : List (FK × R)) :
    ReportForm verbosity (fkReport s verbosity found) := by
  unfold fkReport
  simp only [List.mem_cons, List.not_mem_nil, or_false] at hv
  rcases hv with rfl | rfl
  · rfl
  · rfl

/-- **C92, `TicDat` objects.**  On a good data object `find_foreign_key_failures` returns exactly if the verbosity is "High" or "Low"
and `max_failures` is not zero, and the report has the form asked for.  Without limit both forms say the same: a name stands for a declared
foreign key with failing rows, under it are exactly the keys of the failing rows and their native values, each once, and no foreign key is
lost or reported twice although the short names have no cardinality. -/
theorem fk_report_exact {s : Schema} (hs : SchemaOK s) {db : DB V} (hdb : DBOK s db) {fks : List FK}
    (hk : ∀ k ∈ fks, FKOK s k ∧ ForeignDistinct k) (hn : fks.Nodup) (verbosity : String) :
    ((findFKReport s fks db verbosity none).isSome ↔ verbosity = "High" ∨ verbosity = "Low") ∧
    findFKReport s fks db verbosity (some 0) = none ∧
    ∀ rep, findFKReport s fks db verbosity none = some rep → ReportForm verbosity rep ∧ ∃ found : FK → FKFailures V → Prop,
      ReportSays s found rep ∧
      (∀ k, (∃ v, found k v) ↔ k ∈ fks ∧ ∃ p ∈ rows (tableOf s k.native) (db k.native), Fails s db k p.2) ∧
      (∀ k v v', found k v → found k v' → v = v') ∧
      (∀ k v, found k v → v.nativePks.Nodup ∧ v.nativeValues.Nodup ∧
        (∀ pk, pk ∈ v.nativePks ↔ ∃ r, (pk, r) ∈ rows (tableOf s k.native) (db k.native) ∧ Fails s db k r) ∧
        (∀ vs, vs ∈ v.nativeValues ↔ ∃ p ∈ rows (tableOf s k.native) (db k.native), Fails s db k p.2 ∧
          k.mapping.map (fun m => p.2 m.1) = vs.map some)) := by
  obtain ⟨d, h1, h2, h3, h4⟩ := find_fk_exact hs hdb hk hn
  refine ⟨?_, by simp [findFKReport, reportArgsOK], ?_⟩
  · unfold findFKReport reportArgsOK
    rw [h1]
    by_cases hv : verbosity ∈ ["High", "Low"]
    · simp only [hv, decide_true, Bool.true_and]
      simpa using hv
    · simp only [hv, decide_false, Bool.false_and, Bool.false_eq_true, if_false]
      simpa using hv
  · intro rep hrep
    unfold findFKReport at hrep
    split at hrep
    · rename_i hok
      rw [h1] at hrep
      cases hrep
      have hv : verbosity ∈ ["High", "Low"] := by
        unfold reportArgsOK at hok
        simp only [Bool.and_eq_true, decide_eq_true_eq] at hok
        exact hok.1
      refine ⟨report_form s verbosity hv d, fun k v => (k, v) ∈ d, report_says s verbosity d h2, ?_, ?_, ?_⟩
      · intro k
        rw [← h3]
        constructor
        · rintro ⟨v, hv⟩; exact List.mem_map.2 ⟨_, hv, rfl⟩
        · intro h
          obtain ⟨p, hp, rfl⟩ := List.mem_map.1 h
          exact ⟨p.2, hp⟩
      · intro k v v' e1 e2
        have e3 := PyDict.get?_of_mem h2 e1
        rw [PyDict.get?_of_mem h2 e2] at e3
        cases e3
        rfl
      · intro k v e
        exact h4 k v (PyDict.get?_of_mem h2 e)
    · cases hrep

theorem keepFlagged_map {A : Type} (p : A → Bool) (l : List A) : keepFlagged (l.map p) l = l.filter p := by
  induction l with
  | nil => rfl
  | cons a l ih =>
    rw [List.map_cons, List.filter_cons]
    cases p a <;> simp [keepFlagged, ih]

/-- **C92, `PanDat` objects.**  The same for data frames.  With `as_table` the value under a name is the failing rows of the native
table in their order, without it a list with one flag for each row of the native table that says whether the row fails. -/
theorem pan_fk_report_exact (s : Schema) (db : PanDB V) (fks : List FK) (hk : ∀ k ∈ fks, PanFKOK k) (hn : fks.Nodup)
    (verbosity : String) (asTable : Bool) :
    ((panFindReport s fks db verbosity asTable none).isSome ↔ verbosity = "High" ∨ verbosity = "Low") ∧
    panFindReport s fks db verbosity asTable (some 0) = none ∧
    ∀ rep, panFindReport s fks db verbosity asTable none = some rep → ReportForm verbosity rep ∧
      ReportSays s (fun k v => k ∈ fks ∧ (∃ r ∈ db k.native, PanFails db k r) ∧
        if asTable then v = .table (failingRows db k)
        else ∃ fl, v = .flags fl ∧ fl.length = (db k.native).length ∧
          ∀ (i : Nat) (r : PRow V), (db k.native)[i]? = some r → (fl[i]? = some true ↔ PanFails db k r)) rep := by
  refine ⟨?_, by simp [panFindReport, reportArgsOK], ?_⟩
  · unfold panFindReport reportArgsOK
    by_cases hv : verbosity ∈ ["High", "Low"]
    · simp only [hv, decide_true, Bool.true_and]
      simpa using hv
    · simp only [hv, decide_false, Bool.false_and, Bool.false_eq_true, if_false]
      simpa using hv
  · intro rep hrep
    unfold panFindReport at hrep
    split at hrep
    case isFalse => cases hrep
    rename_i hok
    cases hrep
    have hv : verbosity ∈ ["High", "Low"] := by
      unfold reportArgsOK at hok
      simp only [Bool.and_eq_true, decide_eq_true_eq] at hok
      exact hok.1
    refine ⟨report_form s verbosity hv _, ?_⟩
    have hfl : ((panFindRows db none fks 0).map Prod.fst).Nodup := by
      rw [panFindRows_none, List.map_map]
      have : (Prod.fst ∘ fun k => (k, (db k.native).map (panRowFails db k))) = (id : FK → FK) := rfl
      rw [this, List.map_id]
      exact hn.sublist List.filter_sublist
    have hr := report_says s verbosity ((panFindRows db none fks 0).map (fun p =>
      (p.1, if asTable then PanFound.table (keepFlagged p.2 (db p.1.native)) else .flags p.2))) (by
        rw [List.map_map]; exact hfl)
    have heq : (fun k v => (k, v) ∈ (panFindRows db none fks 0).map (fun p =>
        (p.1, if asTable then PanFound.table (keepFlagged p.2 (db p.1.native)) else .flags p.2))) =
        (fun k v => k ∈ fks ∧ (∃ r ∈ db k.native, PanFails db k r) ∧
        if asTable then v = .table (failingRows db k)
        else ∃ fl, v = .flags fl ∧ fl.length = (db k.native).length ∧
          ∀ (i : Nat) (r : PRow V), (db k.native)[i]? = some r → (fl[i]? = some true ↔ PanFails db k r)) := by
      funext k v
      apply propext
      have hf : k ∈ fks → ∀ r, panRowFails db k r = true ↔ PanFails db k r :=
        fun h r => panRowFails_iff db k (hk k h).1 (hk k h).2 r
      have hmem : (k, v) ∈ (panFindRows db none fks 0).map (fun p =>
          (p.1, if asTable then PanFound.table (keepFlagged p.2 (db p.1.native)) else .flags p.2)) ↔
          k ∈ fks ∧ (∃ r ∈ db k.native, PanFails db k r) ∧
          v = if asTable then PanFound.table (keepFlagged ((db k.native).map (panRowFails db k)) (db k.native))
            else .flags ((db k.native).map (panRowFails db k)) := by
        rw [panFindRows_none, List.map_map, List.mem_map]
        constructor
        · rintro ⟨k', h, e⟩
          rw [List.mem_filter, List.any_eq_true] at h
          obtain ⟨h5, r, h6, h7⟩ := h
          simp only [Function.comp_apply, Prod.mk.injEq] at e
          obtain ⟨rfl, rfl⟩ := e
          exact ⟨h5, ⟨r, h6, (hf h5 r).1 h7⟩, rfl⟩
        · rintro ⟨h5, ⟨r, h6, h7⟩, rfl⟩
          refine ⟨k, ?_, rfl⟩
          rw [List.mem_filter, List.any_eq_true]
          exact ⟨h5, r, h6, (hf h5 r).2 h7⟩
      rw [hmem]
      refine and_congr_right (fun h5 => and_congr_right (fun _ => ?_))
      cases asTable with
      | true =>
        simp only [if_true]
        rw [keepFlagged_map]
        have : (db k.native).filter (panRowFails db k) = failingRows db k := by
          unfold failingRows
          apply List.filter_congr
          intro r _
          rw [Bool.eq_iff_iff, hf h5 r]
          simp
        rw [this]
      | false =>
        simp only [Bool.false_eq_true, if_false]
        constructor
        · rintro rfl
          refine ⟨_, rfl, by simp, fun i r hr => ?_⟩
          rw [← hf h5 r]
          simp [hr]
        · rintro ⟨fl, rfl, hl, h⟩
          congr 1
          apply List.ext_getElem?
          intro i
          cases hr : (db k.native)[i]? with
          | none =>
            rw [List.getElem?_map, hr, Option.map_none]
            rw [List.getElem?_eq_none_iff] at hr ⊢
            omega
          | some r =>
            rw [List.getElem?_map, hr]
            have h6 := h i r hr
            rw [← hf h5 r] at h6
            have h7 : i < fl.length := by
              rw [hl]
              exact (List.getElem?_eq_some_iff.1 hr).1
            rw [List.getElem?_eq_getElem h7] at h6 ⊢
            simp only [Option.map_some, Option.some.injEq] at h6 ⊢
            rw [Bool.eq_iff_iff]
            exact h6
    rw [← heq]
    exact hr

/-- The kept rows are among the rows, in order. -/
theorem keepFlagged_sub {A : Type} (p : A → Prop) (fl : List Bool) (l : List A)
    (h : ∀ (i : Nat) r, l[i]? = some r → fl[i]? = some true → p r) :
    (keepFlagged fl l).Sublist l ∧ (∀ r ∈ keepFlagged fl l, p r) ∧ (fl.length = l.length → (keepFlagged fl l).length = fl.count true) := by
  induction l generalizing fl with
  | nil => cases fl with
    | nil => simp [keepFlagged]
    | cons b fl => cases b <;> simp [keepFlagged]
  | cons a l ih =>
    cases fl with
    | nil => simp [keepFlagged]
    | cons b fl =>
      obtain ⟨h1, h2, h3⟩ := ih fl (fun i r h4 h5 => h (i + 1) r (by simpa using h4) (by simpa using h5))
      cases b with
      | true =>
        refine ⟨by simp only [keepFlagged]; exact h1.cons₂ _, ?_, ?_⟩
        · intro r hr
          simp only [keepFlagged] at hr
          rcases List.mem_cons.1 hr with rfl | hr
          · exact h 0 r rfl rfl
          · exact h2 r hr
        · intro e
          simp only [List.length_cons, Nat.succ.injEq, Nat.add_right_cancel_iff] at e
          simp [keepFlagged, h3 e]
      | false =>
        refine ⟨by simp only [keepFlagged]; exact h1.cons _, ?_, ?_⟩
        · intro r hr
          simp only [keepFlagged] at hr
          exact h2 r hr
        · intro e
          simp only [List.length_cons, Nat.succ.injEq, Nat.add_right_cancel_iff] at e
          simp [keepFlagged, h3 e]

/-- The number of rows in a report value. -/
def PanFound.count : PanFound V → Nat
  | .table rows => rows.length
  | .flags fl => fl.count true

theorem flagged_failing (db : PanDB V) (fks : List FK) (hk : ∀ k ∈ fks, PanFKOK k) :
    flagged (panFindRows db none fks 0) = (fks.map (fun k => (failingRows db k).length)).sum := by
  rw [panFindRows_none]
  unfold flagged
  induction fks with
  | nil => rfl
  | cons k fks ih =>
    have hk1 := hk k List.mem_cons_self
    have ih := ih (fun k h => hk k (List.mem_cons_of_mem _ h))
    have hf : ((db k.native).map (panRowFails db k)).count true = (failingRows db k).length := by
      unfold failingRows
      rw [List.count_eq_countP, List.countP_map, List.countP_eq_length_filter]
      congr 1
      apply List.filter_congr
      intro r _
      rw [Bool.eq_iff_iff]
      simp [panRowFails_iff db k hk1.1 hk1.2 r]
    rw [List.map_cons, List.sum_cons, ← ih, List.filter_cons]
    cases hany : (db k.native).any (panRowFails db k) with
    | true => simp [hf]
    | false =>
      have : (failingRows db k).length = 0 := by
        rw [← hf, List.count_eq_zero]
        intro hm
        obtain ⟨r, hr, e⟩ := List.mem_map.1 hm
        rw [List.any_eq_false] at hany
        exact hany r hr e
      simp [this]

theorem panFindRows_keys (db : PanDB V) (lim : Option Nat) (fks : List FK) (n : Nat) :
    ((panFindRows db lim fks n).map Prod.fst).Sublist fks := by
  induction fks generalizing n with
  | nil => simp [panFindRows]
  | cons k ks ih =>
    rw [panFindRows]
    cases (db k.native).any (panRowFails db k) with
    | false => exact (ih _).cons _
    | true =>
      simp only [if_true]
      cases lim with
      | none => exact (ih _).cons₂ _
      | some m =>
        simp only
        split
        · exact (List.nil_sublist ks).cons₂ _
        · exact (ih _).cons₂ _

/-- **C92, with `max_failures`.**  The report, in whatever form, has exactly `min(m, number of failures)` rows; with `as_table` the rows
under each name are failing rows of the native table of that foreign key, in the order of the table. -/
theorem pan_fk_report_limit (s : Schema) (db : PanDB V) (fks : List FK) (hk : ∀ k ∈ fks, PanFKOK k) (hn : fks.Nodup)
    (verbosity : String) (hv : verbosity = "High" ∨ verbosity = "Low") (asTable : Bool) (m : Nat) (hm : 0 < m) :
    ∃ (rep : FKReport (PanFound V)) (found : List (FK × PanFound V)), panFindReport s fks db verbosity asTable (some m) = some rep ∧ ReportForm verbosity rep ∧
      ReportSays s (fun k v => (k, v) ∈ found) rep ∧ (found.map Prod.fst).Sublist fks ∧
      (found.map (fun p => p.2.count)).sum = min m (fks.map (fun k => (failingRows db k).length)).sum ∧
      ∀ k v, (k, v) ∈ found → if asTable then ∃ rows, v = .table rows ∧ rows.Sublist (db k.native) ∧ ∀ r ∈ rows, PanFails db k r
        else ∃ fl, v = .flags fl ∧ fl.length = (db k.native).length ∧
          ∀ (i : Nat) (r : PRow V), (db k.native)[i]? = some r → fl[i]? = some true → PanFails db k r := by
  have hv' : verbosity ∈ ["High", "Low"] := by simpa using hv
  obtain ⟨h1, h2⟩ := pandat_find_fk_max_failures db fks hk m hm
  have h3 : ∀ k fl, (k, fl) ∈ panFindRows db (some m) fks 0 → fl.length = (db k.native).length :=
    fun k fl h => ((panFindRows_some db m fks 0 hm).2 k fl h).2.1
  have hsub := panFindRows_keys db (some m) fks 0
  refine ⟨fkReport s verbosity ((panFindRows db (some m) fks 0).map (fun p =>
      (p.1, if asTable then .table (keepFlagged p.2 (db p.1.native)) else .flags p.2))),
    (panFindRows db (some m) fks 0).map (fun p =>
      (p.1, if asTable then .table (keepFlagged p.2 (db p.1.native)) else .flags p.2)), ?_, ?_, ?_, ?_, ?_, ?_⟩
  · unfold panFindReport reportArgsOK
    have : m ≠ 0 := by omega
    simp [hv', this]
  · exact report_form s verbosity hv' _
  · apply report_says
    rw [List.map_map]
    exact hn.sublist hsub
  · rw [List.map_map]
    exact hsub
  · rw [← flagged_failing db fks hk, ← h1, List.map_map]
    unfold flagged
    congr 1
    apply List.map_congr_left
    rintro ⟨k, fl⟩ hp
    cases asTable with
    | false => rfl
    | true => exact (keepFlagged_sub (fun _ => True) fl (db k.native) (fun _ _ _ _ => trivial)).2.2 (h3 k fl hp)
  · intro k v hp0
    obtain ⟨⟨k', fl⟩, hp, e⟩ := List.mem_map.1 hp0
    clear hp0
    simp only [Prod.mk.injEq] at e
    obtain ⟨rfl, rfl⟩ := e
    obtain ⟨_, h5⟩ := h2 _ _ hp
    cases asTable with
    | true =>
      obtain ⟨h6, h7, _⟩ := keepFlagged_sub (fun r => PanFails db k' r) fl (db k'.native) (fun i r hr hf => h5 i r hr hf)
      exact ⟨_, rfl, h6, h7⟩
    | false => exact ⟨fl, rfl, h3 _ _ hp, h5⟩

/-- The diet data: what the reports are, and how the names look. -/
example : (findFKReport dietSchema dietFKs dietDB "Low" none).isSome ∧ (findFKReport dietSchema dietFKs dietDB "Medium" none).isSome = false := by
  have h := fun v => (fk_report_exact dietSchema_ok dietDB_ok dietFKs_ok (by decide) v).1
  refine ⟨(h "Low").2 (.inr rfl), ?_⟩
  cases hx : (findFKReport dietSchema dietFKs dietDB "Medium" none).isSome with
  | false => rfl
  | true => exact absurd ((h "Medium").1 hx) (by decide)

example : lowKey (highKey dietSchema ⟨"quantities", "foods", [("food", "name")]⟩) = ⟨"quantities", "foods", .fields "food" "name"⟩ := rfl

example : (panFindReport dietSchema dietFKs (toPan dietSchema dietDB) "Low" true (some 1)).map (fun rep =>
    match rep with
    | .low d => d.map (fun p => (p.1, p.2.count))
    | .high _ => []) = some [(⟨"quantities", "foods", .fields "food" "name"⟩, 1)] := by decide +kernel

end Ticdat

import Verif.Props.PanTypes
import Verif.Props.ReplaceTypes
/-!
# C57: `PanDatFactory.replace_data_type_failures`
-/
set_option linter.unusedSectionVars false
set_option linter.unusedSimpArgs false
namespace Ticdat
open Spec

theorem panDefault_eq (defaults : PyDict String (PyDict String Cell)) (t f : String) :
    panDefault defaults t f = (defaults.lookup t).bind (fun r => r.lookup f) := by
  unfold panDefault
  rw [get?_eq_lookup defaults]
  cases defaults.lookup t with
  | none => rfl
  | some r => simp [get?_eq_lookup]

theorem panReplacement_eq (defaults : PyDict String (PyDict String Cell)) (repl : PyDict (String × String) Cell)
    (t f : String) : panReplacement defaults repl t f = (repl.get? (t, f)).or (panDefault defaults t f) := by
  unfold panReplacement
  rw [panDefault_eq, get?_lookup_pair]
  cases repl.lookup (t, f) <;> rfl

/-- A typed field of which the replacement has no default. -/
def missingDefault (defaults : PyDict String (PyDict String Cell)) (repl : PyDict (String × String) Cell)
    (x : String × String × TypeDict) : Prop :=
  (repl.get? (x.1, x.2.1)).isSome ∧ panDefault defaults x.1 x.2.1 = none

theorem panReplacements_none_iff (defaults : PyDict String (PyDict String Cell)) (repl : PyDict (String × String) Cell)
    (types : List (String × String × TypeDict)) :
    panReplacements defaults repl types = none ↔ ∃ x ∈ types, missingDefault defaults repl x := by
  induction types with
  | nil => simp [panReplacements]
  | cons x types ih =>
    obtain ⟨t, f, td⟩ := x
    simp only [panReplacements, Option.bind_eq_bind, List.mem_cons, exists_eq_or_imp, ← ih]
    cases hm : panReplacements defaults repl types with
    | none => simp
    | some more =>
      simp only [Option.bind_some, missingDefault]
      cases hr : repl.get? (t, f) with
      | none => cases hp : panDefault defaults t f <;> simp
      | some v => cases hp : panDefault defaults t f <;> simp

theorem panReplacements_get (defaults : PyDict String (PyDict String Cell)) (repl : PyDict (String × String) Cell)
    (types : List (String × String × TypeDict)) (rr : List ((String × String) × Cell))
    (h : panReplacements defaults repl types = some rr) (t f : String) (v : Cell) :
    ((t, f), v) ∈ rr ↔ (∃ td, (t, f, td) ∈ types) ∧ panReplacement defaults repl t f = some v := by
  induction types generalizing rr with
  | nil => simp only [panReplacements, Option.some.injEq] at h; subst h; simp
  | cons x types ih =>
    obtain ⟨t', f', td'⟩ := x
    simp only [panReplacements, Option.bind_eq_bind] at h
    cases hm : panReplacements defaults repl types with
    | none => simp [hm] at h
    | some more =>
      have ih' := ih more hm
      simp only [hm, Option.bind_some] at h
      have hsplit : (∃ td, (t, f, td) ∈ (t', f', td') :: types) ↔ (t = t' ∧ f = f') ∨ ∃ td, (t, f, td) ∈ types := by
        constructor
        · rintro ⟨td, hmem⟩
          rcases List.mem_cons.1 hmem with e | hmem
          · simp only [Prod.mk.injEq] at e; exact .inl ⟨e.1, e.2.1⟩
          · exact .inr ⟨td, hmem⟩
        · rintro (⟨rfl, rfl⟩ | ⟨td, hmem⟩)
          · exact ⟨td', List.mem_cons_self⟩
          · exact ⟨td, List.mem_cons_of_mem _ hmem⟩
      rw [hsplit]
      split at h
      · rename_i hc
        cases hp : panDefault defaults t' f' with
        | none => simp [hp] at h
        | some d =>
          simp only [hp, Option.bind_some, Option.pure_def, Option.some.injEq] at h
          subst h
          have hval : panReplacement defaults repl t' f' = some ((repl.get? (t', f')).getD d) := by
            rw [panReplacement_eq, hp]; cases repl.get? (t', f') <;> rfl
          rw [List.mem_cons, ih']
          simp only [Prod.mk.injEq]
          constructor
          · rintro (⟨⟨rfl, rfl⟩, rfl⟩ | ⟨a, b⟩)
            · exact ⟨.inl ⟨rfl, rfl⟩, hval⟩
            · exact ⟨.inr a, b⟩
          · rintro ⟨⟨rfl, rfl⟩ | a, b⟩
            · rw [hval] at b; exact .inl ⟨⟨rfl, rfl⟩, (Option.some.inj b).symm⟩
            · exact .inr ⟨a, b⟩
      · rename_i hc
        simp only [Option.pure_def, Option.some.injEq] at h
        subst h
        rw [ih']
        constructor
        · rintro ⟨a, b⟩; exact ⟨.inr a, b⟩
        · rintro ⟨⟨rfl, rfl⟩ | a, b⟩
          · rw [panReplacement_eq] at b
            simp only [Bool.or_eq_true, not_or, Option.not_isSome_iff_eq_none] at hc
            simp [hc.1, hc.2] at b
          · exact ⟨a, b⟩

theorem rr_get? {defaults : PyDict String (PyDict String Cell)} {repl : PyDict (String × String) Cell}
    {s : Schema} (hs : SchemaOK s) {dts : DataTypes} (hd : TypesOK s dts) {rr : List ((String × String) × Cell)}
    (h : panReplacements defaults repl (trueTypes s dts) = some rr) (t f : String) (v : Cell) :
    PyDict.get? rr (t, f) = some v ↔ (∃ td, effType s dts t f = some td) ∧ panReplacement defaults repl t f = some v := by
  have hmem := panReplacements_get defaults repl _ rr h t f
  simp only [mem_trueTypes hs hd] at hmem
  constructor
  · intro hg; exact (hmem v).1 (PyDict.get?_mem hg)
  · intro hv
    cases hg : PyDict.get? rr (t, f) with
    | none => exact absurd (List.mem_map.2 ⟨_, (hmem v).2 hv, rfl⟩) ((PyDict.get?_eq_none _ _).1 hg)
    | some w =>
      have := ((hmem w).1 (PyDict.get?_mem hg)).2
      rw [hv.2] at this; exact this.symm

theorem find_trueTypes {s : Schema} (hs : SchemaOK s) {dts : DataTypes} (hd : TypesOK s dts) (t f : String) :
    ((trueTypes s dts).find? (fun x => decide (x.1 = t) && decide (x.2.1 = f))).map (fun x => x.2.2) = effType s dts t f := by
  cases he : (trueTypes s dts).find? (fun x => decide (x.1 = t) && decide (x.2.1 = f)) with
  | none =>
    rw [List.find?_eq_none] at he
    cases hf : effType s dts t f with
    | none => rfl
    | some td => exact absurd (by simp) (he _ ((mem_trueTypes hs hd t f td).2 hf))
  | some x =>
    obtain ⟨t', f', td⟩ := x
    have h1 := List.find?_some he
    simp only [Bool.and_eq_true, decide_eq_true_eq] at h1
    obtain ⟨rfl, rfl⟩ := h1
    rw [(mem_trueTypes hs hd _ _ _).1 (List.mem_of_find?_eq_some he)]
    rfl

/-- A cell after the repair. -/
def cellFix (parses : Cell → Bool) (s : Schema) (dts : DataTypes) (R : String → String → Option Cell) (t f : String)
    (c : Cell) : Cell :=
  match effType s dts t f, R t f with
  | some td, some v => if panBadCell parses td c then v else c
  | _, _ => c

theorem panFixAll_eq {parses : Cell → Bool} {s : Schema} (hs : SchemaOK s) {dts : DataTypes} (hd : TypesOK s dts)
    {rr : List ((String × String) × Cell)} {R : String → String → Option Cell}
    (hR : ∀ t f v, PyDict.get? rr (t, f) = some v ↔ (∃ td, effType s dts t f = some td) ∧ R t f = some v)
    (l : List (String × String)) (hl : l.Nodup) (db : PanDB Cell) :
    panFixAll parses (trueTypes s dts) rr l db =
      fun t => (db t).map (fun r g => if (t, g) ∈ l then (r g).map (cellFix parses s dts R t g) else r g) := by
  induction l generalizing db with
  | nil => funext t; simp [panFixAll]
  | cons k l ih =>
    obtain ⟨t0, f0⟩ := k
    obtain ⟨hk, hl'⟩ := List.nodup_cons.1 hl
    rw [panFixAll, ih hl']
    have hstep : panFixStep parses (trueTypes s dts) rr t0 f0 db =
        fun t => (db t).map (fun r g => if (t, g) = (t0, f0) then (r g).map (cellFix parses s dts R t g) else r g) := by
      have hfind := find_trueTypes hs hd t0 f0
      funext t
      unfold panFixStep
      by_cases ht : t = t0
      · subst ht
        cases hg : PyDict.get? rr (t, f0) with
        | none =>
          simp only
          have hid : ∀ c, cellFix parses s dts R t f0 c = c := by
            intro c
            unfold cellFix
            cases he : effType s dts t f0 with
            | none => rfl
            | some td =>
              cases hv : R t f0 with
              | none => rfl
              | some v => rw [(hR t f0 v).2 ⟨⟨td, he⟩, hv⟩] at hg; simp at hg
          have : ∀ r ∈ db t, (fun g => if (t, g) = (t, f0) then (r g).map (cellFix parses s dts R t g) else r g) = r := by
            intro r _
            funext g
            by_cases hgf : g = f0
            · subst hgf
              rw [if_pos rfl]
              cases r g <;> simp [hid]
            · simp [hgf]
          exact ((List.map_congr_left this).trans (List.map_id' _)).symm
        | some v =>
          obtain ⟨⟨td, he⟩, hv⟩ := (hR t f0 v).1 hg
          rw [he] at hfind
          obtain ⟨x, hx, hxt⟩ := Option.map_eq_some_iff.1 hfind
          rw [hx]
          simp only [if_true, panFixCol]
          apply List.map_congr_left
          intro r _
          funext g
          by_cases hgf : g = f0
          · subst hgf
            simp only [if_true, hxt]
            congr 1
            funext c
            simp only [cellFix, he, hv]
          · simp [hgf]
      · have hne : ∀ g, ¬ (t, g) = (t0, f0) := fun g e => ht (Prod.mk.inj e).1
        simp only [hne, if_false]
        cases PyDict.get? rr (t0, f0) with
        | none => simp
        | some v =>
          cases (trueTypes s dts).find? (fun x => decide (x.1 = t0) && decide (x.2.1 = f0)) with
          | none => simp
          | some x => simp [ht]
    rw [hstep]
    funext t
    rw [List.map_map]
    apply List.map_congr_left
    intro r _
    funext g
    simp only [Function.comp_apply, List.mem_cons]
    by_cases h1 : (t, g) = (t0, f0)
    · have : (t, g) ∉ l := by rw [h1]; exact hk
      simp only [h1, if_true, true_or]
      rw [h1] at this
      rw [if_neg this]
    · simp only [h1, if_false, false_or]

/-- The repaired data object. -/
def panFixed (parses : Cell → Bool) (s : Schema) (dts : DataTypes) (R : String → String → Option Cell) (db : PanDB Cell) :
    PanDB Cell :=
  fun t => (db t).map (fun r g => (r g).map (cellFix parses s dts R t g))

theorem cellFix_bad {parses : Cell → Bool} {s : Schema} {dts : DataTypes} {R : String → String → Option Cell} {t f : String}
    {c v : Cell} (h : BadCell parses s dts t f c) (hv : R t f = some v) : cellFix parses s dts R t f c = v := by
  obtain ⟨td, h1, h2⟩ := effType_bad.2 h
  simp [cellFix, h1, hv, panBadCell_eq, h2]

theorem cellFix_id {parses : Cell → Bool} {s : Schema} {dts : DataTypes} {R : String → String → Option Cell} {t f : String}
    {c : Cell} (h : ¬ (BadCell parses s dts t f c ∧ (R t f).isSome)) : cellFix parses s dts R t f c = c := by
  unfold cellFix
  cases he : effType s dts t f with
  | none => rfl
  | some td =>
    cases hv : R t f with
    | none => rfl
    | some v =>
      simp only [panBadCell_eq]
      split
      · rename_i hb
        exact absurd ⟨effType_bad.1 ⟨td, he, by simpa using hb⟩, by simp [hv]⟩ h
      · rfl

theorem typed_iff {s : Schema} {dts : DataTypes} (t f : String) :
    (∃ td, effType s dts t f = some td) ↔ typeOf dts t f ≠ none ∨ f ∈ s.pks t := by
  unfold effType
  rw [at_eq_typeOf]
  cases h : typeOf dts t f with
  | some td => simp
  | none => by_cases hp : f ∈ s.pks t <;> simp [hp]

theorem noDefault_iff {s : Schema} (hs : SchemaOK s) {dts : DataTypes} (hd : TypesOK s dts)
    {defaults : PyDict String (PyDict String Cell)} {repl : PyDict (String × String) Cell} :
    NoDefault s dts defaults repl ↔ panReplacements defaults repl (trueTypes s dts) = none := by
  rw [panReplacements_none_iff]
  unfold NoDefault missingDefault
  constructor
  · rintro ⟨t, f, h1, h2, h3⟩
    obtain ⟨td, h1⟩ := (typed_iff t f).2 h1
    refine ⟨(t, f, td), (mem_trueTypes hs hd _ _ _).2 h1, ?_, by rw [panDefault_eq]; exact h3⟩
    rw [get?_lookup_pair]
    exact Option.isSome_iff_ne_none.2 h2
  · rintro ⟨⟨t, f, td⟩, h1, h2, h3⟩
    refine ⟨t, f, (typed_iff t f).1 ⟨td, (mem_trueTypes hs hd _ _ _).1 h1⟩, ?_, by rw [← panDefault_eq]; exact h3⟩
    rw [get?_lookup_pair] at h2
    exact Option.isSome_iff_ne_none.1 h2

theorem panFixed_ok {parses : Cell → Bool} {s : Schema} {dts : DataTypes} {R : String → String → Option Cell}
    {db : PanDB Cell} (h : PanOK s db) : PanOK s (panFixed parses s dts R db) := by
  intro t ht r' hr' f hf
  obtain ⟨r, hr, rfl⟩ := List.mem_map.1 hr'
  obtain ⟨v, hv⟩ := h t ht r hr f hf
  exact ⟨_, by simp only [hv]; rfl⟩

theorem panFixed_repaired (parses : Cell → Bool) (s : Schema) (dts : DataTypes)
    (defaults : PyDict String (PyDict String Cell)) (repl : PyDict (String × String) Cell) (db : PanDB Cell) :
    PanRepaired parses s dts defaults repl db (panFixed parses s dts (panReplacement defaults repl) db) := by
  intro t
  refine ⟨by simp [panFixed], fun i r hr => ⟨_, by simp only [panFixed, List.getElem?_map, hr]; rfl, fun f => ⟨?_, ?_⟩⟩⟩
  · rintro ⟨c, hc, hb⟩ v hv
    simp only [hc, Option.map_some, cellFix_bad hb hv]
  · intro hn
    show (r f).map _ = r f
    cases hc : r f with
    | none => rfl
    | some c =>
      rw [Option.map_some, cellFix_id]
      rintro ⟨a, b⟩
      exact hn ⟨⟨c, hc, a⟩, b⟩

/-- A data object has at most one repair. -/
theorem panRepaired_unique {parses : Cell → Bool} {s : Schema} {dts : DataTypes}
    {defaults : PyDict String (PyDict String Cell)} {repl : PyDict (String × String) Cell} {db a b : PanDB Cell}
    (ha : PanRepaired parses s dts defaults repl db a) (hb : PanRepaired parses s dts defaults repl db b) : a = b := by
  funext t
  apply List.ext_getElem?
  intro i
  by_cases hi : i < (db t).length
  · obtain ⟨r1, h1, g1⟩ := (ha t).2 i _ (List.getElem?_eq_getElem hi)
    obtain ⟨r2, h2, g2⟩ := (hb t).2 i _ (List.getElem?_eq_getElem hi)
    rw [h1, h2]
    congr 1
    funext f
    by_cases hc : PanBad parses s dts t f (db t)[i] ∧ (panReplacement defaults repl t f).isSome
    · obtain ⟨v, hv⟩ := Option.isSome_iff_exists.1 hc.2
      rw [(g1 f).1 hc.1 v hv, (g2 f).1 hc.1 v hv]
    · rw [(g1 f).2 hc, (g2 f).2 hc]
  · rw [List.getElem?_eq_none (by rw [(ha t).1]; omega), List.getElem?_eq_none (by rw [(hb t).1]; omega)]

/-- The value of `panReplaceTypes`. -/
theorem panReplace_cases {parses : Cell → Bool} {s : Schema} (hs : SchemaOK s) {dts : DataTypes} (hd : TypesOK s dts)
    (defaults : PyDict String (PyDict String Cell)) (repl : PyDict (String × String) Cell) {db : PanDB Cell}
    (hdb : PanOK s db) :
    (UnknownField s repl ∧ panReplaceTypes parses s dts defaults repl db = .refused) ∨
    (¬ UnknownField s repl ∧ AnyBad parses s dts db ∧ NoDefault s dts defaults repl ∧
      panReplaceTypes parses s dts defaults repl db = .crashed) ∨
    (¬ UnknownField s repl ∧ AnyBad parses s dts db ∧ ¬ NoDefault s dts defaults repl ∧
      BadReplacement parses s dts defaults repl db ∧ panReplaceTypes parses s dts defaults repl db = .refused) ∨
    (¬ UnknownField s repl ∧ ¬ (AnyBad parses s dts db ∧ NoDefault s dts defaults repl) ∧
      ¬ BadReplacement parses s dts defaults repl db ∧
      panReplaceTypes parses s dts defaults repl db = .done (panFixed parses s dts (panReplacement defaults repl) db)) := by
  have hu : repl.any (fun p => !(decide (p.1.1 ∈ PyDict.keys s) && decide (p.1.2 ∈ s.allFields p.1.1))) = true ↔
      UnknownField s repl := by
    rw [List.any_eq_true]
    unfold UnknownField Schema.allFields
    simp only [Bool.not_eq_true', Bool.and_eq_false_iff, decide_eq_false_iff_not, Classical.not_and_iff_not_or_not]
  by_cases h0 : UnknownField s repl
  · left
    exact ⟨h0, by unfold panReplaceTypes; rw [if_pos (hu.2 h0)]⟩
  right
  have h0' := fun h => h0 (hu.1 h)
  obtain ⟨d, hfd, hnd, hkeys, _⟩ := pan_types_exact (parses := parses) hs hd hdb
  have hkeys' : ∀ t f, (PyDict.get? d (t, f)).isSome = true ↔ ∃ r ∈ db t, PanBad parses s dts t f r := by
    intro t f
    rw [← hkeys, Option.isSome_iff_ne_none, Ne, PyDict.get?_eq_none]
    exact Classical.not_not
  by_cases hany : AnyBad parses s dts db
  rotate_left
  · right; right
    have hd0 : d = [] := by
      cases d with
      | nil => rfl
      | cons p d =>
        obtain ⟨⟨t, f⟩, fl⟩ := p
        obtain ⟨r, hr, hb⟩ := (hkeys t f).1 (by simp [PyDict.keys])
        exact absurd ⟨t, f, r, hr, hb⟩ hany
    subst hd0
    refine ⟨h0, fun h => hany h.1, fun ⟨t, f, _, ⟨r, hr, hb⟩, _⟩ => hany ⟨t, f, r, hr, hb⟩, ?_⟩
    unfold panReplaceTypes
    rw [if_neg h0', hfd]
    simp only [PanReplaceResult.done.injEq]
    funext t
    unfold panFixed
    have : ∀ r ∈ db t, (fun g => (r g).map (cellFix parses s dts (panReplacement defaults repl) t g)) = r := by
      intro r hr
      funext g
      cases hc : r g with
      | none => rfl
      | some c =>
        rw [Option.map_some, cellFix_id]
        rintro ⟨a, _⟩
        exact hany ⟨t, g, r, hr, c, hc, a⟩
    exact ((List.map_congr_left this).trans (List.map_id' _)).symm
  have hdne : d ≠ [] := by
    rintro rfl
    obtain ⟨t, f, hb⟩ := hany
    have := (hkeys t f).2 hb
    simp [PyDict.keys] at this
  have hunf : panReplaceTypes parses s dts defaults repl db =
      match panReplacements defaults repl (trueTypes s dts) with
      | none => .crashed
      | some rr =>
        if rr.any (fun p => (PyDict.get? d p.1).isSome &&
            !(match (trueTypes s dts).find? (fun x => decide (x.1 = p.1.1) && decide (x.2.1 = p.1.2)) with
              | some x => x.2.2.validData parses p.2
              | none => true)) then .refused
        else
          let db' := panFixAll parses (trueTypes s dts) rr (d.map Prod.fst) db
          match panFindTypes parses s dts db' none with
          | none => .crashed
          | some left => if left.any (fun n => (PyDict.get? rr n.1).isSome) then .crashed else .done db' := by
    cases d with
    | nil => exact absurd rfl hdne
    | cons p d => rw [panReplaceTypes, if_neg h0', hfd]; rfl
  by_cases hn : NoDefault s dts defaults repl
  · left
    refine ⟨h0, hany, hn, ?_⟩
    rw [hunf, (noDefault_iff hs hd).1 hn]
  right
  cases hrr : panReplacements defaults repl (trueTypes s dts) with
  | none => exact absurd ((noDefault_iff hs hd).2 hrr) hn
  | some rr =>
  have hR := rr_get? hs hd hrr
  have hmemrr := panReplacements_get defaults repl _ rr hrr
  simp only [mem_trueTypes hs hd] at hmemrr
  have hval : ∀ t f v td, effType s dts t f = some td →
      ((!(match (trueTypes s dts).find? (fun x => decide (x.1 = t) && decide (x.2.1 = f)) with
              | some x => x.2.2.validData parses v
              | none => true)) = true ↔ BadCell parses s dts t f v) := by
    intro t f v td he
    have hfind := find_trueTypes hs hd t f
    rw [he] at hfind
    obtain ⟨x, hx, hxt⟩ := Option.map_eq_some_iff.1 hfind
    rw [hx, ← effType_bad]
    simp [he, hxt]
  have hbr : rr.any (fun p => (PyDict.get? d p.1).isSome &&
            !(match (trueTypes s dts).find? (fun x => decide (x.1 = p.1.1) && decide (x.2.1 = p.1.2)) with
              | some x => x.2.2.validData parses p.2
              | none => true)) = true ↔ BadReplacement parses s dts defaults repl db := by
    rw [List.any_eq_true]
    constructor
    · rintro ⟨⟨⟨t, f⟩, v⟩, hm, h⟩
      rw [Bool.and_eq_true] at h
      obtain ⟨⟨td, he⟩, hv⟩ := (hmemrr t f v).1 hm
      exact ⟨t, f, v, (hkeys' t f).1 h.1, hv, (hval t f v td he).1 h.2⟩
    · rintro ⟨t, f, v, hb, hv, hbv⟩
      obtain ⟨td, he, _⟩ := effType_bad.2 hbv
      refine ⟨((t, f), v), (hmemrr t f v).2 ⟨⟨td, he⟩, hv⟩, ?_⟩
      rw [Bool.and_eq_true]
      exact ⟨(hkeys' t f).2 hb, (hval t f v td he).2 hbv⟩
  rw [hunf, hrr]
  simp only
  by_cases hb : BadReplacement parses s dts defaults repl db
  · left
    exact ⟨h0, hany, hn, hb, by rw [if_pos (hbr.2 hb)]⟩
  right
  refine ⟨h0, fun h => hn h.2, hb, ?_⟩
  rw [if_neg (fun h => hb (hbr.1 h))]
  have hfix : panFixAll parses (trueTypes s dts) rr (d.map Prod.fst) db =
      panFixed parses s dts (panReplacement defaults repl) db := by
    show panFixAll parses (trueTypes s dts) rr (PyDict.keys d) db = _
    rw [panFixAll_eq hs hd hR _ hnd]
    funext t
    unfold panFixed
    apply List.map_congr_left
    intro r hr
    funext g
    split
    · rfl
    · rename_i hng
      cases hc : r g with
      | none => rfl
      | some c =>
        rw [Option.map_some, cellFix_id]
        rintro ⟨a, _⟩
        exact hng ((hkeys t g).2 ⟨r, hr, c, hc, a⟩)
  rw [hfix]
  obtain ⟨d', hfd', _, hk', _⟩ := pan_types_exact (parses := parses) hs hd
    (panFixed_ok (parses := parses) (dts := dts) (R := panReplacement defaults repl) hdb)
  rw [hfd']
  simp only
  rw [if_neg]
  intro h
  obtain ⟨⟨⟨t, f⟩, fl⟩, hm, hg⟩ := List.any_eq_true.1 h
  obtain ⟨v, hg⟩ := Option.isSome_iff_exists.1 hg
  obtain ⟨_, hv⟩ := (hR t f v).1 hg
  obtain ⟨r', hr', c', hc', hbad'⟩ := (hk' t f).1 (List.mem_map.2 ⟨_, hm, rfl⟩)
  obtain ⟨r, hr, rfl⟩ := List.mem_map.1 hr'
  obtain ⟨c, hc, rfl⟩ := Option.map_eq_some_iff.1 hc'
  by_cases hcb : BadCell parses s dts t f c
  · rw [cellFix_bad hcb hv] at hbad'
    exact hb ⟨t, f, v, ⟨r, hr, c, hc, hcb⟩, hv, hbad'⟩
  · rw [cellFix_id (fun h => hcb h.1)] at hbad'
    exact hcb hbad'

/-- **C57.**  The exact outcome on a good pandas data object.  The call is refused, before any change, iff a replacement is
given for something that is not a field, or a replacement that is needed is itself bad.  It raises another exception iff
there is a bad cell somewhere and a replacement is given for a typed or primary key field without a default value.  Otherwise it
returns the data object in which the bad cells of fields with a replacement hold the replacement and nothing else changed; no
such field has a bad cell any more; and a second call changes nothing. -/
theorem pan_replace_types_partial {parses : Cell → Bool} {s : Schema} (hs : SchemaOK s) {dts : DataTypes} (hd : TypesOK s dts)
    (defaults : PyDict String (PyDict String Cell)) (repl : PyDict (String × String) Cell) {db : PanDB Cell}
    (hdb : PanOK s db) :
    (panReplaceTypes parses s dts defaults repl db = .refused ↔
      UnknownField s repl ∨ (AnyBad parses s dts db ∧ ¬ NoDefault s dts defaults repl ∧
        BadReplacement parses s dts defaults repl db)) ∧
    (panReplaceTypes parses s dts defaults repl db = .crashed ↔
      ¬ UnknownField s repl ∧ AnyBad parses s dts db ∧ NoDefault s dts defaults repl) ∧
    (∀ db', panReplaceTypes parses s dts defaults repl db = .done db' →
      PanOK s db' ∧ PanRepaired parses s dts defaults repl db db' ∧
      (∀ t f, (panReplacement defaults repl t f).isSome → ∀ r ∈ db' t, ¬ PanBad parses s dts t f r) ∧
      panReplaceTypes parses s dts defaults repl db' = .done db') := by
  rcases panReplace_cases (parses := parses) hs hd defaults repl hdb with ⟨h1, h2⟩ | ⟨h1, h2, h3, h4⟩ | ⟨h1, h2, h3, h4, h5⟩ |
    ⟨h1, h2, h3, h4⟩
  · simp [h2, h1]
  · simp [h1, h2, h3, h4]
  · simp [h1, h2, h3, h4, h5]
  · refine ⟨⟨fun h => by rw [h4] at h; simp at h, ?_⟩, ⟨fun h => by rw [h4] at h; simp at h, fun h => absurd h.2 h2⟩, ?_⟩
    · rintro (h | ⟨_, _, h⟩)
      · exact absurd h h1
      · exact absurd h h3
    · intro db' hdb'
      rw [h4] at hdb'
      have e : panFixed parses s dts (panReplacement defaults repl) db = db' := by simpa using hdb'
      have hok : PanOK s db' := e ▸ panFixed_ok hdb
      -- a bad cell of the result is a bad cell of the argument in a field without replacement
      have hback : ∀ t f, ∀ r' ∈ db' t, PanBad parses s dts t f r' →
          (∃ r ∈ db t, PanBad parses s dts t f r) ∧ panReplacement defaults repl t f = none := by
        rintro t f r' hr' ⟨c', hc', hbad'⟩
        rw [← e] at hr'
        obtain ⟨r, hr, rfl⟩ := List.mem_map.1 hr'
        obtain ⟨c, hc, rfl⟩ := Option.map_eq_some_iff.1 hc'
        by_cases hcb : BadCell parses s dts t f c
        · cases hv : panReplacement defaults repl t f with
          | none => exact ⟨⟨r, hr, c, hc, hcb⟩, rfl⟩
          | some v =>
            rw [cellFix_bad hcb hv] at hbad'
            exact absurd ⟨t, f, v, ⟨r, hr, c, hc, hcb⟩, hv, hbad'⟩ h3
        · rw [cellFix_id (fun h => hcb h.1)] at hbad'
          exact absurd hbad' hcb
      refine ⟨hok, e ▸ panFixed_repaired _ _ _ _ _ _, ?_, ?_⟩
      · intro t f hs' r hr hb
        rw [(hback t f r hr hb).2] at hs'
        simp at hs'
      · rcases panReplace_cases (parses := parses) hs hd defaults repl hok with ⟨g1, _⟩ | ⟨_, g2, g3, _⟩ | ⟨_, _, _, g4, _⟩ |
          ⟨_, _, _, g4⟩
        · exact absurd g1 h1
        · obtain ⟨t, f, r, hr, hb⟩ := g2
          obtain ⟨⟨r0, hr0, hb0⟩, _⟩ := hback t f r hr hb
          exact absurd ⟨⟨t, f, r0, hr0, hb0⟩, g3⟩ h2
        · obtain ⟨t, f, v, ⟨r, hr, hb⟩, hv, _⟩ := g4
          rw [(hback t f r hr hb).2] at hv
          simp at hv
        · rw [g4, PanReplaceResult.done.injEq]
          refine panRepaired_unique (panFixed_repaired _ _ _ _ _ _) ?_
          intro t
          refine ⟨rfl, fun i r hr => ⟨r, hr, fun f => ⟨fun hb v hv => ?_, fun _ => rfl⟩⟩⟩
          rw [(hback t f r (List.mem_of_getElem? hr) hb).2] at hv
          simp at hv

/-- **C57, no exception.**  If replacements are given only for data fields, every one of which has a default value (as the
factory's constructor provides), the call is refused or succeeds. -/
theorem pan_replace_data_fields {parses : Cell → Bool} {s : Schema} (hs : SchemaOK s) {dts : DataTypes} (hd : TypesOK s dts)
    (defaults : PyDict String (PyDict String Cell)) (repl : PyDict (String × String) Cell) {db : PanDB Cell}
    (hdb : PanOK s db)
    (hdef : ∀ t, ∀ f ∈ s.dfs t, (defaults.lookup t).bind (fun r => r.lookup f) ≠ none)
    (hrepl : ∀ p ∈ repl, p.1.2 ∈ s.dfs p.1.1) :
    panReplaceTypes parses s dts defaults repl db ≠ .crashed := by
  intro h
  obtain ⟨_, _, t, f, _, h2, h3⟩ := ((pan_replace_types_partial hs hd defaults repl hdb).2.1).1 h
  rw [← get?_lookup_pair] at h2
  obtain ⟨v, hv⟩ := Option.ne_none_iff_exists'.1 h2
  exact hdef t f (hrepl _ (PyDict.get?_mem hv)) h3

/-- Foods with a key and a cost. -/
def ptSchema : Schema := [("foods", ⟨["name"], ["cost"]⟩)]

/-- The cost is a nonnegative number. -/
def ptTypes : DataTypes := [("foods", [("cost", ⟨true, true, false, .fin 0, .pinf, false, .oneOf [], false, false⟩)])]

/-- One row. -/
def ptRow (a b : Cell) : PRow Cell := fun f => if f = "name" then some a else if f = "cost" then some b else none

/-- Rows with a bad cost and a bad name. -/
def ptDB : PanDB Cell := fun t =>
  if t = "foods" then [ptRow (.str "ham") (.num (.fin 2)), ptRow (.str "milk") (.num (.fin (-1))), ptRow .nan (.str "x")] else []

theorem ptSchema_ok : SchemaOK ptSchema := by
  refine ⟨by decide, fun t => ?_⟩
  by_cases h : t = "foods"
  · subst h; decide
  · simp [ptSchema, Schema.pks, Schema.dfs, tableOf, PyDict.get?, Ne.symm h]

theorem ptTypes_ok : TypesOK ptSchema ptTypes := by
  refine ⟨by decide, ?_, by decide, ?_⟩
  · intro t r h; simp only [ptTypes, List.mem_cons, Prod.mk.injEq, List.not_mem_nil, or_false] at h
    obtain ⟨rfl, rfl⟩ := h; decide
  · intro t r h; simp only [ptTypes, List.mem_cons, Prod.mk.injEq, List.not_mem_nil, or_false] at h
    obtain ⟨rfl, rfl⟩ := h; decide

theorem ptDB_ok : PanOK ptSchema ptDB := by
  intro t ht r hr f hf
  simp only [ptSchema, PyDict.keys, List.map_cons, List.map_nil, List.mem_cons, List.not_mem_nil, or_false] at ht
  subst ht
  have : f = "name" ∨ f = "cost" := by simpa [ptSchema, Schema.pks, Schema.dfs, tableOf, PyDict.get?] using hf
  simp only [ptDB, if_true, List.mem_cons, List.not_mem_nil, or_false] at hr
  rcases hr with rfl | rfl | rfl <;> rcases this with rfl | rfl <;> simp [ptRow]

example : panFindTypes (fun _ => false) ptSchema ptTypes ptDB none =
      some [(("foods", "cost"), [false, true, true]), (("foods", "name"), [false, false, true])] ∧
    panFindTypes (fun _ => false) ptSchema ptTypes ptDB (some 1) = some [(("foods", "cost"), [false, true, false])] := by
  decide +kernel

/-- The cells after a call, or why there are none. -/
def ptShow : PanReplaceResult → Option (Option (List (Option Cell × Option Cell)))
  | .refused => none
  | .crashed => some none
  | .done db => some (some ((db "foods").map (fun r => (r "name", r "cost"))))

/-- The bad costs become 0; the bad name stays. -/
example : ptShow (panReplaceTypes (fun _ => false) ptSchema ptTypes [("foods", [("cost", .num (.fin 0))])] [] ptDB) =
    some (some [(some (.str "ham"), some (.num (.fin 2))), (some (.str "milk"), some (.num (.fin 0))),
      (some .nan, some (.num (.fin 0)))]) := by decide +kernel

/-- **Finding (C57).**  The docstring says that an entry of `replacement_values` is enough for a primary key field; but with no
default for that field the call raises `KeyError`, although the replacement is valid. -/
theorem pan_replace_key_field_raises :
    panReplaceTypes (fun _ => false) ptSchema ptTypes [("foods", [("cost", .num (.fin 0))])]
      [(("foods", "name"), .str "?")] ptDB = .crashed ∧
    panReplacement [("foods", [("cost", .num (.fin 0))])] [(("foods", "name"), .str "?")] "foods" "name" = some (.str "?") ∧
    ¬ BadCell (fun _ => false) ptSchema ptTypes "foods" "name" (.str "?") := by
  refine ⟨?_, by decide +kernel, ?_⟩
  · have h : ptShow (panReplaceTypes (fun _ => false) ptSchema ptTypes [("foods", [("cost", .num (.fin 0))])]
      [(("foods", "name"), .str "?")] ptDB) = some none := by decide +kernel
    revert h
    cases panReplaceTypes (fun _ => false) ptSchema ptTypes [("foods", [("cost", .num (.fin 0))])]
      [(("foods", "name"), .str "?")] ptDB <;> simp [ptShow]
  · rintro (⟨td, h, _⟩ | ⟨_, _, h⟩)
    · rw [show typeOf ptTypes "foods" "name" = none by simp [typeOf, ptTypes, List.lookup]] at h; simp at h
    · exact h (.inr ⟨_, rfl⟩)

/-- With a default for the key field set as well, the same replacement is made. -/
example : ptShow (panReplaceTypes (fun _ => false) ptSchema ptTypes
      [("foods", [("cost", .num (.fin 0)), ("name", .str "none")])] [(("foods", "name"), .str "?")] ptDB) =
    some (some [(some (.str "ham"), some (.num (.fin 2))), (some (.str "milk"), some (.num (.fin 0))),
      (some (.str "?"), some (.num (.fin 0)))]) := by decide +kernel

end Ticdat

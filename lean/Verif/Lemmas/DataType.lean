import Verif.Spec.DataType
import Verif.Lemmas.Group
/-! # Lemmas on data types -/
set_option linter.unusedSectionVars false
set_option linter.unusedSimpArgs false
namespace Ticdat
open Spec

theorem get?_eq_lookup {V : Type} (d : PyDict String V) (k : String) : PyDict.get? d k = d.lookup k := by
  induction d with
  | nil => rfl
  | cons p d ih =>
    obtain ⟨a, b⟩ := p
    by_cases h : a = k
    · subst h; simp [PyDict.get?]
    · have : (k == a) = false := by simp [Ne.symm h]
      simp [PyDict.get?, h, List.lookup_cons, this, ih]

theorem at_eq_typeOf (dts : DataTypes) (t f : String) : DataTypes.at dts t f = typeOf dts t f := by
  unfold DataTypes.at typeOf
  rw [get?_eq_lookup]
  cases dts.lookup t with
  | none => rfl
  | some r => simp [get?_eq_lookup]

theorem xlt_iff (a b : XNum) : XNum.lt a b = true ↔ XLt a b := by
  constructor
  · intro h
    cases a <;> cases b <;> simp [XNum.lt] at h
    · exact .below
    · exact .all
    · exact .fin h
    · exact .above
  · intro h
    cases h <;> simp [XNum.lt]
    assumption

theorem isInt_iff (x : XNum) : x.isInt = true ↔ IsInt x := by
  unfold XNum.isInt IsInt
  cases x with
  | ninf => simp
  | pinf => simp
  | fin q =>
    simp only [decide_eq_true_eq, XNum.fin.injEq]
    constructor
    · intro h
      refine ⟨q.num, ?_⟩
      apply Rat.ext <;> simp [h]
    · rintro ⟨n, rfl⟩
      simp

theorem xlt_trichotomy (a b : XNum) : (XNum.lt a b = false ↔ (XLt b a ∨ a = b)) := by
  cases a with
  | ninf =>
    cases b <;> simp [XNum.lt]
    · rintro h; cases h
    · rintro h; cases h
  | pinf =>
    cases b <;> simp [XNum.lt]
    · exact .all
    · exact .above
  | fin q =>
    cases b with
    | ninf => simp [XNum.lt]; exact .below
    | pinf => simp [XNum.lt]; intro h; cases h
    | fin r =>
      simp only [XNum.lt, decide_eq_false_iff_not, XNum.fin.injEq]
      constructor
      · intro h
        have h1 : r ≤ q := Rat.not_lt.1 h
        by_cases he : q = r
        · exact Or.inr he
        · left; apply XLt.fin; exact Rat.lt_of_le_of_ne h1 (Ne.symm he)
      · rintro (h | rfl)
        · cases h with
          | fin h => intro h2; exact Rat.not_lt.2 (Rat.le_of_lt h) h2
        · exact Rat.lt_irrefl

theorem xlt_irrefl (a : XNum) : ¬ XLt a a := by
  intro h
  cases h with
  | fin h => exact Rat.lt_irrefl h

/-! ### The full row -/

theorem foldl_set_zip_get {V : Type} (l : List String) (vs : List V) (hn : l.Nodup) (hlen : l.length = vs.length)
    (d : PyDict String V) (f : String) :
    PyDict.get? ((l.zip vs).foldl (fun d p => PyDict.set d p.1 p.2) d) f =
      if f ∈ l then vs[l.idxOf f]? else PyDict.get? d f := by
  induction l generalizing vs d with
  | nil => simp
  | cons a l ih =>
    cases vs with
    | nil => simp at hlen
    | cons v vs =>
      rw [List.nodup_cons] at hn
      simp only [List.zip_cons_cons, List.foldl_cons]
      rw [ih vs hn.2 (by simpa using hlen)]
      by_cases hfl : f ∈ l
      · have hne : a ≠ f := fun e => hn.1 (e ▸ hfl)
        have : (a == f) = false := by simp [hne]
        simp [hfl, List.idxOf_cons, this]
      · simp only [hfl, if_false, PyDict.get?_set, List.mem_cons, or_false]
        by_cases haf : a = f
        · subst haf; simp [List.idxOf_cons]
        · simp [haf, Ne.symm haf]

theorem fullRow_get {V : Type} [DecidableEq V] {ts : TSchema} (hn : (ts.pks ++ ts.dfs).Nodup) {pk : PKey V}
    {row : List V} (h : RowOK ts pk row) (f : String) : PyDict.get? (fullRow ts pk row) f = recOf ts pk row f := by
  rw [List.nodup_append] at hn
  obtain ⟨hn1, hn2, _⟩ := hn
  have hd : PyDict.get? (PyDict.ofList (ts.dfs.zip row)) f = if f ∈ ts.dfs then row[ts.dfs.idxOf f]? else none := by
    unfold PyDict.ofList
    rw [foldl_set_zip_get _ _ hn2 h.2.1.symm]
    rfl
  have hrec : recOf ts pk row f = if f ∈ ts.pks then (keyVals pk)[ts.pks.idxOf f]?
      else if f ∈ ts.dfs then row[ts.dfs.idxOf f]? else none := by
    by_cases hp : f ∈ ts.pks
    · simp [hp, recOf_pk h hp]
    · simp [recOf, lookup_append, lookup_zip ts.pks (keyVals pk) f h.1.symm, hp, lookup_zip ts.dfs row f h.2.1.symm]
  rw [hrec]
  unfold fullRow
  cases pk with
  | idx i =>
    have : ts.pks = [] := by
      have := h.1; simp [keyVals] at this; exact List.length_eq_zero_iff.1 this.symm
    simp [this, hd]
  | many vs =>
    simp only [keyVals]
    have h1 : ts.pks.length = vs.length := h.1.symm
    rw [foldl_set_zip_get _ vs hn1 h1, hd]
  | one v =>
    have h1 := h.1
    simp only [keyVals, List.length_singleton] at h1
    match hts : ts.pks, h1 with
    | [g], _ =>
      simp only [PyDict.get?_set, hd, List.mem_singleton, keyVals]
      by_cases hg : g = f
      · subst hg; simp [List.idxOf_cons]
      · simp [hg, Ne.symm hg]

/-! ### The types that are checked -/

/-- The type checked for a field: the declared one, or the temporary one. -/
def effType (s : Schema) (dts : DataTypes) (t f : String) : Option TypeDict :=
  match DataTypes.at dts t f with
  | some td => some td
  | none => if f ∈ s.pks t then some notNullType else none

structure TmpInv (s : Schema) (dts : DataTypes) (pre : List (String × String)) (d : DataTypes) : Prop where
  ok : TypesOK s d
  lookup : ∀ t f, DataTypes.at d t f = match DataTypes.at dts t f with
    | some td => some td
    | none => if (t, f) ∈ pre then some notNullType else none

theorem typesOK_set {s : Schema} {d : DataTypes} (h : TypesOK s d) {t f : String} (ht : t ∈ PyDict.keys s)
    (hf : f ∈ s.pks t ++ s.dfs t) (td : TypeDict) :
    TypesOK s (PyDict.set d t (((PyDict.get? d t).getD []).set f td)) := by
  have hin : (PyDict.keys ((PyDict.get? d t).getD [])).Nodup ∧
      ∀ g ∈ PyDict.keys ((PyDict.get? d t).getD []), g ∈ s.pks t ++ s.dfs t := by
    cases hg : PyDict.get? d t with
    | none => simp [PyDict.keys]
    | some r => exact ⟨h.fields_nodup t r (PyDict.get?_mem hg), h.fields t r (PyDict.get?_mem hg)⟩
  have hnd := PyDict.keys_set_nodup d t (((PyDict.get? d t).getD []).set f td) h.tables_nodup
  refine ⟨hnd, ?_, ?_, ?_⟩
  · intro t' r hm
    have hg := PyDict.get?_of_mem hnd hm
    rw [PyDict.get?_set] at hg
    by_cases e : t = t'
    · subst e
      simp only [if_true, Option.some.injEq] at hg
      rw [← hg]
      exact PyDict.keys_set_nodup _ _ _ hin.1
    · simp only [e, if_false] at hg
      exact h.fields_nodup t' r (PyDict.get?_mem hg)
  · intro t' hm
    rcases (PyDict.keys_set_mem _ _ _ _).1 hm with rfl | hm
    · exact ht
    · exact h.tables t' hm
  · intro t' r hm g hgm
    have hg := PyDict.get?_of_mem hnd hm
    rw [PyDict.get?_set] at hg
    by_cases e : t = t'
    · subst e
      simp only [if_true, Option.some.injEq] at hg
      rw [← hg] at hgm
      rcases (PyDict.keys_set_mem _ _ _ _).1 hgm with rfl | hgm
      · exact hf
      · exact hin.2 g hgm
    · simp only [e, if_false] at hg
      exact h.fields t' r (PyDict.get?_mem hg) g hgm

theorem at_set (d : DataTypes) (t f : String) (td : TypeDict) (t' f' : String) :
    DataTypes.at (PyDict.set d t (((PyDict.get? d t).getD []).set f td)) t' f' =
      if t = t' ∧ f = f' then some td else DataTypes.at d t' f' := by
  unfold DataTypes.at
  rw [PyDict.get?_set]
  by_cases e : t = t'
  · subst e
    simp only [if_true, Option.bind_some, PyDict.get?_set, true_and]
    by_cases e2 : f = f'
    · simp [e2]
    · simp only [e2, if_false]
      cases PyDict.get? d t <;> simp
  · simp [e]

theorem mem_pkPairs {s : Schema} (hs : SchemaOK s) (t f : String) :
    (t, f) ∈ s.flatMap (fun p => p.2.pks.map (fun f => (p.1, f))) ↔ f ∈ s.pks t := by
  simp only [List.mem_flatMap, List.mem_map, Prod.mk.injEq]
  unfold Schema.pks
  constructor
  · rintro ⟨⟨t', ts⟩, hm, f', hf, rfl, rfl⟩
    rw [PyDict.get?_of_mem hs.tables_nodup hm]
    exact hf
  · intro h
    cases hg : PyDict.get? s t with
    | none => rw [hg] at h; simp at h
    | some ts =>
      rw [hg] at h
      exact ⟨(t, ts), PyDict.get?_mem hg, f, h, rfl, rfl⟩

theorem pks_mem_keys {s : Schema} {t f : String} (h : f ∈ s.pks t) : t ∈ PyDict.keys s := by
  unfold Schema.pks at h
  cases hg : PyDict.get? s t with
  | none => rw [hg] at h; simp at h
  | some ts => exact List.mem_map.2 ⟨(t, ts), PyDict.get?_mem hg, rfl⟩

theorem tmpTypes_spec {s : Schema} (hs : SchemaOK s) {dts : DataTypes} (hd : TypesOK s dts) :
    TypesOK s (tmpTypes s dts) ∧ ∀ t f, DataTypes.at (tmpTypes s dts) t f = effType s dts t f := by
  have key : ∀ (ps pre : List (String × String)) (d : DataTypes), (∀ p ∈ ps, p.2 ∈ s.pks p.1) → TmpInv s dts pre d →
      TmpInv s dts (pre ++ ps) (ps.foldl (fun d p => if (DataTypes.at dts p.1 p.2).isSome then d
        else d.set p.1 (((PyDict.get? d p.1).getD []).set p.2 notNullType)) d) := by
    intro ps
    induction ps with
    | nil => intro pre d _ h; simpa using h
    | cons p ps ih =>
      intro pre d hps h
      have hstep : TmpInv s dts (pre ++ [p]) (if (DataTypes.at dts p.1 p.2).isSome then d
          else d.set p.1 (((PyDict.get? d p.1).getD []).set p.2 notNullType)) := by
        have hp := hps p List.mem_cons_self
        split
        · rename_i hsome
          refine ⟨h.ok, ?_⟩
          intro t f
          rw [h.lookup]
          cases ha : DataTypes.at dts t f with
          | some td => rfl
          | none =>
            have hne : (t, f) ≠ p := by rintro rfl; rw [ha] at hsome; simp at hsome
            simp [hne]
        · rename_i hnone
          refine ⟨typesOK_set h.ok (pks_mem_keys hp) (List.mem_append_left _ hp) _, ?_⟩
          intro t f
          rw [at_set, h.lookup]
          by_cases e : p.1 = t ∧ p.2 = f
          · obtain ⟨rfl, rfl⟩ := e
            cases ha : DataTypes.at dts p.1 p.2 with
            | some td => rw [ha] at hnone; simp at hnone
            | none => simp
          · have hne : (t, f) ≠ p := by rintro rfl; exact e ⟨rfl, rfl⟩
            simp [e, hne]
      have := ih (pre ++ [p]) _ (fun q hq => hps q (List.mem_cons_of_mem _ hq)) hstep
      simpa using this
  have := key (s.flatMap (fun p => p.2.pks.map (fun f => (p.1, f)))) [] dts
    (by rintro ⟨t, f⟩ h; exact (mem_pkPairs hs t f).1 h)
    ⟨hd, by intro t f; cases DataTypes.at dts t f <;> simp⟩
  refine ⟨this.ok, ?_⟩
  intro t f
  have h2 := this.lookup t f
  simp only [List.nil_append, mem_pkPairs hs] at h2
  exact h2

theorem mem_types_iff {s : Schema} {d : DataTypes} (h : TypesOK s d) (t f : String) (td : TypeDict) :
    (∃ r, (t, r) ∈ d ∧ (f, td) ∈ r) ↔ DataTypes.at d t f = some td := by
  unfold DataTypes.at
  constructor
  · rintro ⟨r, h1, h2⟩
    rw [PyDict.get?_of_mem h.tables_nodup h1]
    exact PyDict.get?_of_mem (h.fields_nodup t r h1) h2
  · intro hg
    cases h1 : PyDict.get? d t with
    | none => rw [h1] at hg; simp at hg
    | some r =>
      rw [h1] at hg
      exact ⟨r, PyDict.get?_mem h1, PyDict.get?_mem hg⟩

/-! ### The scan -/

/-- The places that are checked, in order. -/
def typeIdx (s : Schema) (dts : DataTypes) (db : DB Cell) : List (String × (PKey Cell × List Cell) × (String × TypeDict)) :=
  (tmpTypes s dts).flatMap (fun tr => (db tr.1).items.flatMap (fun item => tr.2.map (fun ft => (tr.1, item, ft))))

theorem typeChecks_eq (parses : Cell → Bool) (s : Schema) (dts : DataTypes) (db : DB Cell) :
    typeChecks parses s dts db = (typeIdx s dts db).map (fun i => typeCheck parses s i.1 i.2.1 i.2.2) := by
  simp only [typeChecks, typeIdx, List.map_flatMap, List.map_map]
  rfl

theorem mem_typeIdx {s : Schema} {dts : DataTypes} (hs : SchemaOK s) (hd : TypesOK s dts) {db : DB Cell} (t : String)
    (item : PKey Cell × List Cell) (ft : String × TypeDict) :
    (t, item, ft) ∈ typeIdx s dts db ↔ item ∈ (db t).items ∧ effType s dts t ft.1 = some ft.2 := by
  obtain ⟨hok, hat⟩ := tmpTypes_spec hs hd
  rw [← hat, ← mem_types_iff hok]
  simp only [typeIdx, List.mem_flatMap, List.mem_map, Prod.mk.injEq]
  constructor
  · rintro ⟨⟨t', r⟩, h1, item', h2, ft', h3, rfl, rfl, rfl⟩
    exact ⟨h2, r, h1, h3⟩
  · rintro ⟨h2, r, h1, h3⟩
    exact ⟨(t, r), h1, item, h2, ft, h3, rfl, rfl, rfl⟩

theorem effType_fields {s : Schema} {dts : DataTypes} (hd : TypesOK s dts) {t f : String} {td : TypeDict}
    (h : effType s dts t f = some td) : t ∈ PyDict.keys s ∧ f ∈ s.pks t ++ s.dfs t := by
  unfold effType at h
  cases ha : DataTypes.at dts t f with
  | some td' =>
    obtain ⟨r, h1, h2⟩ := (mem_types_iff hd t f td').2 ha
    exact ⟨hd.tables t (List.mem_map.2 ⟨_, h1, rfl⟩), hd.fields t r h1 f (List.mem_map.2 ⟨_, h2, rfl⟩)⟩
  | none =>
    rw [ha] at h
    simp only at h
    split at h
    · rename_i hp
      exact ⟨pks_mem_keys hp, List.mem_append_left _ hp⟩
    · simp at h

/-- What one check does on a good data object. -/
theorem typeCheck_eq {parses : Cell → Bool} {s : Schema} (hs : SchemaOK s) {dts : DataTypes} (hd : TypesOK s dts)
    {db : DB Cell} (hdb : DBOK s db) {t : String} {item : PKey Cell × List Cell} {ft : String × TypeDict}
    (h : (t, item, ft) ∈ typeIdx s dts db) :
    ∃ v, recOf (tableOf s t) item.1 item.2 ft.1 = some v ∧
      typeCheck parses s t item ft = some (if ft.2.validData parses v then none else some ((t, ft.1), item.1, v)) := by
  obtain ⟨h1, h2⟩ := (mem_typeIdx hs hd t item ft).1 h
  obtain ⟨ht, hf⟩ := effType_fields hd h2
  have hrow := rowOK_of_items (tableOK_of_mem hs hdb ht) h1
  obtain ⟨v, hv⟩ := Option.isSome_iff_exists.1 (recOf_isSome hrow hf)
  refine ⟨v, hv, ?_⟩
  unfold typeCheck
  have hg := fullRow_get (hs.fields_nodup t) hrow ft.1
  have : (⟨s.pks t, s.dfs t⟩ : TSchema) = tableOf s t := rfl
  rw [this, hg, hv]

/-- All failures in the order of discovery. -/
def typeEvents (parses : Cell → Bool) (s : Schema) (dts : DataTypes) (db : DB Cell) : List TypeEvent :=
  (typeChecks parses s dts db).filterMap Option.join

theorem mem_typeEvents {parses : Cell → Bool} {s : Schema} (hs : SchemaOK s) {dts : DataTypes} (hd : TypesOK s dts)
    {db : DB Cell} (hdb : DBOK s db) (t f : String) (pk : PKey Cell) (v : Cell) :
    ((t, f), pk, v) ∈ typeEvents parses s dts db ↔
      ∃ td row, (pk, row) ∈ (db t).items ∧ effType s dts t f = some td ∧
        recOf (tableOf s t) pk row f = some v ∧ td.validData parses v = false := by
  unfold typeEvents
  rw [typeChecks_eq]
  simp only [List.mem_filterMap, List.mem_map]
  constructor
  · rintro ⟨c, ⟨⟨t', item, ft⟩, hi, rfl⟩, hj⟩
    obtain ⟨w, hw, hc⟩ := typeCheck_eq (parses := parses) hs hd hdb hi
    rw [hc] at hj
    obtain ⟨h1, h2⟩ := (mem_typeIdx hs hd t' item ft).1 hi
    cases hv : ft.2.validData parses w with
    | true => simp [hv] at hj
    | false =>
      simp only [hv, Bool.false_eq_true, if_false, Option.join_some, Option.some.injEq, Prod.mk.injEq] at hj
      obtain ⟨⟨rfl, rfl⟩, rfl, rfl⟩ := hj
      exact ⟨ft.2, item.2, h1, h2, hw, hv⟩
  · rintro ⟨td, row, h1, h2, h3, h4⟩
    have hi := (mem_typeIdx hs hd t (pk, row) (f, td)).2 ⟨h1, h2⟩
    obtain ⟨w, hw, hc⟩ := typeCheck_eq (parses := parses) hs hd hdb hi
    refine ⟨_, ⟨_, hi, rfl⟩, ?_⟩
    dsimp only at hw hc ⊢
    rw [h3] at hw
    cases hw
    rw [hc, h4]
    rfl

/-- `filterMap` keeps keys distinct. -/
theorem nodup_filterMap_key {A B C : Type} (l : List A) (g : A → Option B) (ka : A → C) (kb : B → C)
    (hk : ∀ a ∈ l, ∀ b, g a = some b → kb b = ka a) (hn : (l.map ka).Nodup) : ((l.filterMap g).map kb).Nodup := by
  have : ((l.filterMap g).map kb).Sublist (l.map ka) := by
    clear hn
    induction l with
    | nil => simp
    | cons a l ih =>
      have ih' := ih (fun a' ha' => hk a' (List.mem_cons_of_mem _ ha'))
      cases hg : g a with
      | none => simp only [List.filterMap_cons, hg, List.map_cons]; exact ih'.cons _
      | some b =>
        simp only [List.filterMap_cons, hg, List.map_cons]
        rw [hk a List.mem_cons_self b hg]
        exact ih'.cons_cons _
  exact this.nodup hn

theorem typeEvents_nodup {parses : Cell → Bool} {s : Schema} (hs : SchemaOK s) {dts : DataTypes} (hd : TypesOK s dts)
    {db : DB Cell} (hdb : DBOK s db) : ((typeEvents parses s dts db).map (fun e => (e.1, e.2.1))).Nodup := by
  obtain ⟨hok, hat⟩ := tmpTypes_spec hs hd
  unfold typeEvents
  rw [typeChecks_eq, List.filterMap_map]
  apply nodup_filterMap_key _ _ (fun i => ((i.1, i.2.2.1), i.2.1.1))
  · rintro ⟨t, item, ft⟩ hi b hb
    obtain ⟨w, hw, hc⟩ := typeCheck_eq (parses := parses) hs hd hdb hi
    simp only [Function.comp, hc] at hb
    cases hv : ft.2.validData parses w with
    | true => simp [hv] at hb
    | false =>
      simp only [hv, Bool.false_eq_true, if_false, Option.join_some, Option.some.injEq] at hb
      rw [← hb]
  · rw [List.Nodup, List.pairwise_map]
    unfold typeIdx
    rw [List.pairwise_flatMap]
    constructor
    · rintro ⟨t, r⟩ htr
      rw [List.pairwise_flatMap]
      constructor
      · rintro item hitem
        rw [List.pairwise_map]
        have hf := hok.fields_nodup t r htr
        unfold PyDict.keys at hf
        rw [List.Nodup, List.pairwise_map] at hf
        apply hf.imp
        intro a b hab e
        simp only [Prod.mk.injEq, true_and, and_true] at e
        exact hab e
      · have hk := items_keys_nodup (tableOK_of_mem hs hdb (hok.tables t (List.mem_map.2 ⟨_, htr, rfl⟩)))
        rw [List.Nodup, List.pairwise_map] at hk
        apply hk.imp
        rintro a b hab x hx y hy e
        obtain ⟨_, _, rfl⟩ := List.mem_map.1 hx
        obtain ⟨_, _, rfl⟩ := List.mem_map.1 hy
        simp only [Prod.mk.injEq, true_and] at e
        exact hab e.2
    · have hk := hok.tables_nodup
      unfold PyDict.keys at hk
      rw [List.Nodup, List.pairwise_map] at hk
      apply hk.imp
      rintro a b hab x hx y hy e
      simp only [List.mem_flatMap, List.mem_map] at hx hy
      obtain ⟨_, _, _, _, rfl⟩ := hx
      obtain ⟨_, _, _, _, rfl⟩ := hy
      simp only [Prod.mk.injEq] at e
      exact hab e.1.1

/-- The result of `find_data_type_failures` on a good data object, in terms of the list of failures. -/
def typesResult (evs : List TypeEvent) : PyDict (String × String) (List Cell × List (PKey Cell)) :=
  (groupBy Cell.pyEq (evs.map (fun e => (e.1, e.2.2)))).map (fun p => (p.1, p.2,
    (PyDict.get? (groupBy (fun a b => decide (a = b)) (evs.map (fun e => (e.1, e.2.1)))) p.1).getD []))

theorem findTypes_eq {parses : Cell → Bool} {s : Schema} (hs : SchemaOK s) {dts : DataTypes} (hd : TypesOK s dts)
    {db : DB Cell} (hdb : DBOK s db) (lim : Option Nat) (hl : lim ≠ some 0) :
    findTypes parses s dts db lim = some (typesResult (takeLim lim (typeEvents parses s dts db))) := by
  have h : scanChecks lim (typeChecks parses s dts db) [] =
      some (takeLim lim (typeEvents parses s dts db)).reverse := by
    apply scanChecks_eq lim hl
    intro c hc
    rw [typeChecks_eq] at hc
    obtain ⟨⟨t, item, ft⟩, hi, rfl⟩ := List.mem_map.1 hc
    obtain ⟨w, hw, hc⟩ := typeCheck_eq (parses := parses) hs hd hdb hi
    rw [hc]; simp
  unfold findTypes
  rw [h]
  simp [typesResult]

theorem pyEq_eqvB : EqvB Cell.pyEq := eqvB_pyEq Cell.canon

theorem get?_map_snd {K A B : Type} [DecidableEq K] (d : PyDict K A) (g : K → A → B) (k : K) :
    PyDict.get? (d.map (fun p => (p.1, g p.1 p.2))) k = (PyDict.get? d k).map (g k) := by
  induction d with
  | nil => rfl
  | cons p d ih =>
    by_cases h : p.1 = k
    · subst h; simp [PyDict.get?]
    · simp [PyDict.get?, h, ih]

/-- The dictionary built from a list of failures. -/
theorem typesResult_spec (evs : List TypeEvent) :
    (PyDict.keys (typesResult evs)).Nodup ∧
    (∀ tf, tf ∈ PyDict.keys (typesResult evs) ↔ ∃ pk v, (tf, pk, v) ∈ evs) ∧
    (∀ tf vs pks, PyDict.get? (typesResult evs) tf = some (vs, pks) →
      pks.Nodup ∧ (∀ pk, pk ∈ pks ↔ ∃ v, (tf, pk, v) ∈ evs) ∧ (∀ v ∈ vs, ∃ pk, (tf, pk, v) ∈ evs) ∧
      (∀ pk v, (tf, pk, v) ∈ evs → ∃ w ∈ vs, v.canon = w.canon) ∧
      vs.Pairwise (fun a b => a.canon ≠ b.canon)) := by
  have iv := groupBy_inv (K := String × String) pyEq_eqvB (evs.map (fun e => (e.1, e.2.2)))
  have ip := groupBy_inv (K := String × String) (eqvB_eq (A := PKey Cell)) (evs.map (fun e => (e.1, e.2.1)))
  have hkeys : PyDict.keys (typesResult evs) = PyDict.keys (groupBy Cell.pyEq (evs.map (fun e => (e.1, e.2.2)))) := by
    simp only [PyDict.keys, typesResult, List.map_map]
    rfl
  have hmem : ∀ tf, tf ∈ PyDict.keys (typesResult evs) ↔ ∃ pk v, (tf, pk, v) ∈ evs := by
    intro tf
    rw [hkeys, iv.mem_keys]
    simp only [List.mem_map, Prod.mk.injEq]
    constructor
    · rintro ⟨a, ⟨tf', pk, v⟩, h, rfl, rfl⟩; exact ⟨pk, v, h⟩
    · rintro ⟨pk, v, h⟩; exact ⟨v, (tf, pk, v), h, rfl, rfl⟩
  refine ⟨by rw [hkeys]; exact iv.nodup, hmem, ?_⟩
  intro tf vs pks hg
  unfold typesResult at hg
  rw [get?_map_snd _ (fun k a => (a, (PyDict.get? (groupBy (fun a b => decide (a = b))
    (evs.map (fun e => (e.1, e.2.1)))) k).getD []))] at hg
  obtain ⟨vs', hv, he⟩ := Option.map_eq_some_iff.1 hg
  simp only [Prod.mk.injEq] at he
  obtain ⟨rfl, hpk⟩ := he
  have hev : ∃ a, (tf, a) ∈ evs.map (fun e => (e.1, e.2.1)) := by
    have : tf ∈ PyDict.keys (groupBy Cell.pyEq (evs.map (fun e => (e.1, e.2.2)))) :=
      List.mem_map.2 ⟨_, PyDict.get?_mem hv, rfl⟩
    rw [← hkeys, hmem] at this
    obtain ⟨pk, v, h⟩ := this
    exact ⟨pk, List.mem_map.2 ⟨_, h, rfl⟩⟩
  have hsome : ∃ l, PyDict.get? (groupBy (fun a b => decide (a = b)) (evs.map (fun e => (e.1, e.2.1)))) tf = some l := by
    cases hh : PyDict.get? (groupBy (fun a b => decide (a = b)) (evs.map (fun e => (e.1, e.2.1)))) tf with
    | some l => exact ⟨l, rfl⟩
    | none => exact absurd ((ip.mem_keys tf).2 hev) ((PyDict.get?_eq_none _ _).1 hh)
  obtain ⟨l, hl⟩ := hsome
  rw [hl] at hpk
  simp only [Option.getD_some] at hpk
  subst hpk
  refine ⟨?_, ?_, ?_, ?_, ?_⟩
  · have := ip.distinct tf l hl
    rw [List.Nodup]
    apply this.imp
    intro a b h
    simpa using h
  · intro pk
    constructor
    · intro h
      have := ip.sound tf l hl pk h
      obtain ⟨⟨tf', pk', v⟩, h1, h2⟩ := List.mem_map.1 this
      simp only [Prod.mk.injEq] at h2
      obtain ⟨rfl, rfl⟩ := h2
      exact ⟨v, h1⟩
    · rintro ⟨v, h⟩
      obtain ⟨b, hb, hab⟩ := ip.complete tf l hl pk (List.mem_map.2 ⟨_, h, rfl⟩)
      simp at hab
      rw [hab]; exact hb
  · intro v hvm
    have := iv.sound tf vs' hv v hvm
    obtain ⟨⟨tf', pk', v'⟩, h1, h2⟩ := List.mem_map.1 this
    simp only [Prod.mk.injEq] at h2
    obtain ⟨rfl, rfl⟩ := h2
    exact ⟨pk', h1⟩
  · intro pk v h
    obtain ⟨b, hb, hab⟩ := iv.complete tf vs' hv v (List.mem_map.2 ⟨_, h, rfl⟩)
    exact ⟨b, hb, by simpa [Cell.pyEq] using hab⟩
  · have := iv.distinct tf vs' hv
    apply this.imp
    intro a b h
    simpa [Cell.pyEq] using h

/-- A decidable way to establish `SchemaOK` of a concrete schema. -/
theorem schemaOK_of_mem {s : Schema} (h1 : (PyDict.keys s).Nodup) (h2 : ∀ p ∈ s, (p.2.pks ++ p.2.dfs).Nodup) :
    SchemaOK s := by
  refine ⟨h1, ?_⟩
  intro t
  cases h : PyDict.get? s t with
  | none => simp [Schema.pks, Schema.dfs, h]
  | some ts => simpa [Schema.pks, Schema.dfs, h] using h2 _ (PyDict.get?_mem h)

end Ticdat

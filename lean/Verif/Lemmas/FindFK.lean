import Verif.Lemmas.Dict
import Verif.Model.FindFK
import Verif.Spec.FK
/-! Helper lemmas for `find_foreign_key_failures`. -/
set_option linter.unusedSectionVars false
namespace Ticdat
open Spec
variable {V : Type} [DecidableEq V]

theorem mapM_eq_some_iff {A B : Type} (f : A → Option B) (l : List A) (vs : List B) :
    l.mapM f = some vs ↔ l.map f = vs.map some := by
  induction l generalizing vs with
  | nil => cases vs <;> simp
  | cons a l ih =>
    cases h : f a with
    | none => cases vs <;> simp [List.mapM_cons, h]
    | some b =>
      cases h2 : l.mapM f with
      | none =>
        cases vs with
        | nil => simp [List.mapM_cons, h, h2]
        | cons v vs =>
          have := (not_congr (ih vs)).1 (by simp [h2])
          simp [List.mapM_cons, h, h2, this]
      | some ws =>
        have hw := (ih ws).1 h2
        cases vs with
        | nil => simp [List.mapM_cons, h, h2]
        | cons v vs =>
          simp only [List.mapM_cons, h, h2, List.map_cons, Option.bind_eq_bind, Option.bind_some,
            Option.pure_def, Option.some.injEq, List.cons.injEq, hw]
          constructor
          · rintro ⟨rfl, rfl⟩; simp
          · rintro ⟨rfl, h3⟩
            exact ⟨rfl, (List.map_inj_right (fun x y => by simp)).1 h3⟩

theorem mapM_some_of_forall {A B : Type} (f : A → Option B) (l : List A)
    (h : ∀ a ∈ l, (f a).isSome) : ∃ vs, l.mapM f = some vs := by
  induction l with
  | nil => exact ⟨[], rfl⟩
  | cons a l ih =>
    obtain ⟨vs, hv⟩ := ih (fun x hx => h x (List.mem_cons_of_mem _ hx))
    obtain ⟨b, hb⟩ := Option.isSome_iff_exists.1 (h a List.mem_cons_self)
    exact ⟨b :: vs, by simp [List.mapM_cons, hb, hv]⟩

theorem mapM_congr {A B : Type} (f g : A → Option B) (l : List A)
    (h : ∀ a ∈ l, f a = g a) : l.mapM f = l.mapM g := by
  induction l with
  | nil => rfl
  | cons a l ih =>
    simp [List.mapM_cons, h a List.mem_cons_self, ih (fun x hx => h x (List.mem_cons_of_mem _ hx))]

theorem lookup_zip {V : Type} (l : List String) (vs : List V) (f : String) (h : l.length = vs.length) :
    (l.zip vs).lookup f = if f ∈ l then vs[l.idxOf f]? else none := by
  induction l generalizing vs with
  | nil => simp
  | cons a l ih =>
    cases vs with
    | nil => simp at h
    | cons v vs =>
      simp only [List.length_cons, Nat.add_right_cancel_iff] at h
      simp only [List.zip_cons_cons, List.lookup_cons, List.idxOf_cons]
      by_cases hf : f = a
      · subst hf; simp
      · have : (f == a) = false := by simpa using hf
        have h2 : (a == f) = false := by simpa using Ne.symm hf
        simp only [this, h2, ih vs h, List.mem_cons, hf, false_or, cond_false, List.getElem?_cons_succ]

theorem lookup_append {K W : Type} [BEq K] (a b : List (K × W)) (k : K) :
    (a ++ b).lookup k = (a.lookup k).or (b.lookup k) := by
  induction a with
  | nil => simp
  | cons p a ih =>
    obtain ⟨x, y⟩ := p
    simp only [List.cons_append, List.lookup_cons]
    cases k == x <;> simp [ih]

/-- The shape of one addressed row. -/
def RowOK (ts : TSchema) (pk : PKey V) (row : List V) : Prop :=
  (keyVals pk).length = ts.pks.length ∧ row.length = ts.dfs.length ∧
    (ts.pks.length = 1 → ∃ v, pk = .one v) ∧ (1 < ts.pks.length → ∃ vs, pk = .many vs) ∧
    (ts.pks.length = 0 → ∃ i, pk = .idx i)

theorem rowOK_of_items {ts : TSchema} {td : TableData V} (h : TableOK ts td) {pk : PKey V} {row : List V}
    (hm : (pk, row) ∈ td.items) : RowOK ts pk row := by
  cases td with
  | dict rs =>
    obtain ⟨hne, _, hr⟩ := h
    obtain ⟨hk, hl⟩ := hr _ hm
    have : 0 < ts.pks.length := List.length_pos_iff.2 hne
    cases pk with
    | one v => simp only [KeyOK] at hk; exact ⟨by simp [keyVals, hk], hl, fun _ => ⟨v, rfl⟩, by omega, by omega⟩
    | many vs =>
      simp only [KeyOK] at hk
      exact ⟨hk.1, hl, by omega, fun _ => ⟨vs, rfl⟩, by omega⟩
    | idx i => exact absurd hk (by simp [KeyOK])
  | list rs =>
    obtain ⟨he, hr⟩ := h
    simp only [TableData.items, List.mem_map] at hm
    obtain ⟨p, hp, e⟩ := hm
    cases e
    have := hr p.1 (by
      have := List.mem_zipIdx hp
      exact this.2.2 ▸ List.getElem_mem _)
    exact ⟨by simp [keyVals, he], this, by simp [he], by simp [he], fun _ => ⟨_, rfl⟩⟩

theorem rows_eq_items (ts : TSchema) (td : TableData V) :
    Spec.rows ts td = td.items.map (fun p => (p.1, recOf ts p.1 p.2)) := by
  cases td with
  | dict rs => rfl
  | list rs => simp [Spec.rows, TableData.items]

theorem recOf_pk {ts : TSchema} {pk : PKey V} {row : List V} (h : RowOK ts pk row) {f : String}
    (hf : f ∈ ts.pks) : recOf ts pk row f = (keyVals pk)[ts.pks.idxOf f]? := by
  have hlt : ts.pks.idxOf f < (keyVals pk).length := by rw [h.1]; exact List.idxOf_lt_length_iff.2 hf
  simp [recOf, lookup_append, lookup_zip ts.pks (keyVals pk) f h.1.symm, hf, List.getElem?_eq_getElem hlt]

theorem recOf_df {ts : TSchema} {pk : PKey V} {row : List V} (h : RowOK ts pk row) {f : String}
    (hf : f ∉ ts.pks) (hd : f ∈ ts.dfs) : recOf ts pk row f = row[ts.dfs.idxOf f]? := by
  simp [recOf, lookup_append, lookup_zip ts.pks (keyVals pk) f h.1.symm, hf,
    lookup_zip ts.dfs row f h.2.1.symm, hd]

theorem recOf_isSome {ts : TSchema} {pk : PKey V} {row : List V} (h : RowOK ts pk row) {f : String}
    (hf : f ∈ ts.pks ++ ts.dfs) : (recOf ts pk row f).isSome := by
  by_cases hp : f ∈ ts.pks
  · rw [recOf_pk h hp]
    have : ts.pks.idxOf f < (keyVals pk).length := by rw [h.1]; exact List.idxOf_lt_length_iff.2 hp
    simp [List.getElem?_eq_getElem this]
  · have hd : f ∈ ts.dfs := by simpa [hp] using hf
    rw [recOf_df h hp hd]
    have : ts.dfs.idxOf f < row.length := by rw [h.2.1]; exact List.idxOf_lt_length_iff.2 hd
    simp [List.getElem?_eq_getElem this]

theorem getcell_eq_recOf {s : Schema} (hs : SchemaOK s) {t : String} {pk : PKey V} {row : List V}
    (h : RowOK (tableOf s t) pk row) {f : String} (hf : f ∈ s.pks t ++ s.dfs t) :
    getcell s t pk row f = recOf (tableOf s t) pk row f := by
  have hn := hs.fields_nodup t
  rw [List.nodup_append] at hn
  have hmem : f ∈ s.allFields t := hf
  unfold getcell
  simp only [hmem, if_true]
  by_cases h1 : [f] = s.pks t
  · have hl : (tableOf s t).pks.length = 1 := by simp [tableOf, ← h1]
    obtain ⟨v, rfl⟩ := h.2.2.1 hl
    have hfp : f ∈ (tableOf s t).pks := by simp [tableOf, ← h1]
    rw [recOf_pk h hfp]
    have hi : (tableOf s t).pks.idxOf f = 0 := by simp [tableOf, ← h1]
    rw [hi]
    simp [h1, keyVals]
  · simp only [h1, if_false]
    by_cases hd : f ∈ s.dfs t
    · have hp : f ∉ (tableOf s t).pks := fun hp => hn.2.2 f hp f hd rfl
      rw [recOf_df h hp hd]; simp [hd, tableOf]
    · have hp : f ∈ (tableOf s t).pks := by
        rcases List.mem_append.1 hf with h' | h'
        · exact h'
        · exact absurd h' hd
      have hl : 1 < (tableOf s t).pks.length := by
        have h0 : 0 < (tableOf s t).pks.length := List.length_pos_of_mem hp
        rcases Nat.lt_or_ge 1 (tableOf s t).pks.length with h' | h'
        · exact h'
        · exfalso
          have : (tableOf s t).pks.length = 1 := by omega
          obtain ⟨a, ha⟩ := List.length_eq_one_iff.1 this
          rw [ha] at hp
          simp at hp; subst hp
          exact h1 ha.symm
      obtain ⟨vs, rfl⟩ := h.2.2.2.1 hl
      rw [recOf_pk h hp]
      simp [hd, tableOf, keyVals]

theorem tupleSet_spec {s : Schema} (hs : SchemaOK s) {t : String} (fields : List String)
    (hf : ∀ f ∈ fields, f ∈ s.pks t ++ s.dfs t) (its : List (PKey V × List V))
    (hi : ∀ p ∈ its, RowOK (tableOf s t) p.1 p.2) :
    ∃ tups, tupleSet s t fields its = some tups ∧
      ∀ look, look ∈ tups ↔ ∃ p ∈ its, fields.map (recOf (tableOf s t) p.1 p.2) = look.map some := by
  induction its with
  | nil => exact ⟨[], rfl, by simp⟩
  | cons p its ih =>
    obtain ⟨pk, row⟩ := p
    obtain ⟨tups, h1, h2⟩ := ih (fun q hq => hi q (List.mem_cons_of_mem _ hq))
    have hrow := hi (pk, row) List.mem_cons_self
    have hc : fields.mapM (getcell s t pk row) = fields.mapM (recOf (tableOf s t) pk row) :=
      mapM_congr _ _ _ (fun f hf' => getcell_eq_recOf hs hrow (hf f hf'))
    obtain ⟨vs, hv⟩ := mapM_some_of_forall (recOf (tableOf s t) pk row) fields
      (fun f hf' => recOf_isSome hrow (hf f hf'))
    refine ⟨vs :: tups, ?_, ?_⟩
    · simp [tupleSet, hc, hv, h1]
    · intro look
      rw [mapM_eq_some_iff] at hv
      simp only [List.mem_cons, h2, exists_eq_or_imp, hv]
      constructor
      · rintro (rfl | h) <;> simp_all
      · rintro (h | h)
        · left; exact ((List.map_inj_right (fun x y => by simp)).1 h).symm
        · right; exact h

theorem map_recOf_pks {ts : TSchema} {pk : PKey V} {row : List V} (h : RowOK ts pk row)
    (hn : ts.pks.Nodup) : ts.pks.map (recOf ts pk row) = (keyVals pk).map some := by
  apply List.ext_getElem
  · simp [h.1]
  · intro i h1 h2
    simp only [List.length_map] at h1 h2
    simp only [List.getElem_map]
    rw [recOf_pk h (List.getElem_mem _), hn.idxOf_getElem]
    simp

/-- In a good data object the membership test finds exactly the foreign rows that agree on the looked-up
fields, unless there are no fields at all. -/
theorem lookInto_spec {s : Schema} (hs : SchemaOK s) {db : DB V} {t : String}
    (ht : TableOK (tableOf s t) (db t)) (ffs : List String) (hne : ffs ≠ [])
    (hf : ∀ f ∈ ffs, f ∈ s.pks t ++ s.dfs t) (look : List V) (hl : look.length = ffs.length) :
    ∃ b, lookInto s db t ffs look = some b ∧
      (b = true ↔ ∃ q ∈ Spec.rows (tableOf s t) (db t), ffs.map q.2 = look.map some) := by
  unfold lookInto
  by_cases hpk : ffs = s.pks t
  · simp only [hpk, if_true]
    have hn : (tableOf s t).pks.Nodup := (List.nodup_append.1 (hs.fields_nodup t)).1
    cases hdb : db t with
    | list rs =>
      rw [hdb] at ht
      exact absurd (hpk.trans ht.1) hne
    | dict rs =>
      rw [hdb] at ht
      have key : ∀ pk : PKey V, (∀ p ∈ rs, p.1 = pk ↔ keyVals p.1 = look) →
          (PyDict.has rs pk = true ↔
            ∃ q ∈ Spec.rows (tableOf s t) (.dict rs), (s.pks t).map q.2 = look.map some) := by
        intro pk hpk'
        rw [PyDict.has_iff]
        simp only [PyDict.keys, List.mem_map, Spec.rows, Prod.exists]
        constructor
        · rintro ⟨a, b, hm, rfl⟩
          refine ⟨a, _, ⟨a, b, hm, rfl⟩, ?_⟩
          have hrow : RowOK (tableOf s t) a b := rowOK_of_items ht hm
          have := map_recOf_pks hrow hn
          rw [show (s.pks t) = (tableOf s t).pks from rfl, this, (hpk' _ hm).1 rfl]
        · rintro ⟨a, r, ⟨a', b, hm, e⟩, hmap⟩
          simp only [Prod.mk.injEq] at e
          obtain ⟨rfl, rfl⟩ := e
          have hrow : RowOK (tableOf s t) a' b := rowOK_of_items ht hm
          have := map_recOf_pks hrow hn
          rw [show (s.pks t) = (tableOf s t).pks from rfl, this] at hmap
          refine ⟨a', b, hm, (hpk' _ hm).2 ?_⟩
          exact (List.map_inj_right (fun x y => by simp)).1 hmap
      have hlen : look.length = (tableOf s t).pks.length := by rw [hl, hpk]; rfl
      match look, hlen, key with
      | [v], hlen, key =>
        refine ⟨_, rfl, key (.one v) ?_⟩
        intro p hp
        have hrow : RowOK (tableOf s t) p.1 p.2 := rowOK_of_items ht hp
        obtain ⟨w, hw⟩ := hrow.2.2.1 (by simpa using hlen.symm)
        simp [hw, keyVals]
      | [], hlen, _ =>
        exact absurd (List.length_eq_zero_iff.1 hlen.symm) (by rw [show (tableOf s t).pks = s.pks t from rfl, ← hpk]; exact hne)
      | a :: b :: l, hlen, key =>
        refine ⟨_, rfl, key (.many (a :: b :: l)) ?_⟩
        intro p hp
        have hrow : RowOK (tableOf s t) p.1 p.2 := rowOK_of_items ht hp
        obtain ⟨w, hw⟩ := hrow.2.2.2.1 (by rw [← hlen]; simp)
        simp [hw, keyVals]
  · simp only [hpk, if_false]
    obtain ⟨tups, h1, h2⟩ := tupleSet_spec hs ffs hf (db t).items (fun p hp => rowOK_of_items ht hp)
    refine ⟨decide (look ∈ tups), by simp [h1], ?_⟩
    rw [decide_eq_true_iff, h2, rows_eq_items]
    constructor
    · rintro ⟨p, hp, e⟩
      exact ⟨(p.1, _), List.mem_map.2 ⟨p, hp, rfl⟩, e⟩
    · rintro ⟨q, hq, e⟩
      obtain ⟨p, hp, rfl⟩ := List.mem_map.1 hq
      exact ⟨p, hp, e⟩

end Ticdat

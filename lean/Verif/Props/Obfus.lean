import Verif.Props.ObfusNames
import Verif.Props.Implied
/-!
# C34: `obfusimplify` is an injective renaming
-/
set_option linter.unusedSimpArgs false
set_option linter.unusedSectionVars false
namespace Ticdat
open Spec
variable {V : Type} [DecidableEq V]

theorem pairwise2_mapM_mem {A B : Type} {g : A → Option B} {l : List A} {l' : List B} (h : l.mapM g = some l') :
    Pairwise2 (fun a b => a ∈ l ∧ g a = some b) l l' := by
  rw [mapM_eq_some_iff] at h
  have : ∀ (l0 : List A) (l : List A) (l' : List B), (∀ a ∈ l, a ∈ l0) → l.map g = l'.map some →
      Pairwise2 (fun a b => a ∈ l0 ∧ g a = some b) l l' := by
    intro l0 l
    induction l with
    | nil => intro l' _ h; cases l' with
      | nil => exact .nil
      | cons => simp at h
    | cons a l ih =>
      intro l' hm h
      cases l' with
      | nil => simp at h
      | cons b l' =>
        simp only [List.map_cons, List.cons.injEq] at h
        exact .cons ⟨hm a (by simp), h.1⟩ (ih l' (fun x hx => hm x (by simp [hx])) h.2)
  exact this l l l' (fun _ h => h) h

theorem pairwise2_maps {A B C D : Type} {R : C → D → Prop} {f : A → C} {g : B → D} {l : List A} {l' : List B}
    (h : Pairwise2 (fun a b => R (f a) (g b)) l l') : Pairwise2 R (l.map f) (l'.map g) := by
  induction h with
  | nil => exact .nil
  | cons h _ ih => exact .cons h ih

theorem pairwise2_mono {A B : Type} {R S : A → B → Prop} (hm : ∀ a b, R a b → S a b) {l : List A} {l' : List B} (h : Pairwise2 R l l') :
    Pairwise2 S l l' := by
  induction h with
  | nil => exact .nil
  | cons h _ ih => exact .cons (hm _ _ h) ih

theorem pairwise2_zipIdx {A B : Type} {R : A → B → Prop} {l : List A} {l' : List B} (h : Pairwise2 R l l') :
    ∀ n, Pairwise2 (fun p q : _ × Nat => R p.1 q.1 ∧ p.2 = q.2) (l.zipIdx n) (l'.zipIdx n) := by
  induction h with
  | nil => intro n; exact .nil
  | cons h _ ih => intro n; exact .cons ⟨h, rfl⟩ (ih (n + 1))

theorem pairwise2_right {A B : Type} {R : A → B → Prop} {l : List A} {l' : List B} (h : Pairwise2 R l l') {b : B} (hb : b ∈ l') :
    ∃ a ∈ l, R a b := by
  induction h with
  | nil => cases hb
  | cons h _ ih =>
    rcases List.mem_cons.1 hb with rfl | hb
    · exact ⟨_, by simp, h⟩
    · obtain ⟨a, ha, hr⟩ := ih hb
      exact ⟨a, by simp [ha], hr⟩

/-! ### Entities -/

theorem cardinality_one_to_one (s : Schema) (k : FK) : cardinality s k = "one-to-one" ↔
    (s.pks k.native ≠ [] ∧ ∀ f ∈ s.pks k.native, f ∈ k.mapping.map Prod.fst) ∧
    (s.pks k.foreign ≠ [] ∧ ∀ f ∈ s.pks k.foreign, f ∈ k.mapping.map Prod.snd) := by
  unfold cardinality halfCard
  by_cases h1 : s.pks k.native ≠ [] ∧ ∀ f ∈ s.pks k.native, f ∈ k.mapping.map Prod.fst <;>
  by_cases h2 : s.pks k.foreign ≠ [] ∧ ∀ f ∈ s.pks k.foreign, f ∈ k.mapping.map Prod.snd
  · rw [if_pos h1, if_pos h2]; exact ⟨fun _ => ⟨h1, h2⟩, fun _ => by decide⟩
  · rw [if_pos h1, if_neg h2]; exact ⟨fun h => absurd h (by decide), fun h => absurd h.2 h2⟩
  · rw [if_neg h1, if_pos h2]; exact ⟨fun h => absurd h (by decide), fun h => absurd h.1 h1⟩
  · rw [if_neg h1, if_neg h2]; exact ⟨fun h => absurd h (by decide), fun h => absurd h.2 h2⟩

theorem mem_entities (s : Schema) (fks : List FK) (skip : List String) (t : String) :
    t ∈ (entityTables s fks).filter (fun t => decide (t ∉ skip)) ↔ Entity s fks skip t := by
  rw [List.mem_filter, decide_eq_true_eq]
  unfold entityTables Entity
  rw [List.mem_filter, Bool.and_eq_true, decide_eq_true_eq, Bool.not_eq_true', List.any_eq_false]
  constructor
  · rintro ⟨⟨h1, h2, h3⟩, h4⟩
    obtain ⟨f, hf⟩ := List.length_eq_one_iff.1 h2
    refine ⟨h1, h4, f, hf, ?_⟩
    intro k hk hn hm hc
    have := h3 k hk
    simp only [Bool.and_eq_true, decide_eq_true_eq, not_and] at this
    apply this hn
    rw [cardinality_one_to_one, hn, hf]
    exact ⟨⟨by simp, by simpa using hm⟩, hc⟩
  · rintro ⟨h1, h4, f, hf, h⟩
    refine ⟨⟨h1, by rw [hf]; rfl, ?_⟩, h4⟩
    intro k hk
    simp only [Bool.and_eq_true, decide_eq_true_eq, not_and]
    intro hn hc
    rw [cardinality_one_to_one, hn, hf] at hc
    exact h k hk hn (hc.1.2 f (by simp)) hc.2

/-- What `foreign_keys` holds. -/
theorem fieldEntity_some {fks : List FK} {d : PyDict String String} {t f E : String}
    (h : PyDict.get? (fieldEntity fks d) (t, f) = some E) : E ∈ PyDict.keys d ∧ Refers fks t f E := by
  have := get?_ofList_mem h
  rw [List.mem_flatMap] at this
  obtain ⟨k, hk, hm⟩ := this
  obtain ⟨hk1, hk2⟩ := List.mem_filter.1 hk
  obtain ⟨p, hp, he⟩ := List.mem_map.1 hm
  simp only [Prod.mk.injEq] at he
  obtain ⟨⟨rfl, rfl⟩, rfl⟩ := he
  exact ⟨(PyDict.has_iff _ _).1 hk2, k, hk1, rfl, rfl, List.mem_map.2 ⟨p, hp, rfl⟩⟩

theorem fieldEntity_none {fks : List FK} {d : PyDict String String} {t f : String}
    (h : PyDict.get? (fieldEntity fks d) (t, f) = none) {E : String} (hE : E ∈ PyDict.keys d) : ¬ Refers fks t f E := by
  rintro ⟨k, hk, rfl, rfl, hm⟩
  rw [PyDict.get?_eq_none] at h
  apply h
  unfold fieldEntity
  rw [PyDict.keys_ofList_mem]
  obtain ⟨p, hp, rfl⟩ := List.mem_map.1 hm
  refine List.mem_map.2 ⟨((k.native, p.1), k.foreign), ?_, rfl⟩
  rw [List.mem_flatMap]
  exact ⟨k, List.mem_filter.2 ⟨hk, (PyDict.has_iff _ _).2 hE⟩, List.mem_map.2 ⟨p, hp, rfl⟩⟩

/-! ### Rows -/

/-- What becomes of a cell, key or data. -/
def cellMap (str : String → V) (rr : PyDict (String × V) String) (fe : PyDict (String × String) String) (s : Schema) (t f : String)
    (v : V) : Option V :=
  match PyDict.get? fe (t, f) with
  | some e => (PyDict.get? rr (e, v)).map str
  | none => if s.pks t = [f] then some (((PyDict.get? rr (t, v)).map str).getD v) else some v

section Rows
variable (str : String → V) (rr : PyDict (String × V) String) (fe : PyDict (String × String) String) (s : Schema) (t : String)

theorem fixRow_get {fields : List String} {vals vals' : List V} (hl : fields.length = vals.length)
    (h : fixRow str rr fe t fields vals = some vals') : vals'.length = vals.length ∧
      ∀ (i : Nat) (f : String), fields[i]? = some f → vals'[i]? = (vals[i]?).bind (fixCell str rr fe t f) := by
  unfold fixRow at h
  rw [mapM_eq_some_iff] at h
  have hlen := congrArg List.length h
  simp only [List.length_map, List.length_zip] at hlen
  refine ⟨by omega, ?_⟩
  intro i f hf
  have hi := congrArg (fun l : List (Option V) => l[i]?) h
  simp only [List.getElem?_map, List.getElem?_zip_eq_some] at hi
  have hif : i < fields.length := (List.getElem?_eq_some_iff.1 hf).1
  have hiv : i < vals.length := by omega
  have hiv' : i < vals'.length := by omega
  rw [List.getElem?_eq_getElem (by simp; omega), List.getElem_zip] at hi
  rw [List.getElem?_eq_getElem hif] at hf
  cases hf
  rw [List.getElem?_eq_getElem hiv, List.getElem?_eq_getElem hiv'] at *
  simp only [Option.map_some, Option.some.injEq] at hi
  exact hi.symm

theorem fixRow_some {fields : List String} {vals : List V} (h : ∀ p ∈ fields.zip vals, ∃ w, fixCell str rr fe t p.1 p.2 = some w) :
    ∃ vals', fixRow str rr fe t fields vals = some vals' :=
  mapM_some_of_forall _ _ (fun p hp => by obtain ⟨w, hw⟩ := h p hp; simp [hw])

variable {str rr fe s t}

/-- The record of a renamed row. -/
theorem fix_record (hs : SchemaOK s) {pk pk' : PKey V} {row row' : List V} (hr : RowOK (tableOf s t) pk row)
    (hk : fixKey str rr fe t (s.pks t) pk = some pk') (hd : fixRow str rr fe t (s.dfs t) row = some row') :
    RowOK (tableOf s t) pk' row' ∧
      ∀ f ∈ s.pks t ++ s.dfs t, recOf (tableOf s t) pk' row' f = (recOf (tableOf s t) pk row f).bind (cellMap str rr fe s t f) := by
  obtain ⟨hdl, hdg⟩ := fixRow_get str rr fe t hr.2.1.symm hd
  have hpl : (keyVals pk).length = (s.pks t).length := hr.1
  -- the key
  have key : RowOK (tableOf s t) pk' row' ∧ ∀ (i : Nat) (f : String), (s.pks t)[i]? = some f →
      (keyVals pk')[i]? = ((keyVals pk)[i]?).bind (cellMap str rr fe s t f) := by
    have h2 : row'.length = (s.dfs t).length := hdl.trans hr.2.1
    cases pk with
    | one v =>
      simp only [keyVals, List.length_singleton] at hpl
      obtain ⟨f, hf⟩ := List.length_eq_one_iff.1 hpl.symm
      have hw : ∃ w, pk' = .one w ∧ cellMap str rr fe s t f v = some w := by
        rw [hf] at hk
        simp only [fixKey] at hk
        unfold cellMap
        cases hg : PyDict.get? fe (t, f) with
        | none =>
          rw [hg] at hk
          cases hk
          exact ⟨_, rfl, by simp [hf]⟩
        | some e =>
          rw [hg] at hk
          simp only [Option.map_eq_some_iff] at hk
          obtain ⟨l, hl, rfl⟩ := hk
          exact ⟨_, rfl, by simp [hl]⟩
      obtain ⟨w, rfl, hw⟩ := hw
      have hlen : (tableOf s t).pks.length = 1 := by show (s.pks t).length = 1; rw [hf]; rfl
      refine ⟨⟨hlen.symm, h2, fun _ => ⟨w, rfl⟩, fun h => by omega, fun h => by omega⟩, ?_⟩
      intro i g hg
      rw [hf] at hg
      match i with
      | 0 => cases hg; exact hw.symm
      | i + 1 => cases hg
    | many vs =>
      simp only [fixKey, Option.map_eq_some_iff] at hk
      obtain ⟨vs', hv, rfl⟩ := hk
      simp only [keyVals] at hpl
      obtain ⟨hvl, hvg⟩ := fixRow_get str rr fe t hpl.symm hv
      have hlen : (s.pks t).length ≠ 1 := by
        intro h
        obtain ⟨v, hv⟩ := hr.2.2.1 h
        cases hv
      have hlen0 : (s.pks t).length ≠ 0 := by
        intro h
        obtain ⟨v, hv⟩ := hr.2.2.2.2 h
        cases hv
      refine ⟨⟨hvl.trans hpl, h2, fun h => absurd h hlen, fun _ => ⟨vs', rfl⟩, fun h => absurd h hlen0⟩, ?_⟩
      intro i f hf
      show vs'[i]? = _
      rw [hvg i f hf]
      have : cellMap str rr fe s t f = fixCell str rr fe t f := by
        funext v
        unfold cellMap fixCell
        rw [if_neg (c := s.pks t = [f]) (by intro h; rw [h] at hlen; exact hlen rfl)]
        cases PyDict.get? fe (t, f) <;> rfl
      rw [this]
      rfl
    | idx i =>
      cases hk
      simp only [keyVals, List.length_nil] at hpl
      refine ⟨⟨hr.1, h2, hr.2.2.1, hr.2.2.2.1, hr.2.2.2.2⟩, ?_⟩
      intro j f hf
      rw [List.length_eq_zero_iff.1 hpl.symm] at hf
      cases hf
  refine ⟨key.1, ?_⟩
  intro f hf
  by_cases hp : f ∈ s.pks t
  · rw [recOf_pk key.1 hp, recOf_pk hr hp]
    apply key.2
    show (s.pks t)[(s.pks t).idxOf f]? = some f
    rw [List.getElem?_eq_getElem (List.idxOf_lt_length_iff.2 hp)]
    simp
  · have hdm : f ∈ s.dfs t := by simpa [hp] using hf
    rw [recOf_df key.1 hp hdm, recOf_df hr hp hdm]
    have : cellMap str rr fe s t f = fixCell str rr fe t f := by
      funext v
      unfold cellMap fixCell
      rw [if_neg (c := s.pks t = [f]) (by intro h; exact hp (by rw [h]; simp))]
      cases PyDict.get? fe (t, f) <;> rfl
    rw [this]
    apply hdg
    show (s.dfs t)[(s.dfs t).idxOf f]? = some f
    rw [List.getElem?_eq_getElem (List.idxOf_lt_length_iff.2 hdm)]
    simp

theorem rr_inj {db : DB V} {ents : List String} (hrr : RROK db ents rr) (hstr : ∀ a b, str a = str b → a = b) {e : String} {v v' w : V}
    (h : (PyDict.get? rr (e, v)).map str = some w) (h' : (PyDict.get? rr (e, v')).map str = some w) : v = v' := by
  rw [Option.map_eq_some_iff] at h h'
  obtain ⟨l, h1, h2⟩ := h
  obtain ⟨l', h1', h2'⟩ := h'
  have := hstr l l' (h2.trans h2'.symm)
  subst this
  exact (hrr.inj _ _ _ _ _ h1 h1').2

theorem fixCell_inj {db : DB V} {ents : List String} (hrr : RROK db ents rr) (hstr : ∀ a b, str a = str b → a = b) {f : String} {v v' w : V}
    (h : fixCell str rr fe t f v = some w) (h' : fixCell str rr fe t f v' = some w) : v = v' := by
  unfold fixCell at h h'
  cases hg : PyDict.get? fe (t, f) with
  | none => rw [hg] at h h'; cases h; cases h'; rfl
  | some e => rw [hg] at h h'; exact rr_inj hrr hstr h h'

/-- Different keys of a table have different new keys. -/
theorem fixKey_inj {db : DB V} {ents : List String} (hrr : RROK db ents rr) (hstr : ∀ a b, str a = str b → a = b)
    {pk pk' k : PKey V} {row row' : List V} (hm : (pk, row) ∈ (db t).items) (hm' : (pk', row') ∈ (db t).items)
    (hl : (keyVals pk).length = (s.pks t).length) (hl' : (keyVals pk').length = (s.pks t).length)
    (h : fixKey str rr fe t (s.pks t) pk = some k) (h' : fixKey str rr fe t (s.pks t) pk' = some k) : pk = pk' := by
  cases pk with
  | one v =>
    have hw : ∃ w, k = .one w := by
      simp only [fixKey] at h
      split at h
      · split at h
        · obtain ⟨_, _, rfl⟩ := Option.map_eq_some_iff.1 h; exact ⟨_, rfl⟩
        · cases h; exact ⟨_, rfl⟩
      · cases h
    obtain ⟨w, rfl⟩ := hw
    cases pk' with
    | one v' =>
      congr 1
      obtain ⟨f, hf⟩ := List.length_eq_one_iff.1 (show (s.pks t).length = 1 from hl.symm)
      rw [hf] at h h'
      simp only [fixKey] at h h'
      cases hg : PyDict.get? fe (t, f) with
      | none =>
        rw [hg] at h h'
        simp only [Option.some.injEq, PKey.one.injEq] at h h'
        by_cases ht : t ∈ ents
        · have e1 := (hrr.mem t v).2 ⟨ht, row, hm⟩
          have e2 := (hrr.mem t v').2 ⟨ht, row', hm'⟩
          cases g1 : PyDict.get? rr (t, v) with
          | none => exact absurd e1 ((PyDict.get?_eq_none _ _).1 g1)
          | some l =>
            cases g2 : PyDict.get? rr (t, v') with
            | none => exact absurd e2 ((PyDict.get?_eq_none _ _).1 g2)
            | some l' =>
              rw [g1] at h
              rw [g2] at h'
              simp only [Option.map_some, Option.getD_some] at h h'
              have := hstr l l' (h.trans h'.symm)
              subst this
              exact (hrr.inj _ _ _ _ _ g1 g2).2
        · have e1 : PyDict.get? rr (t, v) = none := (PyDict.get?_eq_none _ _).2 (fun hh => ht ((hrr.mem t v).1 hh).1)
          have e2 : PyDict.get? rr (t, v') = none := (PyDict.get?_eq_none _ _).2 (fun hh => ht ((hrr.mem t v').1 hh).1)
          rw [e1] at h
          rw [e2] at h'
          exact h.trans h'.symm
      | some e =>
        rw [hg] at h h'
        obtain ⟨l, h1, h2⟩ := Option.map_eq_some_iff.1 h
        obtain ⟨l', h1', h2'⟩ := Option.map_eq_some_iff.1 h'
        have := hstr l l' (PKey.one.inj (h2.trans h2'.symm))
        subst this
        exact (hrr.inj _ _ _ _ _ h1 h1').2
    | many vs => simp [fixKey, Option.map_eq_some_iff] at h'
    | idx i => simp [fixKey] at h'
  | many vs =>
    simp only [fixKey, Option.map_eq_some_iff] at h
    obtain ⟨ws, hv, rfl⟩ := h
    cases pk' with
    | one v' =>
      simp only [fixKey] at h'
      split at h'
      · split at h'
        · obtain ⟨_, _, hh⟩ := Option.map_eq_some_iff.1 h'; cases hh
        · cases h'
      · cases h'
    | many vs' =>
      simp only [fixKey, Option.map_eq_some_iff, PKey.many.injEq] at h'
      obtain ⟨ws', hv', rfl⟩ := h'
      congr 1
      simp only [keyVals] at hl hl'
      have g := fixRow_get str rr fe t hl.symm hv
      have g' := fixRow_get str rr fe t hl'.symm hv'
      apply List.ext_getElem (by omega)
      intro i h1 h2
      have hi : i < (s.pks t).length := by omega
      have e := g.2 i _ (List.getElem?_eq_getElem hi)
      have e' := g'.2 i _ (List.getElem?_eq_getElem hi)
      have hw : i < ws'.length := by omega
      rw [List.getElem?_eq_getElem h1, List.getElem?_eq_getElem hw] at e
      rw [List.getElem?_eq_getElem h2, List.getElem?_eq_getElem hw] at e'
      exact fixCell_inj hrr hstr e.symm e'.symm
    | idx i => simp [fixKey] at h'
  | idx i =>
    cases h
    cases pk' with
    | one v' =>
      simp only [fixKey] at h'
      split at h'
      · split at h'
        · obtain ⟨_, _, hh⟩ := Option.map_eq_some_iff.1 h'; cases hh
        · cases h'
      · cases h'
    | many vs => simp [fixKey, Option.map_eq_some_iff] at h'
    | idx j => simp only [fixKey, Option.some.injEq, PKey.idx.injEq] at h'; rw [h']

/-- One table of the copy. -/
theorem fixTable_spec (hs : SchemaOK s) {db : DB V} {ents : List String} (hrr : RROK db ents rr) (hstr : ∀ a b, str a = str b → a = b)
    (hok : TableOK (tableOf s t) (db t)) {td : TableData V} (h : fixTable str rr fe s t (db t) = some td) :
    TableOK (tableOf s t) td ∧
      Pairwise2 (fun p q : PKey V × Rec V => (∃ row, (p.1, row) ∈ (db t).items ∧ RowOK (tableOf s t) p.1 row ∧ p.2 = recOf (tableOf s t) p.1 row) ∧
          ∀ f ∈ s.pks t ++ s.dfs t, (q.2 f).isSome ∧ q.2 f = (p.2 f).bind (cellMap str rr fe s t f))
        (rows (tableOf s t) (db t)) (rows (tableOf s t) td) := by
  have hrow : ∀ p ∈ (db t).items, RowOK (tableOf s t) p.1 p.2 := fun p hp => rowOK_of_items hok hp
  cases hd : db t with
  | dict rs =>
    rw [hd] at h
    simp only [fixTable, Option.map_eq_some_iff] at h
    obtain ⟨l, hl, rfl⟩ := h
    have hitems : (db t).items = rs := by rw [hd]; rfl
    have pw := pairwise2_mapM_mem hl
    have step : ∀ a b, a ∈ rs → ((fixKey str rr fe t (s.pks t) a.1).bind
        (fun k => (fixRow str rr fe t (s.dfs t) a.2).map (fun r => (k, r)))) = some b →
        fixKey str rr fe t (s.pks t) a.1 = some b.1 ∧ RowOK (tableOf s t) a.1 a.2 ∧ RowOK (tableOf s t) b.1 b.2 ∧
        ∀ f ∈ s.pks t ++ s.dfs t, recOf (tableOf s t) b.1 b.2 f = (recOf (tableOf s t) a.1 a.2 f).bind (cellMap str rr fe s t f) := by
      intro a b ha hab
      obtain ⟨k, hk, hkr⟩ := Option.bind_eq_some_iff.1 hab
      obtain ⟨r, hr, rfl⟩ := Option.map_eq_some_iff.1 hkr
      have hra := hrow a (by rw [hitems]; exact ha)
      have := fix_record hs hra hk hr
      exact ⟨hk, hra, this.1, this.2⟩
    have hkeys : (PyDict.keys l).Nodup := by
      rw [hd] at hok
      have hn := hok.2.1
      have key : ∀ (rs0 : List (PKey V × List V)) (l0 : List (PKey V × List V)), (rs0.map Prod.fst).Nodup →
          Pairwise2 (fun a b => a ∈ rs ∧ fixKey str rr fe t (s.pks t) a.1 = some b.1) rs0 l0 → (PyDict.keys l0).Nodup := by
        intro rs0 l0 hn hp
        induction hp with
        | nil => simp [PyDict.keys]
        | cons hab hp ih =>
          rename_i a b l1 l2
          simp only [List.map_cons, List.nodup_cons] at hn
          simp only [PyDict.keys, List.map_cons, List.nodup_cons]
          refine ⟨?_, ih hn.2⟩
          intro hm
          obtain ⟨b', hb', he⟩ := List.mem_map.1 hm
          obtain ⟨a', ha', hra'⟩ := pairwise2_right hp hb'
          have e := fixKey_inj (s := s) (t := t) (row := a.2) (row' := a'.2) hrr hstr (by rw [hitems]; exact hab.1) (by rw [hitems]; exact hra'.1)
            (hrow a (by rw [hitems]; exact hab.1)).1 (hrow a' (by rw [hitems]; exact hra'.1)).1 hab.2 (he ▸ hra'.2)
          exact hn.1 (List.mem_map.2 ⟨a', ha', e.symm⟩)
      exact key rs l hn (pairwise2_mono (fun a b hab => ⟨hab.1, (step a b hab.1 hab.2).1⟩) pw)
    rw [PyDict.ofList_of_nodup l hkeys]
    refine ⟨⟨by rw [hd] at hok; exact hok.1, hkeys, ?_⟩, ?_⟩
    · intro p hp
      obtain ⟨a, ha, hr⟩ := pairwise2_right pw hp
      obtain ⟨hk, hra, hrb, _⟩ := step a p hr.1 hr.2
      refine ⟨?_, hrb.2.1⟩
      rw [hd] at hok
      have hka := (hok.2.2 a ha).1
      have hlen := hrb.1
      obtain ⟨pk, row⟩ := p
      have hne : (tableOf s t).pks.length ≠ 0 := fun e => hok.1 (List.length_eq_zero_iff.1 e)
      by_cases h1 : (tableOf s t).pks.length = 1
      · obtain ⟨v, hv⟩ := hrb.2.2.1 h1
        simp only at hv
        subst hv
        exact h1
      · obtain ⟨vs, hv⟩ := hrb.2.2.2.1 (by omega)
        simp only at hv
        subst hv
        exact ⟨hlen, by omega⟩
    · simp only [Spec.rows]
      apply pairwise2_maps
      refine pairwise2_mono (fun a b hab => ?_) pw
      obtain ⟨_, hra, hrb, hrec⟩ := step a b hab.1 hab.2
      exact ⟨⟨a.2, hab.1, hra, rfl⟩, fun f hf => ⟨recOf_isSome hrb hf, hrec f hf⟩⟩
  | list rs =>
    rw [hd] at h hok
    simp only [fixTable, Option.map_eq_some_iff] at h
    obtain ⟨l, hl, rfl⟩ := h
    have hpk : (tableOf s t).pks = [] := hok.1
    have pw := pairwise2_zipIdx (pairwise2_mapM_mem hl) 0
    have hrow' : ∀ r ∈ rs, ∀ i, RowOK (tableOf s t) (.idx i) r := by
      intro r hr i
      exact ⟨by rw [hpk]; rfl, hok.2 r hr, by rw [hpk]; simp, by rw [hpk]; simp, fun _ => ⟨i, rfl⟩⟩
    have step : ∀ (a : List V) (b : List V) (i : Nat), a ∈ rs → fixRow str rr fe t (s.dfs t) a = some b →
        RowOK (tableOf s t) (.idx i) b ∧
        ∀ f ∈ s.pks t ++ s.dfs t, recOf (tableOf s t) (.idx i) b f = (recOf (tableOf s t) (.idx i) a f).bind (cellMap str rr fe s t f) :=
      fun a b i ha hab => fix_record hs (hrow' a ha i) rfl hab
    refine ⟨⟨hpk, ?_⟩, ?_⟩
    · intro r hr
      obtain ⟨a, ha, hra⟩ := pairwise2_right (pairwise2_mapM_mem hl) hr
      exact (step a r 0 ha hra.2).1.2.1
    · simp only [Spec.rows]
      apply pairwise2_maps
      have hz : ∀ p ∈ rs.zipIdx, (PKey.idx p.2, p.1) ∈ (TableData.list rs).items := fun p hp => List.mem_map.2 ⟨p, hp, rfl⟩
      have pw2 : Pairwise2 (fun p q : List V × Nat => p ∈ rs.zipIdx ∧ (p.1 ∈ rs ∧ fixRow str rr fe t (s.dfs t) p.1 = some q.1) ∧ p.2 = q.2)
          rs.zipIdx l.zipIdx := by
        have aux : ∀ (l0 l1 : List (List V × Nat)) (l2 : List (List V × Nat)), (∀ x ∈ l1, x ∈ l0) →
            Pairwise2 (fun p q : List V × Nat => (p.1 ∈ rs ∧ fixRow str rr fe t (s.dfs t) p.1 = some q.1) ∧ p.2 = q.2) l1 l2 →
            Pairwise2 (fun p q : List V × Nat => p ∈ l0 ∧ (p.1 ∈ rs ∧ fixRow str rr fe t (s.dfs t) p.1 = some q.1) ∧ p.2 = q.2) l1 l2 := by
          intro l0 l1 l2 hm hp
          induction hp with
          | nil => exact .nil
          | cons hab _ ih => exact .cons ⟨hm _ (by simp), hab⟩ (ih (fun x hx => hm x (by simp [hx])))
        exact aux _ _ _ (fun _ h => h) pw
      refine pairwise2_mono (fun a b hab => ?_) pw2
      obtain ⟨h0, ⟨h1, h2⟩, h3⟩ := hab
      have := step a.1 b.1 a.2 h1 h2
      refine ⟨⟨a.1, hz a h0, hrow' a.1 h1 a.2, rfl⟩, fun f hf => ?_⟩
      rw [← h3]
      exact ⟨recOf_isSome this.1 hf, this.2 f hf⟩

end Rows

/-! ### The whole function -/

/-- The parts of a successful call. -/
structure Run (iter : List String → List String) (upper : String → List Char) (sort : List V → Option (List V))
    (str : String → V) (s : Schema) (fks0 fks : List FK) (db : DB V) (tp : PyDict String String) (skip : List String)
    (tabs : PyDict String (TableData V)) (prepends : PyDict String String) (rr : PyDict (String × V) String) : Prop where
  clean : findFK s fks0 db none = some []
  disjoint : ∀ t ∈ PyDict.keys tp, t ∉ skip
  skips : ∀ t ∈ skip, t ∈ entityTables s fks
  given : ∀ p ∈ tp, p.1 ∈ (entityTables s fks).filter (fun t => decide (t ∉ skip)) ∧ goodPrepend p.2 = true
  vals : (tp.map Prod.snd).Nodup
  prep : addPrepends upper (iter (((entityTables s fks).filter (fun t => decide (t ∉ skip))).filter
    (fun t => decide (t ∉ PyDict.keys tp)))) tp = some prepends
  labels : reverseRenamings sort db prepends = some rr
  tables : (PyDict.keys s).mapM (fun t => (fixTable str rr (fieldEntity fks prepends) s t (db t)).map (fun d => (t, d))) = some tabs
  fine : findFK s fks (fun t => (PyDict.get? tabs t).getD (.list [])) none = some []

section Main
variable {iter : List String → List String} {upper : String → List Char} {sort : List V → Option (List V)}
    {str : String → V} {s : Schema} {fks0 fks : List FK} {db : DB V} {tp : PyDict String String} {skip : List String}

theorem obfusimplify_eq_some {out : PyDict String (TableData V) × PyDict String (String × V)} :
    obfusimplify iter upper sort str s fks0 fks db tp skip = some out ↔
      ∃ prepends rr, Run iter upper sort str s fks0 fks db tp skip out.1 prepends rr ∧
        out.2 = PyDict.ofList (rr.map (fun p => (p.2, p.1))) := by
  unfold obfusimplify
  constructor
  · intro h
    obtain ⟨fails, hf, h⟩ := Option.bind_eq_some_iff.1 h
    split at h
    · rename_i hc
      simp only [] at h
      split at h
      · rename_i hc2
        obtain ⟨prepends, hp, h⟩ := Option.bind_eq_some_iff.1 h
        obtain ⟨rr, hr, h⟩ := Option.bind_eq_some_iff.1 h
        obtain ⟨tabs, ht, h⟩ := Option.bind_eq_some_iff.1 h
        obtain ⟨ff, hff, h⟩ := Option.bind_eq_some_iff.1 h
        split at h
        · rename_i hc3
          cases h
          exact ⟨prepends, rr, ⟨by rw [hf, hc.1], hc.2.1, hc.2.2, hc2.1, hc2.2, hp, hr, ht, by rw [hff, hc3]⟩, rfl⟩
        · cases h
      · cases h
    · cases h
  · rintro ⟨prepends, rr, hr, ho⟩
    rw [hr.clean]
    simp only [Option.bind_eq_bind, Option.bind_some]
    rw [if_pos (c := True ∧ _ ∧ _) ⟨trivial, hr.disjoint, hr.skips⟩, if_pos (c := _ ∧ _) ⟨hr.given, hr.vals⟩, hr.prep]
    simp only [Option.bind_some]
    rw [hr.labels]
    simp only [Option.bind_some]
    rw [hr.tables]
    simp only [Option.bind_some]
    rw [hr.fine]
    simp only [Option.bind_some, if_true]
    rw [← ho]
    rfl

/-- The tables of a mapM over the schema. -/
theorem get?_tables {s : Schema} (hn : (PyDict.keys s).Nodup) {g : String → Option (TableData V)} {tabs : PyDict String (TableData V)}
    (h : (PyDict.keys s).mapM (fun t => (g t).map (fun d => (t, d))) = some tabs) :
    PyDict.keys tabs = PyDict.keys s ∧ ∀ t ∈ PyDict.keys s, ∃ d, g t = some d ∧ PyDict.get? tabs t = some d := by
  have pw := pairwise2_mapM_mem h
  have hk : PyDict.keys tabs = PyDict.keys s := by
    have : ∀ (l : List String) (l' : List (String × TableData V)),
        Pairwise2 (fun a b => a ∈ PyDict.keys s ∧ (g a).map (fun d => (a, d)) = some b) l l' → l'.map Prod.fst = l := by
      intro l l' hp
      induction hp with
      | nil => rfl
      | cons hab _ ih =>
        obtain ⟨d, _, rfl⟩ := Option.map_eq_some_iff.1 hab.2
        simp [ih]
    exact this _ _ pw
  refine ⟨hk, fun t ht => ?_⟩
  have ht' : t ∈ PyDict.keys tabs := hk ▸ ht
  obtain ⟨⟨t', d⟩, hm, rfl⟩ := List.mem_map.1 ht'
  obtain ⟨a, _, _, hr⟩ := pairwise2_right pw hm
  obtain ⟨d', hg, he⟩ := Option.map_eq_some_iff.1 hr
  cases he
  exact ⟨_, hg, PyDict.get?_of_mem (hk ▸ hn) hm⟩

/-- The entity that a field shows. -/
def shown (s : Schema) (prepends : PyDict String String) (fe : PyDict (String × String) String) (t f : String) : Option String :=
  match PyDict.get? fe (t, f) with
  | some e => some e
  | none => if t ∈ PyDict.keys prepends ∧ s.pks t = [f] then some t else none

theorem entityTables_nodup (hs : SchemaOK s) : (entityTables s fks).Nodup := hs.tables_nodup.sublist List.filter_sublist

/-- The prefixes: one for each entity table, all different. -/
theorem prepends_ok (hs : SchemaOK s) (htp : (PyDict.keys tp).Nodup) (hiter : ∀ l : List String, (iter l).Perm l)
    (hgiven : ∀ p ∈ tp, p.1 ∈ (entityTables s fks).filter (fun t => decide (t ∉ skip)) ∧ goodPrepend p.2 = true)
    (hvals : (tp.map Prod.snd).Nodup) {prepends : PyDict String String}
    (h : addPrepends upper (iter (((entityTables s fks).filter (fun t => decide (t ∉ skip))).filter
      (fun t => decide (t ∉ PyDict.keys tp)))) tp = some prepends) :
    PrependsOK prepends ∧ ∀ E, E ∈ PyDict.keys prepends ↔ Entity s fks skip E := by
  have h0 : PrependsOK tp := by
    refine ⟨htp, hvals, ?_⟩
    intro p hp c hc
    have := (hgiven p hp).2
    unfold goodPrepend at this
    rw [Bool.and_eq_true, List.all_eq_true] at this
    simpa using this.1 c hc
  have hmem : ∀ t, t ∈ iter (((entityTables s fks).filter (fun t => decide (t ∉ skip))).filter (fun t => decide (t ∉ PyDict.keys tp))) ↔
      Entity s fks skip t ∧ t ∉ PyDict.keys tp := by
    intro t
    rw [(hiter _).mem_iff, List.mem_filter, mem_entities, decide_eq_true_eq]
  obtain ⟨h1, h2⟩ := addPrepends_spec upper _ tp prepends h0
    ((hiter _).nodup_iff.2 (((entityTables_nodup hs).sublist List.filter_sublist).sublist List.filter_sublist))
    (fun t ht => ((hmem t).1 ht).2) h
  refine ⟨h1, fun E => ?_⟩
  rw [h2, hmem]
  constructor
  · rintro (h | h)
    · obtain ⟨p, hp, rfl⟩ := List.mem_map.1 h
      exact (mem_entities _ _ _ _).1 (hgiven p hp).1
    · exact h.1
  · intro h
    by_cases hE : E ∈ PyDict.keys tp
    · exact .inl hE
    · exact .inr ⟨h, hE⟩

/-- One row of the copy. -/
theorem shown_as {prepends : PyDict String String} {rr : PyDict (String × V) String} (hrr : RROK db (PyDict.keys prepends) rr)
    {t : String} {p : PKey V × Rec V} {q : Rec V}
    (hp : ∃ row, (p.1, row) ∈ (db t).items ∧ RowOK (tableOf s t) p.1 row ∧ p.2 = recOf (tableOf s t) p.1 row)
    {f : String} (hf : f ∈ s.pks t ++ s.dfs t) (hq : (q f).isSome ∧ q f = (p.2 f).bind (cellMap str rr (fieldEntity fks prepends) s t f)) :
    ShownAs str db (fun E v => (PyDict.get? rr (E, v)).getD "") (shown s prepends (fieldEntity fks prepends) t f) (p.2 f) (q f) := by
  obtain ⟨row, hm, hr, hpe⟩ := hp
  obtain ⟨v, hv⟩ := Option.isSome_iff_exists.1 (recOf_isSome hr hf)
  have hpv : p.2 f = some v := by rw [hpe]; exact hv
  obtain ⟨hs1, hs2⟩ := hq
  rw [hpv, Option.bind_some] at hs2
  unfold shown
  unfold cellMap at hs2
  cases hg : PyDict.get? (fieldEntity fks prepends) (t, f) with
  | some e =>
    rw [hg] at hs2
    simp only at hs2 ⊢
    rw [hs2, Option.isSome_map, Option.isSome_iff_exists] at hs1
    obtain ⟨l, hl⟩ := hs1
    have hk : (e, v) ∈ PyDict.keys rr := by
      refine Classical.byContradiction fun hn => ?_
      rw [(PyDict.get?_eq_none _ _).2 hn] at hl
      cases hl
    refine ⟨v, hpv, ((hrr.mem e v).1 hk).2, ?_⟩
    simp [hs2, hl]
  | none =>
    rw [hg] at hs2
    simp only at hs2 ⊢
    by_cases hpk : s.pks t = [f]
    · rw [if_pos hpk] at hs2
      have hkey : p.1 = .one v := by
        have hlen : (tableOf s t).pks.length = 1 := by show (s.pks t).length = 1; rw [hpk]; rfl
        obtain ⟨w, hw⟩ := hr.2.2.1 hlen
        rw [recOf_pk hr (by show f ∈ s.pks t; rw [hpk]; simp), hw] at hv
        have : (tableOf s t).pks = [f] := hpk
        rw [this] at hv
        simp [keyVals] at hv
        rw [hw, hv]
      by_cases ht : t ∈ PyDict.keys prepends
      · rw [if_pos ⟨ht, hpk⟩]
        have hko : KeyOf db t v := ⟨row, hkey ▸ hm⟩
        refine ⟨v, hpv, hko, ?_⟩
        have hk := (hrr.mem t v).2 ⟨ht, hko⟩
        rw [hs2]
        cases hl : PyDict.get? rr (t, v) with
        | none => exact absurd hk ((PyDict.get?_eq_none _ _).1 hl)
        | some l => simp [hl]
      · rw [if_neg (fun h => ht h.1)]
        show q f = p.2 f
        rw [hs2, hpv, (PyDict.get?_eq_none _ _).2 (fun hh => ht ((hrr.mem t v).1 hh).1)]
        rfl
    · rw [if_neg hpk] at hs2
      rw [if_neg (fun h => hpk h.2)]
      show q f = p.2 f
      rw [hs2, hpv]

theorem core_shows {prepends : PyDict String String} (hents : ∀ E, E ∈ PyDict.keys prepends ↔ Entity s fks skip E) {t f E : String}
    (hE : shown s prepends (fieldEntity fks prepends) t f = some E) : Entity s fks skip E ∧ (Refers fks t f E ∨ E = t ∧ s.pks t = [f]) := by
  unfold shown at hE
  split at hE
  · rename_i e he
    cases hE
    obtain ⟨h1, h2⟩ := fieldEntity_some he
    exact ⟨(hents E).1 h1, .inl h2⟩
  · split at hE
    · rename_i hc
      cases hE
      exact ⟨(hents _).1 hc.1, .inr ⟨rfl, hc.2⟩⟩
    · cases hE

theorem core_hides {prepends : PyDict String String} (hents : ∀ E, E ∈ PyDict.keys prepends ↔ Entity s fks skip E) {t f : String}
    (hnone : shown s prepends (fieldEntity fks prepends) t f = none) (E : String) (hE : Entity s fks skip E) :
    ¬ Refers fks t f E ∧ ¬ (E = t ∧ s.pks t = [f]) := by
  unfold shown at hnone
  split at hnone
  · cases hnone
  · rename_i he
    split at hnone
    · cases hnone
    · rename_i hc
      refine ⟨fieldEntity_none he ((hents E).2 hE), ?_⟩
      rintro ⟨rfl, hp⟩
      exact hc ⟨(hents E).2 hE, hp⟩

theorem core_rows (hs : SchemaOK s) (hdb : DBOK s db) (hstr : ∀ a b, str a = str b → a = b) {prepends : PyDict String String}
    {rr : PyDict (String × V) String} (hrr : RROK db (PyDict.keys prepends) rr) {tabs : PyDict String (TableData V)}
    (ht : (PyDict.keys s).mapM (fun t => (fixTable str rr (fieldEntity fks prepends) s t (db t)).map (fun d => (t, d))) = some tabs) :
    DBOK s (fun t => (PyDict.get? tabs t).getD (.list [])) ∧ ∀ t ∈ PyDict.keys s,
      Pairwise2 (fun p q : PKey V × Rec V => ∀ f ∈ s.pks t ++ s.dfs t,
          ShownAs str db (fun E v => (PyDict.get? rr (E, v)).getD "") (shown s prepends (fieldEntity fks prepends) t f) (p.2 f) (q.2 f))
        (rows (tableOf s t) (db t)) (rows (tableOf s t) ((PyDict.get? tabs t).getD (.list []))) := by
  obtain ⟨hkeys, htabs⟩ := get?_tables hs.tables_nodup ht
  have hspec := fun t ht (d : TableData V) (hd : fixTable str rr (fieldEntity fks prepends) s t (db t) = some d) =>
    fixTable_spec (t := t) hs hrr hstr (tableOK_of_mem hs hdb ht) hd
  constructor
  · intro t ts hm
    have ht : t ∈ PyDict.keys s := List.mem_map.2 ⟨_, hm, rfl⟩
    obtain ⟨d, hd, hg⟩ := htabs t ht
    have := (hspec t ht d hd).1
    simp only [hg, Option.getD_some]
    have e : tableOf s t = ts := by
      simp [tableOf, Schema.pks, Schema.dfs, PyDict.get?_of_mem hs.tables_nodup hm]
    rwa [e] at this
  · intro t ht
    obtain ⟨d, hd, hg⟩ := htabs t ht
    simp only [hg, Option.getD_some]
    exact pairwise2_mono (fun p q hpq f hf => shown_as hrr hpq.1 hf (hpq.2 f hf)) (hspec t ht d hd).2

/-- C34: whenever `obfusimplify` returns, the copy it returns is the data with every entity renamed consistently. -/
theorem obfusimplify_renames (hs : SchemaOK s) (hdb : DBOK s db) (hk : ∀ k ∈ fks, FKOK s k ∧ ForeignDistinct k) (hn : fks.Nodup)
    (htp : (PyDict.keys tp).Nodup) (hiter : ∀ l : List String, (iter l).Perm l) (hsort : ∀ l l', sort l = some l' → l'.Perm l)
    (hstr : ∀ a b, str a = str b → a = b) {tabs : PyDict String (TableData V)} {ren : PyDict String (String × V)}
    (h : obfusimplify iter upper sort str s fks0 fks db tp skip = some (tabs, ren)) :
    PyDict.keys tabs = PyDict.keys s ∧
      ∃ name ent, Obfuscates s fks skip str db (fun t => (PyDict.get? tabs t).getD (.list [])) ren name ent := by
  obtain ⟨prepends, rr, hr, hren⟩ := obfusimplify_eq_some.1 h
  simp only at hr hren
  obtain ⟨hpo, hents⟩ := prepends_ok hs htp hiter hr.given hr.vals hr.prep
  have hrr := reverseRenamings_spec hsort hpo
    (fun t ht => tableOK_of_mem hs hdb ((hents t).1 ht).1) hr.labels
  obtain ⟨hkeys, htabs⟩ := get?_tables hs.tables_nodup hr.tables
  obtain ⟨hgood, hrows⟩ := core_rows hs hdb hstr hrr hr.tables
  refine ⟨hkeys, fun E v => (PyDict.get? rr (E, v)).getD "", shown s prepends (fieldEntity fks prepends), ?_⟩
  have hname : ∀ E v, Entity s fks skip E → KeyOf db E v → ∃ l, PyDict.get? rr (E, v) = some l := by
    intro E v hE hv
    have := (hrr.mem E v).2 ⟨(hents E).2 hE, hv⟩
    cases hl : PyDict.get? rr (E, v) with
    | none => exact absurd this ((PyDict.get?_eq_none _ _).1 hl)
    | some l => exact ⟨l, rfl⟩
  refine ⟨fun _ _ _ => core_shows hents, fun _ _ => core_hides hents, ?_, ?_, hrows, hgood, ?_⟩
  · intro E v E' v' hE hv hE' hv' he
    obtain ⟨l, hl⟩ := hname E v hE hv
    obtain ⟨l', hl'⟩ := hname E' v' hE' hv'
    simp only [hl, hl', Option.getD_some] at he
    subst he
    exact hrr.inj _ _ _ _ _ hl hl'
  · intro l E v
    rw [hren, get?_ofList_functional]
    · rw [List.mem_map]
      constructor
      · rintro ⟨p, hp, he⟩
        obtain ⟨⟨E0, v0⟩, l0⟩ := p
        simp only [Prod.mk.injEq] at he
        obtain ⟨rfl, rfl, rfl⟩ := he
        have hm := (hrr.mem E0 v0).1 (List.mem_map.2 ⟨_, hp, rfl⟩)
        refine ⟨(hents _).1 hm.1, hm.2, ?_⟩
        rw [PyDict.get?_of_mem hrr.nodup hp]
        rfl
      · rintro ⟨hE, hv, rfl⟩
        obtain ⟨l, hl⟩ := hname E v hE hv
        refine ⟨((E, v), l), PyDict.get?_mem hl, ?_⟩
        rw [hl]
        rfl
    · intro a ha b hb hab
      obtain ⟨⟨⟨E1, v1⟩, l1⟩, h1, rfl⟩ := List.mem_map.1 ha
      obtain ⟨⟨⟨E2, v2⟩, l2⟩, h2, rfl⟩ := List.mem_map.1 hb
      simp only at hab
      subst hab
      obtain ⟨rfl, rfl⟩ := hrr.inj _ _ _ _ _ (PyDict.get?_of_mem hrr.nodup h1) (PyDict.get?_of_mem hrr.nodup h2)
      rfl
  · intro k hkk p hp
    rw [← failsEff_iff (hk k hkk).2]
    rw [rows_eq_items] at hp
    obtain ⟨x, hx, rfl⟩ := List.mem_map.1 hp
    exact (findFK_clean_iff hs hgood (fun k hk' => (hk k hk').1) hn).1 hr.fine k hkk x hx

/-- Two cells that show entities have equal names in the copy just when they show the same row of the same entity. -/
theorem Spec.Obfuscates.names_iff {db' : DB V} {ren : PyDict String (String × V)} {name : String → V → String}
    {ent : String → String → Option String} (ho : Obfuscates s fks skip str db db' ren name ent)
    (hstr : ∀ a b, str a = str b → a = b) {t t' f f' E E' : String} (he : ent t f = some E) (he' : ent t' f' = some E')
    {x y x' y' : Option V} (h : ShownAs str db name (ent t f) x y) (h' : ShownAs str db name (ent t' f') x' y') :
    y = y' ↔ E = E' ∧ x = x' := by
  rw [he] at h
  rw [he'] at h'
  obtain ⟨v, rfl, hk, rfl⟩ := h
  obtain ⟨v', rfl, hk', rfl⟩ := h'
  constructor
  · intro hy
    have := hstr _ _ (Option.some.inj hy)
    obtain ⟨h1, h2⟩ := ho.distinct _ _ _ _ (ho.shows _ _ _ he).1 hk (ho.shows _ _ _ he').1 hk' this
    exact ⟨h1, by rw [h2]⟩
  · rintro ⟨rfl, hx⟩
    cases hx
    rfl

end Main

end Ticdat

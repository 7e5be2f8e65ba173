import Verif.Lemmas.FindFK
/-! Helper lemmas for `find_foreign_key_failures`: the scan and the returned dictionary. -/
set_option linter.unusedSectionVars false
set_option linter.unusedSimpArgs false
namespace Ticdat
open Spec
variable {V : Type} [DecidableEq V]

/-- Row `r` finds no foreign row agreeing on the last-wins mapping `foreignToNative`. -/
def FailsEff (s : Schema) (db : DB V) (k : FK) (r : Rec V) : Prop :=
  ∀ q ∈ Spec.rows (tableOf s k.foreign) (db k.foreign), ¬ ∀ p ∈ k.foreignToNative, r p.2 = q.2 p.1

theorem tableOK_of_mem {s : Schema} {db : DB V} (hs : SchemaOK s) (h : DBOK s db) {t : String}
    (ht : t ∈ PyDict.keys s) : TableOK (tableOf s t) (db t) := by
  obtain ⟨⟨t', ts⟩, hm, rfl⟩ := List.mem_map.1 ht
  have hg : PyDict.get? s t' = some ts := PyDict.get?_of_mem hs.tables_nodup hm
  have : tableOf s t' = ts := by simp [tableOf, Schema.pks, Schema.dfs, hg]
  simpa [this] using h t' ts hm

theorem foreignToNative_mem {k : FK} {p : String × String} (h : p ∈ k.foreignToNative) :
    (p.2, p.1) ∈ k.mapping := by
  have hg := PyDict.get?_of_mem (PyDict.ofList_keys_nodup _) h
  have hh := PyDict.get?_foldl_set (k.mapping.map (fun p => (p.2, p.1))) [] p.1
  rw [PyDict.ofList] at hg
  rw [hg] at hh
  cases h3 : (k.mapping.map (fun p => (p.2, p.1))).reverse.find? (fun q => decide (q.1 = p.1)) with
  | none => rw [h3] at hh; simp at hh
  | some q =>
    rw [h3] at hh
    have hm := List.mem_of_find?_eq_some h3
    have hp := List.find?_some h3
    simp only [Option.some.injEq] at hh
    rw [List.mem_reverse, List.mem_map] at hm
    obtain ⟨a, ha, rfl⟩ := hm
    simp at hp
    rw [hh, ← hp]; exact ha

theorem foreignToNative_keys (k : FK) (ff : String) :
    ff ∈ PyDict.keys k.foreignToNative ↔ ff ∈ k.mapping.map Prod.snd := by
  unfold FK.foreignToNative
  rw [PyDict.keys_ofList_mem]
  simp

theorem foreignToNative_of_distinct {k : FK} (h : ForeignDistinct k) :
    k.foreignToNative = k.mapping.map (fun p => (p.2, p.1)) := by
  apply PyDict.ofList_of_nodup
  unfold ForeignDistinct at h
  simpa [PyDict.keys, List.map_map, Function.comp_def] using h

theorem failsEff_iff {s : Schema} {db : DB V} {k : FK} (h : ForeignDistinct k) (r : Rec V) :
    FailsEff s db k r ↔ Fails s db k r := by
  unfold FailsEff Fails Agrees
  rw [foreignToNative_of_distinct h]
  simp only [List.mem_map]
  constructor
  · intro hf q hq ha
    exact hf q hq (by rintro p ⟨p', hp', rfl⟩; exact ha p' hp')
  · intro hf q hq ha
    exact hf q hq (fun p hp => ha _ ⟨p, hp, rfl⟩)

theorem rowFails_spec {s : Schema} (hs : SchemaOK s) {db : DB V} (hdb : DBOK s db) {k : FK}
    (hk : FKOK s k) {pk : PKey V} {row : List V} (hrow : RowOK (tableOf s k.native) pk row) :
    ∃ b, rowFails s db k pk row = some b ∧
      (b = true ↔ FailsEff s db k (recOf (tableOf s k.native) pk row)) := by
  let r := recOf (tableOf s k.native) pk row
  let ffs := foreignFields s k
  have hffmem : ∀ ff, ff ∈ ffs ↔ ff ∈ PyDict.keys k.foreignToNative := by
    intro ff
    simp only [ffs, foreignFields, List.mem_filter, PyDict.has_iff]
    constructor
    · exact fun h => h.2
    · intro h
      refine ⟨?_, h⟩
      rw [foreignToNative_keys, List.mem_map] at h
      obtain ⟨p, hp, rfl⟩ := h
      exact hk.foreign_fields p hp
  have hffne : ffs ≠ [] := by
    obtain ⟨p, l, hpl⟩ := List.exists_cons_of_ne_nil hk.nonempty
    have : p.2 ∈ ffs := by
      rw [hffmem, foreignToNative_keys]
      simp [hpl]
    exact List.ne_nil_of_mem this
  have hget : ∀ ff ∈ ffs, ∃ nf, k.foreignToNative.get? ff = some nf ∧ (nf, ff) ∈ k.mapping := by
    intro ff hff
    rw [hffmem] at hff
    cases hg : k.foreignToNative.get? ff with
    | none => exact absurd hff ((PyDict.get?_eq_none _ _).1 hg)
    | some nf => exact ⟨nf, rfl, foreignToNative_mem (PyDict.get?_mem hg)⟩
  have hcongr : ffs.mapM (fun ff => (k.foreignToNative.get? ff).bind (getcell s k.native pk row)) =
      ffs.mapM (fun ff => (k.foreignToNative.get? ff).bind r) := by
    apply mapM_congr
    intro ff hff
    obtain ⟨nf, hg, hm⟩ := hget ff hff
    simp only [hg, Option.bind_some]
    exact getcell_eq_recOf hs hrow (hk.native_fields _ hm)
  obtain ⟨look, hlook⟩ := mapM_some_of_forall (fun ff => (k.foreignToNative.get? ff).bind r) ffs (by
    intro ff hff
    obtain ⟨nf, hg, hm⟩ := hget ff hff
    simp only [hg, Option.bind_some]
    exact recOf_isSome hrow (hk.native_fields _ hm))
  have hlook' := (mapM_eq_some_iff _ _ _).1 hlook
  have hlen : look.length = ffs.length := by
    have := congrArg List.length hlook'
    simpa using this.symm
  obtain ⟨b, hb1, hb2⟩ := lookInto_spec hs (tableOK_of_mem hs hdb hk.foreign_mem) ffs hffne
    (fun f hf => by
      have := List.mem_filter.1 hf
      exact this.1) look hlen
  refine ⟨!b, ?_, ?_⟩
  · unfold rowFails
    have : (ffs.mapM fun ff => do
        let nf ← k.foreignToNative.get? ff
        getcell s k.native pk row nf) = some look := hcongr.trans hlook
    show (ffs.mapM (fun ff => do
        let nf ← k.foreignToNative.get? ff
        getcell s k.native pk row nf)).bind (fun look =>
          (lookInto s db k.foreign ffs look).bind (fun found => some (!found))) = _
    rw [this]
    simp [hb1]
  · have hiff : ∀ q : PKey V × Rec V, ffs.map q.2 = look.map some ↔
        ∀ p ∈ k.foreignToNative, r p.2 = q.2 p.1 := by
      intro q
      rw [← hlook']
      rw [List.map_inj_left]
      constructor
      · intro h p hp
        have hpk : p.1 ∈ ffs := (hffmem _).2 (List.mem_map.2 ⟨p, hp, rfl⟩)
        have := h p.1 hpk
        have hg : k.foreignToNative.get? p.1 = some p.2 :=
          PyDict.get?_of_mem (PyDict.ofList_keys_nodup _) hp
        rw [hg] at this
        simpa using this.symm
      · intro h ff hff
        obtain ⟨nf, hg, _⟩ := hget ff hff
        have := h (ff, nf) (PyDict.get?_mem hg)
        simp only [hg, Option.bind_some]
        exact this.symm
    simp only [Bool.not_eq_true', FailsEff]
    rw [← Bool.not_eq_true, hb2]
    constructor
    · intro h q hq ha
      exact h ⟨q, hq, (hiff q).2 ha⟩
    · rintro h ⟨q, hq, e⟩
      exact h q hq ((hiff q).1 e)

theorem nativeValues_spec {s : Schema} (hs : SchemaOK s) {k : FK} (hk : FKOK s k) {pk : PKey V}
    {row : List V} (hrow : RowOK (tableOf s k.native) pk row) :
    ∃ vs, nativeValues s k pk row = some vs ∧
      k.mapping.map (fun p => recOf (tableOf s k.native) pk row p.1) = vs.map some := by
  have hc : k.mapping.mapM (fun p => getcell s k.native pk row p.1) =
      k.mapping.mapM (fun p => recOf (tableOf s k.native) pk row p.1) :=
    mapM_congr _ _ _ (fun p hp => getcell_eq_recOf hs hrow (hk.native_fields p hp))
  obtain ⟨vs, hv⟩ := mapM_some_of_forall (fun p : String × String => recOf (tableOf s k.native) pk row p.1)
    k.mapping (fun p hp => recOf_isSome hrow (hk.native_fields p hp))
  exact ⟨vs, hc.trans hv, (mapM_eq_some_iff _ _ _).1 hv⟩

/-- The outcome of the row test, when it does not raise. -/
def failB (s : Schema) (db : DB V) (k : FK) (p : PKey V × List V) : Bool :=
  (rowFails s db k p.1 p.2).getD false

/-- The native values of a row, when they do not raise. -/
def valsOf (s : Schema) (k : FK) (p : PKey V × List V) : List V := (nativeValues s k p.1 p.2).getD []

theorem rowFails_eq {s : Schema} (hs : SchemaOK s) {db : DB V} (hdb : DBOK s db) {k : FK}
    (hk : FKOK s k) {p : PKey V × List V} (hp : p ∈ (db k.native).items) :
    rowFails s db k p.1 p.2 = some (failB s db k p) := by
  obtain ⟨b, hb, _⟩ := rowFails_spec hs hdb hk (rowOK_of_items (tableOK_of_mem hs hdb hk.native_mem) hp)
  simp [failB, hb]

theorem failB_iff {s : Schema} (hs : SchemaOK s) {db : DB V} (hdb : DBOK s db) {k : FK}
    (hk : FKOK s k) {p : PKey V × List V} (hp : p ∈ (db k.native).items) :
    failB s db k p = true ↔ FailsEff s db k (recOf (tableOf s k.native) p.1 p.2) := by
  obtain ⟨b, hb, h2⟩ := rowFails_spec hs hdb hk (rowOK_of_items (tableOK_of_mem hs hdb hk.native_mem) hp)
  simp [failB, hb, h2]

theorem nativeValues_eq {s : Schema} (hs : SchemaOK s) {db : DB V} (hdb : DBOK s db) {k : FK}
    (hk : FKOK s k) {p : PKey V × List V} (hp : p ∈ (db k.native).items) :
    nativeValues s k p.1 p.2 = some (valsOf s k p) := by
  obtain ⟨b, hb, _⟩ := nativeValues_spec hs hk (rowOK_of_items (tableOK_of_mem hs hdb hk.native_mem) hp)
  simp [valsOf, hb]

/-- The failures of the rows `its` under `k`. -/
def evs (s : Schema) (db : DB V) (k : FK) (its : List (PKey V × List V)) : List (FKEvent V) :=
  (its.filter (failB s db k)).map (fun p => ⟨k, p.1, valsOf s k p⟩)

/-- All failures, in the order of discovery. -/
def allEvs (s : Schema) (db : DB V) (fks : List FK) : List (FKEvent V) :=
  fks.flatMap (fun k => evs s db k (db k.native).items)

/-- `max_failures` applied to a list. -/
def takeLim {A : Type} : Option Nat → List A → List A
  | none, l => l
  | some n, l => l.take n

theorem scanRows_eq_none {s : Schema} {db : DB V} {k : FK} (its : List (PKey V × List V))
    (h1 : ∀ p ∈ its, rowFails s db k p.1 p.2 = some (failB s db k p))
    (h2 : ∀ p ∈ its, nativeValues s k p.1 p.2 = some (valsOf s k p)) (acc : List (FKEvent V)) :
    scanRows s db none k its acc = some ((evs s db k its).reverse ++ acc, false) := by
  induction its generalizing acc with
  | nil => simp [scanRows, evs]
  | cons p its ih =>
    obtain ⟨pk, row⟩ := p
    have ih' := ih (fun q hq => h1 q (List.mem_cons_of_mem _ hq)) (fun q hq => h2 q (List.mem_cons_of_mem _ hq))
    have e1 := h1 (pk, row) List.mem_cons_self
    have e2 := h2 (pk, row) List.mem_cons_self
    simp only at e1 e2
    simp only [scanRows, e1, e2, Option.bind_eq_bind, Option.bind_some]
    cases hb : failB s db k (pk, row) with
    | false => simp [ih', evs, List.filter_cons, hb]
    | true => simp [ih', tripsEnd, evs, List.filter_cons, hb]

theorem scanRows_eq_some {s : Schema} {db : DB V} {k : FK} (n : Nat) (its : List (PKey V × List V))
    (h1 : ∀ p ∈ its, rowFails s db k p.1 p.2 = some (failB s db k p))
    (h2 : ∀ p ∈ its, nativeValues s k p.1 p.2 = some (valsOf s k p)) (acc : List (FKEvent V))
    (hacc : acc.length < n) :
    scanRows s db (some n) k its acc =
      some (((evs s db k its).take (n - acc.length)).reverse ++ acc,
        decide (n ≤ (evs s db k its).length + acc.length)) := by
  induction its generalizing acc with
  | nil => simp [scanRows, evs]; omega
  | cons p its ih =>
    obtain ⟨pk, row⟩ := p
    have ih' := ih (fun q hq => h1 q (List.mem_cons_of_mem _ hq)) (fun q hq => h2 q (List.mem_cons_of_mem _ hq))
    have e1 := h1 (pk, row) List.mem_cons_self
    have e2 := h2 (pk, row) List.mem_cons_self
    simp only at e1 e2
    simp only [scanRows, e1, e2, Option.bind_eq_bind, Option.bind_some]
    cases hb : failB s db k (pk, row) with
    | false =>
      have : evs s db k ((pk, row) :: its) = evs s db k its := by simp [evs, List.filter_cons, hb]
      rw [this]; simpa using ih' acc hacc
    | true =>
      have : evs s db k ((pk, row) :: its) = ⟨k, pk, valsOf s k (pk, row)⟩ :: evs s db k its := by
        simp [evs, List.filter_cons, hb]
      rw [this]
      simp only [if_true, tripsEnd, List.length_cons]
      by_cases hn : n ≤ acc.length + 1
      · have e : n - acc.length = 1 := by omega
        simp only [hn, decide_true, if_true, e, Option.pure_def]
        simp; omega
      · simp only [hn, decide_false]
        have := ih' (⟨k, pk, valsOf s k (pk, row)⟩ :: acc) (by simp; omega)
        simp only [Bool.false_eq_true, if_false, this]
        obtain ⟨m, hm⟩ : ∃ m, n - acc.length = m + 1 := ⟨n - acc.length - 1, by omega⟩
        have e2 : n - (⟨k, pk, valsOf s k (pk, row)⟩ :: acc : List (FKEvent V)).length = m := by
          simp; omega
        rw [e2, hm]
        simp; omega

theorem scanFKs_eq_none {s : Schema} (hs : SchemaOK s) {db : DB V} (hdb : DBOK s db) (fks : List FK)
    (hk : ∀ k ∈ fks, FKOK s k) (acc : List (FKEvent V)) :
    scanFKs s db none fks acc = some ((allEvs s db fks).reverse ++ acc) := by
  induction fks generalizing acc with
  | nil => simp [scanFKs, allEvs]
  | cons k fks ih =>
    have hk' := hk k List.mem_cons_self
    rw [scanFKs, scanRows_eq_none _ (fun p hp => rowFails_eq hs hdb hk' hp)
      (fun p hp => nativeValues_eq hs hdb hk' hp)]
    simp [ih (fun q hq => hk q (List.mem_cons_of_mem _ hq)), allEvs]

theorem scanFKs_eq_some {s : Schema} (hs : SchemaOK s) {db : DB V} (hdb : DBOK s db) (fks : List FK)
    (hk : ∀ k ∈ fks, FKOK s k) (n : Nat) (acc : List (FKEvent V)) (hacc : acc.length < n) :
    scanFKs s db (some n) fks acc =
      some (((allEvs s db fks).take (n - acc.length)).reverse ++ acc) := by
  induction fks generalizing acc with
  | nil => simp [scanFKs, allEvs]
  | cons k fks ih =>
    have hk' := hk k List.mem_cons_self
    rw [scanFKs, scanRows_eq_some n _ (fun p hp => rowFails_eq hs hdb hk' hp)
      (fun p hp => nativeValues_eq hs hdb hk' hp) acc hacc]
    have hsplit : allEvs s db (k :: fks) = evs s db k (db k.native).items ++ allEvs s db fks := by
      simp [allEvs]
    rw [hsplit, List.take_append]
    by_cases hn : n ≤ (evs s db k (db k.native).items).length + acc.length
    · have : n - acc.length - (evs s db k (db k.native).items).length = 0 := by omega
      simp [hn, this]
    · have hle : (evs s db k (db k.native).items).length ≤ n - acc.length := by omega
      simp only [hn, decide_false, Option.bind_eq_bind, Option.bind_some, Bool.false_eq_true, if_false]
      rw [List.take_of_length_le hle, ih (fun q hq => hk q (List.mem_cons_of_mem _ hq)) _
        (by simp; omega)]
      have : n - ((evs s db k (db k.native).items).reverse ++ acc).length =
          n - acc.length - (evs s db k (db k.native).items).length := by simp; omega
      rw [this]
      simp

theorem scanFKs_eq {s : Schema} (hs : SchemaOK s) {db : DB V} (hdb : DBOK s db) (fks : List FK)
    (hk : ∀ k ∈ fks, FKOK s k) (lim : Option Nat) (hl : lim ≠ some 0) :
    scanFKs s db lim fks [] = some (takeLim lim (allEvs s db fks)).reverse := by
  cases lim with
  | none => simpa [takeLim] using scanFKs_eq_none hs hdb fks hk []
  | some n =>
    have : 0 < n := Nat.pos_of_ne_zero (fun h => hl (by rw [h]))
    simpa [takeLim] using scanFKs_eq_some hs hdb fks hk n [] (by simpa using this)

/-! ### The returned dictionary -/

/-- The events of one foreign key. -/
def evOf (es : List (FKEvent V)) (k : FK) : List (FKEvent V) := es.filter (fun e => e.fk = k)

/-- No (key, row) pair is recorded twice. -/
def EvNodup (es : List (FKEvent V)) : Prop := (es.map (fun e => (e.fk, e.pk))).Nodup

structure DictInv (es : List (FKEvent V)) (d : PyDict FK (FKFailures V)) : Prop where
  nodup : (PyDict.keys d).Nodup
  none_iff : ∀ k, d.get? k = none ↔ evOf es k = []
  pks : ∀ k f, d.get? k = some f → f.nativePks = (evOf es k).map (·.pk)
  vals : ∀ k f, d.get? k = some f → ∀ v, v ∈ f.nativeValues ↔ ∃ e ∈ evOf es k, e.vals = v
  vals_nodup : ∀ k f, d.get? k = some f → f.nativeValues.Nodup
  total : (d.map (fun p => p.2.nativePks.length)).sum = es.length

theorem sum_set_new {K W : Type} [DecidableEq K] (g : W → Nat) (d : PyDict K W) (k : K) (v : W)
    (h : PyDict.get? d k = none) :
    ((PyDict.set d k v).map (fun p => g p.2)).sum = (d.map (fun p => g p.2)).sum + g v := by
  rw [PyDict.set_of_not_mem d k v ((PyDict.get?_eq_none _ _).1 h)]
  simp

theorem sum_set_old {K W : Type} [DecidableEq K] (g : W → Nat) (d : PyDict K W) (k : K) (v w : W)
    (h : PyDict.get? d k = some w) :
    ((PyDict.set d k v).map (fun p => g p.2)).sum + g w = (d.map (fun p => g p.2)).sum + g v := by
  induction d with
  | nil => simp at h
  | cons p d ih =>
    obtain ⟨a, b⟩ := p
    by_cases ha : a = k
    · simp [PyDict.get?, ha] at h
      subst h
      simp [PyDict.set, ha]; omega
    · simp [PyDict.get?, ha] at h
      have := ih h
      simp [PyDict.set, ha]; omega

theorem dictInv_step {es : List (FKEvent V)} {d : PyDict FK (FKFailures V)} (h : DictInv es d)
    (e : FKEvent V) (hn : EvNodup (es ++ [e])) : DictInv (es ++ [e]) (addEvent d e) := by
  have hev : ∀ k, evOf (es ++ [e]) k = if e.fk = k then evOf es k ++ [e] else evOf es k := by
    intro k; by_cases hk : e.fk = k <;> simp [evOf, List.filter_append, hk]
  have hnew : e.pk ∉ (evOf es e.fk).map (·.pk) := by
    intro hm
    obtain ⟨e', he', hpk⟩ := List.mem_map.1 hm
    simp only [evOf, List.mem_filter, decide_eq_true_eq] at he'
    unfold EvNodup at hn
    rw [List.map_append, List.nodup_append] at hn
    exact hn.2.2 (e'.fk, e'.pk) (List.mem_map.2 ⟨e', he'.1, rfl⟩) (e.fk, e.pk) (by simp)
      (by simp [he'.2, hpk])
  unfold addEvent
  cases hg : d.get? e.fk with
  | none =>
    have hempty := (h.none_iff _).1 hg
    refine ⟨PyDict.keys_set_nodup _ _ _ h.nodup, ?_, ?_, ?_, ?_, ?_⟩
    · intro k
      rw [hev, PyDict.get?_set]
      by_cases hk : e.fk = k
      · simp [hk]
      · simp [hk, h.none_iff k]
    · intro k f
      rw [hev, PyDict.get?_set]
      by_cases hk : e.fk = k
      · subst hk; simp only [if_true, Option.some.injEq]; rintro rfl; simp [hempty]
      · simp only [hk, if_false]; exact h.pks k f
    · intro k f
      rw [hev, PyDict.get?_set]
      by_cases hk : e.fk = k
      · subst hk; simp only [if_true, Option.some.injEq]; rintro rfl; simp [hempty, eq_comm]
      · simp only [hk, if_false]; exact h.vals k f
    · intro k f
      rw [PyDict.get?_set]
      by_cases hk : e.fk = k
      · simp only [hk, if_true, Option.some.injEq]; rintro rfl; simp
      · simp only [hk, if_false]; exact h.vals_nodup k f
    · have := sum_set_new (fun f : FKFailures V => f.nativePks.length) d e.fk
        { nativeValues := [e.vals], nativePks := [e.pk] } hg
      simp only at this ⊢
      rw [this, h.total]; simp
  | some f0 =>
    have hpk0 := h.pks _ _ hg
    have hadd : setAdd f0.nativePks e.pk = f0.nativePks ++ [e.pk] := by
      rw [hpk0]; simp [setAdd, hnew]
    refine ⟨PyDict.keys_set_nodup _ _ _ h.nodup, ?_, ?_, ?_, ?_, ?_⟩
    · intro k
      rw [hev]
      simp only [PyDict.get?_set]
      by_cases hk : e.fk = k
      · simp [hk]
      · simp [hk, h.none_iff k]
    · intro k f
      rw [hev]
      simp only [PyDict.get?_set]
      by_cases hk : e.fk = k
      · subst hk; simp only [if_true, Option.some.injEq]; rintro rfl; simp only [hadd]; simp [hpk0]
      · simp only [hk, if_false]; exact h.pks k f
    · intro k f
      rw [hev]
      simp only [PyDict.get?_set]
      by_cases hk : e.fk = k
      · subst hk; simp only [if_true, Option.some.injEq]; rintro rfl
        intro v
        simp only [mem_setAdd, h.vals _ _ hg v, List.mem_append, List.mem_singleton]
        constructor
        · rintro (⟨e', he', rfl⟩ | rfl)
          · exact ⟨e', Or.inl he', rfl⟩
          · exact ⟨e, Or.inr rfl, rfl⟩
        · rintro ⟨e', he' | rfl, rfl⟩
          · exact Or.inl ⟨e', he', rfl⟩
          · exact Or.inr rfl
      · simp only [hk, if_false]; exact h.vals k f
    · intro k f
      simp only [PyDict.get?_set]
      by_cases hk : e.fk = k
      · subst hk; simp only [if_true, Option.some.injEq]; rintro rfl
        exact setAdd_nodup _ _ (h.vals_nodup _ _ hg)
      · simp only [hk, if_false]; exact h.vals_nodup k f
    · have := sum_set_old (fun f : FKFailures V => f.nativePks.length) d e.fk
        { nativeValues := setAdd f0.nativeValues e.vals, nativePks := setAdd f0.nativePks e.pk } f0 hg
      simp only [hadd, List.length_append, List.length_singleton, h.total] at this ⊢
      omega

theorem dictInv_foldl (es : List (FKEvent V)) (pre : List (FKEvent V)) (d : PyDict FK (FKFailures V))
    (h : DictInv pre d) (hn : EvNodup (pre ++ es)) : DictInv (pre ++ es) (es.foldl addEvent d) := by
  induction es generalizing pre d with
  | nil => simpa using h
  | cons e es ih =>
    have h1 : EvNodup (pre ++ [e]) := by
      unfold EvNodup at hn ⊢
      refine List.Sublist.nodup ?_ hn
      simp
    have := ih (pre ++ [e]) (addEvent d e) (dictInv_step h e h1) (by simpa using hn)
    simpa using this

theorem dictInv_of_events (es : List (FKEvent V)) (hn : EvNodup es) :
    DictInv es (es.foldl addEvent []) := by
  have h0 : DictInv ([] : List (FKEvent V)) [] :=
    ⟨by simp [PyDict.keys], by simp [evOf], by simp, by simp, by simp, by simp⟩
  simpa using dictInv_foldl es [] [] h0 (by simpa using hn)

theorem items_keys_nodup {ts : TSchema} {td : TableData V} (h : TableOK ts td) :
    (td.items.map Prod.fst).Nodup := by
  cases td with
  | dict rs => exact h.2.1
  | list rs =>
    simp only [TableData.items, List.map_map]
    have : (Prod.fst ∘ fun p : List V × Nat => (PKey.idx (V := V) p.2, p.1)) =
        (fun i => PKey.idx i) ∘ Prod.snd := rfl
    rw [this, ← List.map_map, List.zipIdx_map_snd]
    exact (List.nodup_range' (step := 1)).map _ (fun a b hab e => hab (by simpa using e))

theorem allEvs_nodup {s : Schema} (hs : SchemaOK s) {db : DB V} (hdb : DBOK s db) (fks : List FK)
    (hk : ∀ k ∈ fks, FKOK s k) (hn : fks.Nodup) : EvNodup (allEvs s db fks) := by
  unfold EvNodup
  induction fks with
  | nil => simp [allEvs]
  | cons k fks ih =>
    rw [List.nodup_cons] at hn
    have hsplit : allEvs s db (k :: fks) = evs s db k (db k.native).items ++ allEvs s db fks := by
      simp [allEvs]
    rw [hsplit, List.map_append, List.nodup_append]
    refine ⟨?_, ih (fun q hq => hk q (List.mem_cons_of_mem _ hq)) hn.2, ?_⟩
    · have hit := items_keys_nodup (tableOK_of_mem hs hdb (hk k List.mem_cons_self).native_mem)
      have h2 : ((((db k.native).items.filter (failB s db k)).map Prod.fst)).Nodup :=
        (List.Sublist.map _ List.filter_sublist).nodup hit
      simp only [evs, List.map_map]
      have : ((fun e : FKEvent V => (e.fk, e.pk)) ∘ fun p : PKey V × List V => ⟨k, p.1, valsOf s k p⟩) =
          (fun pk => (k, pk)) ∘ Prod.fst := rfl
      rw [this, ← List.map_map]
      exact h2.map _ (fun a b hab e => hab (by simpa using e))
    · intro a ha b hb hab
      obtain ⟨e, he, rfl⟩ := List.mem_map.1 ha
      obtain ⟨e', he', rfl⟩ := List.mem_map.1 hb
      simp only [evs, List.mem_map, List.mem_filter] at he
      obtain ⟨p, _, rfl⟩ := he
      simp only [allEvs, List.mem_flatMap, evs, List.mem_map, List.mem_filter] at he'
      obtain ⟨k', hk', p', _, rfl⟩ := he'
      simp only [Prod.mk.injEq] at hab
      exact hn.1 (hab.1 ▸ hk')

theorem takeLim_sublist {A : Type} (lim : Option Nat) (l : List A) : (takeLim lim l).Sublist l := by
  cases lim with
  | none => exact List.Sublist.refl _
  | some n => exact List.take_sublist _ _

/-- The result of `find_foreign_key_failures` on a good data object: never raises, and the dictionary is the
one described by the (truncated) list of failures. -/
theorem findFK_dictInv {s : Schema} (hs : SchemaOK s) {db : DB V} (hdb : DBOK s db) {fks : List FK}
    (hk : ∀ k ∈ fks, FKOK s k) (hn : fks.Nodup) (lim : Option Nat) (hl : lim ≠ some 0) :
    ∃ d, findFK s fks db lim = some d ∧ DictInv (takeLim lim (allEvs s db fks)) d := by
  refine ⟨_, ?_, dictInv_of_events _ ?_⟩
  · simp [findFK, scanFKs_eq hs hdb fks hk lim hl]
  · have := allEvs_nodup hs hdb fks hk hn
    unfold EvNodup at *
    exact ((takeLim_sublist lim _).map _).nodup this

theorem mem_allEvs {s : Schema} {db : DB V} {fks : List FK} {e : FKEvent V} :
    e ∈ allEvs s db fks ↔ e.fk ∈ fks ∧ ∃ p ∈ (db e.fk.native).items,
      failB s db e.fk p = true ∧ p.1 = e.pk ∧ valsOf s e.fk p = e.vals := by
  simp only [allEvs, List.mem_flatMap, evs, List.mem_map, List.mem_filter]
  constructor
  · rintro ⟨k, hk, p, ⟨hp, hf⟩, rfl⟩
    exact ⟨hk, p, hp, hf, rfl, rfl⟩
  · rintro ⟨hk, p, hp, hf, h1, h2⟩
    exact ⟨e.fk, hk, p, ⟨hp, hf⟩, by cases e; simp_all⟩

end Ticdat

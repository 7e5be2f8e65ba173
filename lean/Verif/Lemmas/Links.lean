import Verif.Lemmas.FindFK
import Verif.Spec.Links
/-! Helper lemmas for foreign key links. -/
set_option linter.unusedSectionVars false
set_option linter.unusedSimpArgs false
namespace Ticdat
open Spec
variable {V : Type} [DecidableEq V]

theorem simpleFK_iff (s : Schema) (k : FK) : simpleFK s k = true ↔ Simple s k := by
  unfold simpleFK Simple
  refine Iff.trans decide_eq_true_iff ?_
  exact ⟨fun h f => ⟨h.1 f, h.2 f⟩, fun h => ⟨fun f => (h f).1, fun f => (h f).2⟩⟩

theorem cardinality_one (s : Schema) (k : FK) (hn : s.pks k.native ≠ []) (hf : s.pks k.foreign ≠ [])
    (hsim : Simple s k) : cardinality s k = "one-to-one" ↔ OneToOne s k := by
  unfold cardinality halfCard
  have h2 : s.pks k.foreign ≠ [] ∧ ∀ f ∈ s.pks k.foreign, f ∈ k.mapping.map Prod.snd := ⟨hf, fun f => (hsim f).1⟩
  rw [if_pos h2]
  by_cases h : OneToOne s k
  · rw [if_pos ⟨hn, h⟩]; exact ⟨fun _ => h, fun _ => by decide⟩
  · rw [if_neg (fun hc => h hc.2)]; exact ⟨fun hc => absurd hc (by decide), fun hc => absurd hc h⟩

/-- The native field that a foreign field is mapped from. -/
def nativeOf (k : FK) (f : String) : String := (k.foreignToNative.get? f).getD ""

theorem foreignToNative_iff {k : FK} (h : ForeignDistinct k) (f nf : String) :
    k.foreignToNative.get? f = some nf ↔ (nf, f) ∈ k.mapping := by
  have hn : (PyDict.keys (k.mapping.map (fun p => (p.2, p.1)))).Nodup := by
    unfold ForeignDistinct at h
    simpa [PyDict.keys, Function.comp_def] using h
  unfold FK.foreignToNative
  rw [PyDict.ofList_of_nodup _ hn, PyDict.get?_iff_mem hn]
  simp only [List.mem_map, Prod.exists, Prod.mk.injEq]
  constructor
  · rintro ⟨a, b, hm, rfl, rfl⟩; exact hm
  · intro hm; exact ⟨nf, f, hm, rfl, rfl⟩

theorem nativeOf_mem {s : Schema} {k : FK} (h : ForeignDistinct k) (hsim : Simple s k) {f : String}
    (hf : f ∈ s.pks k.foreign) : k.foreignToNative.get? f = some (nativeOf k f) ∧ (nativeOf k f, f) ∈ k.mapping := by
  obtain ⟨p, hp, rfl⟩ := List.mem_map.1 ((hsim f).1 hf)
  have : k.foreignToNative.get? p.2 = some p.1 := (foreignToNative_iff h _ _).2 hp
  simp [nativeOf, this, hp]

theorem nativeOf_eq {k : FK} (h : ForeignDistinct k) {p : String × String} (hp : p ∈ k.mapping) :
    nativeOf k p.2 = p.1 := by
  simp [nativeOf, (foreignToNative_iff h p.2 p.1).2 hp]

/-- The positions used by the mapping. -/
def posnOf (s : Schema) (k : FK) : List Nat :=
  (s.pks k.foreign).map (fun x => (s.allFields k.native).idxOf (nativeOf k x))

theorem localPosn_eq {s : Schema} {k : FK} (hk : FKOK s k) (h : ForeignDistinct k) (hsim : Simple s k) :
    localPosn s k = some (posnOf s k) := by
  unfold localPosn posnOf
  rw [mapM_eq_some_iff, List.map_map]
  apply List.map_congr_left
  intro f hf
  obtain ⟨h1, h2⟩ := nativeOf_mem h hsim hf
  have h3 : nativeOf k f ∈ s.allFields k.native := hk.native_fields _ h2
  simp [h1, h3]

theorem mem_posnOf {s : Schema} {k : FK} (hs : SchemaOK s) (hk : FKOK s k) (h : ForeignDistinct k)
    (hsim : Simple s k) (i : Nat) (f : String) (hi : (s.allFields k.native)[i]? = some f) :
    i ∈ posnOf s k ↔ f ∈ k.mapping.map Prod.fst := by
  have hnd : (s.allFields k.native).Nodup := hs.fields_nodup k.native
  obtain ⟨hlt, hget⟩ := List.getElem?_eq_some_iff.1 hi
  unfold posnOf
  rw [List.mem_map]
  constructor
  · rintro ⟨x, hx, he⟩
    obtain ⟨_, h2⟩ := nativeOf_mem h hsim hx
    have h3 : nativeOf k x ∈ s.allFields k.native := hk.native_fields _ h2
    have : (s.allFields k.native)[i]'hlt = nativeOf k x := by
      have := List.getElem_idxOf (List.idxOf_lt_length_iff.2 h3)
      rw [← this]
      congr 1
      exact he.symm
    rw [← hget, this]
    exact List.mem_map.2 ⟨_, h2, rfl⟩
  · intro hf
    obtain ⟨p, hp, rfl⟩ := List.mem_map.1 hf
    refine ⟨p.2, (hsim p.2).2 (List.mem_map.2 ⟨p, hp, rfl⟩), ?_⟩
    rw [nativeOf_eq h hp, ← hget, hnd.idxOf_getElem]

theorem keyTuple_eq (pk : PKey V) : keyTuple pk = keyVals pk := by cases pk <;> rfl

/-- Reading a row by position is reading its record by field. -/
theorem keyRow_get {ts : TSchema} {pk : PKey V} {row : List V} (h : RowOK ts pk row) {f : String}
    (hf : f ∈ ts.pks ++ ts.dfs) :
    (keyTuple pk ++ row)[(ts.pks ++ ts.dfs).idxOf f]? = recOf ts pk row f := by
  unfold recOf
  have h1 : ts.pks.zip (keyVals pk) ++ ts.dfs.zip row = (ts.pks ++ ts.dfs).zip (keyVals pk ++ row) :=
    (List.zip_append h.1.symm).symm
  rw [h1, lookup_zip _ _ _ (by simp [h.1, h.2.1]), if_pos hf, keyTuple_eq]

theorem linkLookup_eq {s : Schema} {k : FK} (hk : FKOK s k) (h : ForeignDistinct k)
    (hsim : Simple s k) {pk : PKey V} {row : List V} (hr : RowOK (tableOf s k.native) pk row) :
    ∃ look : List V, linkLookup (posnOf s k) pk row = some (oneOrTuple look) ∧
      look.map some = (s.pks k.foreign).map (fun x => recOf (tableOf s k.native) pk row (nativeOf k x)) := by
  have key : (posnOf s k).map (fun i => (keyTuple pk ++ row)[i]?) =
      (s.pks k.foreign).map (fun x => recOf (tableOf s k.native) pk row (nativeOf k x)) := by
    unfold posnOf
    rw [List.map_map]
    apply List.map_congr_left
    intro f hf
    obtain ⟨_, h2⟩ := nativeOf_mem h hsim hf
    have h3 : nativeOf k f ∈ s.allFields k.native := hk.native_fields _ h2
    exact keyRow_get hr h3
  obtain ⟨look, hl⟩ := mapM_some_of_forall (fun i => (keyTuple pk ++ row)[i]?) (posnOf s k) (by
    intro i hi
    obtain ⟨f, hf, rfl⟩ := List.mem_map.1 hi
    obtain ⟨_, h2⟩ := nativeOf_mem h hsim hf
    have h3 : nativeOf k f ∈ s.allFields k.native := hk.native_fields _ h2
    have := keyRow_get hr h3
    simp only [tableOf] at this
    show ((keyTuple pk ++ row)[(s.pks k.native ++ s.dfs k.native).idxOf (nativeOf k f)]?).isSome = true
    rw [this]
    exact recOf_isSome hr h3)
  refine ⟨look, ?_, ?_⟩
  · simp [linkLookup, hl]
  · rw [← key]; exact ((mapM_eq_some_iff _ _ _).1 hl).symm

theorem oneOrTuple_keyVals {n : Nat} {q : PKey V} (hq : KeyOK n q) : oneOrTuple (keyVals q) = q := by
  cases q with
  | one v => rfl
  | many vs =>
    obtain ⟨h1, h2⟩ := hq
    match vs, h1 with
    | [], h1 => simp at h1; omega
    | [v], h1 => simp at h1; omega
    | a :: b :: l, _ => rfl
  | idx i => exact hq.elim

theorem keyOK_oneOrTuple {vs : List V} (h : vs ≠ []) : KeyOK vs.length (oneOrTuple vs) := by
  match vs, h with
  | [v], _ => rfl
  | a :: b :: l, _ => exact ⟨rfl, by simp⟩

theorem keyVals_oneOrTuple (vs : List V) : keyVals (oneOrTuple vs) = vs := by
  match vs with
  | [] => rfl
  | [v] => rfl
  | a :: b :: l => rfl

theorem map_some_inj {a b : List V} (h : a.map some = b.map some) : a = b :=
  (List.map_inj_right (fun x y => by simp)).1 h

theorem keyOf_unique {fs : List String} {r : Rec V} {a b : PKey V} (ha : RestKey fs r a) (hb : RestKey fs r b) : a = b := by
  have h : keyVals a = keyVals b := map_some_inj (ha.2.trans hb.2.symm)
  rw [← oneOrTuple_keyVals ha.1, ← oneOrTuple_keyVals hb.1, h]

theorem rowOK_keyOK {ts : TSchema} {pk : PKey V} {row : List V} (h : RowOK ts pk row) (hne : ts.pks ≠ []) :
    KeyOK ts.pks.length pk := by
  have h0 : 0 < ts.pks.length := List.length_pos_iff.2 hne
  rcases Nat.lt_or_ge 1 ts.pks.length with h1 | h1
  · obtain ⟨vs, rfl⟩ := h.2.2.2.1 h1
    exact ⟨h.1, h1⟩
  · have h2 : ts.pks.length = 1 := by omega
    obtain ⟨v, rfl⟩ := h.2.2.1 h2
    exact h2

/-- The looked-up key is the key of a foreign row iff the rows agree. -/
theorem look_iff {s : Schema} (hs : SchemaOK s) {k : FK} (h : ForeignDistinct k) (hsim : Simple s k)
    (hne : s.pks k.foreign ≠ []) {r : Rec V} {look : List V}
    (hl : look.map some = (s.pks k.foreign).map (fun x => r (nativeOf k x)))
    {q : PKey V} {qr : List V} (hq : RowOK (tableOf s k.foreign) q qr) :
    oneOrTuple look = q ↔ Agrees k.mapping r (recOf (tableOf s k.foreign) q qr) := by
  have hqk : KeyOK (s.pks k.foreign).length q := rowOK_keyOK hq hne
  have hm := map_recOf_pks hq (List.nodup_append.1 (hs.fields_nodup k.foreign)).1
  simp only [tableOf] at hm
  have h1 : oneOrTuple look = q ↔ look = keyVals q := by
    constructor
    · intro e; rw [← e, keyVals_oneOrTuple]
    · intro e; rw [e, oneOrTuple_keyVals hqk]
  rw [h1]
  have h2 : look = keyVals q ↔ (s.pks k.foreign).map (fun x => r (nativeOf k x)) =
      (s.pks k.foreign).map (recOf (tableOf s k.foreign) q qr) := by
    rw [← hl, show (s.pks k.foreign).map (recOf (tableOf s k.foreign) q qr) = (keyVals q).map some from hm]
    exact ⟨fun e => by rw [e], map_some_inj⟩
  rw [h2, List.map_inj_left]
  constructor
  · intro hh p hp
    have := hh p.2 ((hsim p.2).2 (List.mem_map.2 ⟨p, hp, rfl⟩))
    rwa [nativeOf_eq h hp] at this
  · intro hh f hf
    obtain ⟨_, h2⟩ := nativeOf_mem h hsim hf
    exact hh _ h2

theorem filter_zipIdx (fs : List String) (vs : List V) (posn : List Nat) (N : List String) (off : Nat)
    (hlen : fs.length = vs.length)
    (hp : ∀ (i : Nat) f, fs[i]? = some f → (i + off ∈ posn ↔ f ∈ N)) :
    ((vs.zipIdx off).filter (fun q => decide (q.2 ∉ posn))).map Prod.fst =
      ((fs.zip vs).filter (fun q => !decide (q.1 ∈ N))).map Prod.snd := by
  induction vs generalizing fs off with
  | nil => simp
  | cons v vs ih =>
    cases fs with
    | nil => simp at hlen
    | cons f fs =>
      simp only [List.length_cons, Nat.add_right_cancel_iff] at hlen
      have h0 := hp 0 f rfl
      rw [Nat.zero_add] at h0
      have ih' := ih fs (off + 1) hlen (fun i g hg => by
        have := hp (i + 1) g (by simpa using hg)
        rw [← this]
        rw [show i + 1 + off = i + (off + 1) by omega])
      simp only [List.zipIdx_cons, List.zip_cons_cons, List.filter_cons]
      by_cases hf : f ∈ N
      · have h1 : off ∈ posn := h0.2 hf
        simpa [hf, h1] using ih'
      · have h1 : off ∉ posn := fun hc => hf (h0.1 hc)
        simpa [hf, h1] using ih'

theorem linkKey_keyOf {s : Schema} (hs : SchemaOK s) {k : FK} (hk : FKOK s k) (h : ForeignDistinct k)
    (hsim : Simple s k) (hne : unmapped s k ≠ [])
    {pk : PKey V} {row : List V} (hr : RowOK (tableOf s k.native) pk row) :
    RestKey (unmapped s k) (recOf (tableOf s k.native) pk row) (linkKey (posnOf s k) pk row) := by
  have hkey : (if row = [] then keyTuple pk ++ row
      else (keyTuple pk ++ row).take ((keyTuple pk ++ row).length - row.length)) = keyVals pk := by
    rw [keyTuple_eq]
    split
    · rename_i he; simp [he]
    · simp
  have hf := filter_zipIdx (s.pks k.native) (keyVals pk) (posnOf s k) (k.mapping.map Prod.fst) 0 hr.1.symm
    (fun i f hi => by
      rw [Nat.add_zero]
      apply mem_posnOf hs hk h hsim
      unfold Schema.allFields
      rw [List.getElem?_append_left (List.getElem?_eq_some_iff.1 hi).1]
      exact hi)
  have hval : (((s.pks k.native).zip (keyVals pk)).filter (fun q => !decide (q.1 ∈ k.mapping.map Prod.fst))).map
      (fun q => some q.2) = (unmapped s k).map (recOf (tableOf s k.native) pk row) := by
    have hm' : (s.pks k.native).map (recOf (tableOf s k.native) pk row) = (keyVals pk).map some :=
      map_recOf_pks hr (List.nodup_append.1 (hs.fields_nodup k.native)).1
    unfold unmapped
    revert hm'
    generalize recOf (tableOf s k.native) pk row = r
    generalize s.pks k.native = ps
    generalize keyVals pk = vs
    intro hm'
    induction ps generalizing vs with
    | nil => simp
    | cons f ps ih =>
      cases vs with
      | nil => simp at hm'
      | cons v vs =>
        simp only [List.map_cons, List.cons.injEq] at hm'
        simp only [List.zip_cons_cons, List.filter_cons]
        by_cases hfm : f ∈ k.mapping.map Prod.fst
        · simpa [hfm] using ih vs hm'.2
        · simp only [hfm, decide_false, Bool.not_false, if_true, List.map_cons, hm'.1, List.cons.injEq, true_and]
          exact ih vs hm'.2
  have hlk : linkKey (posnOf s k) pk row = oneOrTuple ((((s.pks k.native).zip (keyVals pk)).filter
      (fun q => !decide (q.1 ∈ k.mapping.map Prod.fst))).map Prod.snd) := by
    unfold linkKey
    simp only [hkey]
    rw [← hf]
  have hlen : ((((s.pks k.native).zip (keyVals pk)).filter
      (fun q => !decide (q.1 ∈ k.mapping.map Prod.fst))).map Prod.snd).length = (unmapped s k).length := by
    have := congrArg List.length hval
    simpa using this
  rw [hlk]
  refine ⟨?_, ?_⟩
  · rw [← hlen]
    apply keyOK_oneOrTuple
    intro he
    rw [he] at hlen
    exact hne (List.length_eq_zero_iff.1 hlen.symm)
  · rw [keyVals_oneOrTuple, ← hval, List.map_map]
    rfl

theorem linkKeyFits_of {n : Nat} {q : PKey V} (h : KeyOK n q) : linkKeyFits n q = true := by
  cases q with
  | one v => simp only [KeyOK] at h; simp [linkKeyFits, h]
  | many vs => obtain ⟨h1, h2⟩ := h; simp [linkKeyFits, h1, h2]
  | idx i => exact h.elim

end Ticdat

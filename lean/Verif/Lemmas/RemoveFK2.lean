import Verif.Lemmas.RemoveFK
/-! Helper lemmas: one round of `remove_foreign_key_failures` keeps exactly the rows that do not fail. -/
set_option linter.unusedSectionVars false
set_option linter.unusedSimpArgs false
namespace Ticdat
open Spec
variable {V : Type} [DecidableEq V]

/-- A row of table `t` fails some foreign key. -/
def rowBad (s : Schema) (fks : List FK) (db : DB V) (t : String) (p : PKey V × List V) : Bool :=
  fks.any (fun k => decide (k.native = t) && failB s db k p)

/-- Keep the rows that do not fail. -/
def filt (s : Schema) (fks : List FK) (db : DB V) : DB V := fun t =>
  match db t with
  | .dict rs => .dict (rs.filter (fun p => !rowBad s fks db t p))
  | .list rs => .list (rs.filter (fun r => !rowBad s fks db t (.idx 0, r)))

theorem recOf_idx (ts : TSchema) (i j : Nat) (r : List V) :
    recOf ts (.idx i) r = recOf ts (.idx j) r := rfl

theorem failB_idx {s : Schema} (hs : SchemaOK s) {db : DB V} (hdb : DBOK s db) {k : FK}
    (hk : FKOK s k) {rs : List (List V)} (h : db k.native = .list rs) {r : List V} {i : Nat}
    (hi : rs[i]? = some r) : failB s db k (.idx i, r) = failB s db k (.idx 0, r) := by
  have hT := tableOK_of_mem hs hdb hk.native_mem
  rw [h] at hT
  have hrow : ∀ j, RowOK (tableOf s k.native) (.idx j) r := by
    intro j
    have hm : (PKey.idx i, r) ∈ (TableData.list rs).items := by
      simp only [TableData.items, List.mem_map]
      exact ⟨(r, i), by simpa [List.mk_mem_zipIdx_iff_getElem?] using hi, rfl⟩
    have := rowOK_of_items hT hm
    have he : (tableOf s k.native).pks = [] := hT.1
    exact ⟨by simp [keyVals, he], this.2.1, by simp [he], by simp [he], by simp⟩
  obtain ⟨b, h1, h2⟩ := rowFails_spec hs hdb hk (hrow i)
  obtain ⟨c, h3, h4⟩ := rowFails_spec hs hdb hk (hrow 0)
  rw [recOf_idx _ i 0] at h2
  have : b = c := by rw [Bool.eq_iff_iff, h2, h4]
  simp [failB, h1, h3, this]

theorem mem_findFK {s : Schema} {db : DB V} {fks : List FK} {d : PyDict FK (FKFailures V)}
    (inv : DictInv (allEvs s db fks) d) (k : FK) (pk : PKey V) :
    (∃ f, (k, f) ∈ d ∧ pk ∈ f.nativePks) ↔
      k ∈ fks ∧ ∃ p ∈ (db k.native).items, failB s db k p = true ∧ p.1 = pk := by
  constructor
  · rintro ⟨f, hm, hp⟩
    rw [inv.pks k f (PyDict.get?_of_mem inv.nodup hm)] at hp
    obtain ⟨e, he, rfl⟩ := List.mem_map.1 hp
    simp only [evOf, List.mem_filter, decide_eq_true_eq, mem_allEvs] at he
    obtain ⟨⟨h1, p, h2, h3, h4, _⟩, rfl⟩ := he
    exact ⟨h1, p, h2, h3, h4⟩
  · rintro ⟨hk, p, hp, hf, rfl⟩
    have hmem : (⟨k, p.1, valsOf s k p⟩ : FKEvent V) ∈ evOf (allEvs s db fks) k := by
      simp only [evOf, List.mem_filter, decide_eq_true_eq, mem_allEvs]
      exact ⟨⟨hk, p, hp, hf, rfl, rfl⟩, trivial⟩
    cases hg : PyDict.get? d k with
    | none => rw [(inv.none_iff k).1 hg] at hmem; simp at hmem
    | some f =>
      refine ⟨f, PyDict.get?_mem hg, ?_⟩
      rw [inv.pks k f hg]
      exact List.mem_map.2 ⟨_, hmem, rfl⟩

theorem filt_of_not_native (s : Schema) (fks : List FK) (db : DB V) (t : String)
    (h : ∀ k ∈ fks, k.native ≠ t) : filt s fks db t = db t := by
  have : ∀ p, rowBad s fks db t p = false := by
    intro p
    simp only [rowBad, List.any_eq_false, Bool.and_eq_true, decide_eq_true_eq, not_and]
    intro k hk e
    exact absurd e (h k hk)
  unfold filt
  cases db t <;> simp only [this, Bool.not_false] <;> rw [List.filter_eq_self.2 (fun _ _ => rfl)]

theorem removeRound_eq {s : Schema} (hs : SchemaOK s) {db : DB V} (hdb : DBOK s db) {fks : List FK}
    (hk : ∀ k ∈ fks, FKOK s k) (hn : fks.Nodup) :
    ∃ d, findFK s fks db none = some d ∧ removeRound s fks db = some (filt s fks db, !d.isEmpty) := by
  obtain ⟨d, hd, inv⟩ := findFK_dictInv hs hdb hk hn none (by simp)
  simp only [takeLim] at inv
  refine ⟨d, hd, ?_⟩
  have hkm : ∀ p ∈ d, p.1 ∈ fks := by
    rintro ⟨k, f⟩ hp
    have hg := PyDict.get?_of_mem inv.nodup hp
    have hne : evOf (allEvs s db fks) k ≠ [] := by
      intro h; rw [(inv.none_iff k).2 h] at hg; simp at hg
    obtain ⟨e, he⟩ := List.exists_mem_of_ne_nil _ hne
    simp only [evOf, List.mem_filter, decide_eq_true_eq, mem_allEvs] at he
    exact he.2 ▸ he.1.1
  have hT : ∀ k ∈ fks, TableOK (tableOf s k.native) (db k.native) :=
    fun k hkk => tableOK_of_mem hs hdb (hk k hkk).native_mem
  have hkn : ∀ p ∈ d, KeysNodup db p.1.native := by
    intro p hp rs hrs
    have := hT p.1 (hkm p hp)
    rw [hrs] at this
    exact this.2.1
  have hlist : ∀ p ∈ d, s.pks p.1.native = [] → ∀ pk ∈ p.2.nativePks, ∃ i, pk = .idx i := by
    rintro ⟨k, f⟩ hp hpk pk hm
    obtain ⟨_, q, hq, _, rfl⟩ := (mem_findFK inv k pk).1 ⟨f, hp, hm⟩
    have := hT k (hkm _ hp)
    cases hdt : db k.native with
    | dict rs => rw [hdt] at this; exact absurd hpk this.1
    | list rs =>
      rw [hdt] at hq
      simp only [TableData.items, List.mem_map] at hq
      obtain ⟨r, _, rfl⟩ := hq
      exact ⟨_, rfl⟩
  obtain ⟨need, h1, h2, h3⟩ := removeKeyed_spec s d db hkn hlist [] List.nodup_nil
  -- the list of pops
  have hmem : ∀ t i, (t, i) ∈ need.mergeSort pairGE ↔
      s.pks t = [] ∧ ∃ k ∈ fks, k.native = t ∧ ∃ p ∈ (db t).items, failB s db k p = true ∧ p.1 = .idx i := by
    intro t i
    rw [List.mem_mergeSort, h3]
    simp only [List.not_mem_nil, false_or]
    constructor
    · rintro ⟨h, ⟨k, f⟩, hp, rfl, hi⟩
      obtain ⟨a, b⟩ := (mem_findFK inv k _).1 ⟨f, hp, hi⟩
      exact ⟨h, k, a, rfl, b⟩
    · rintro ⟨h, k, hkk, rfl, hq⟩
      obtain ⟨f, a, b⟩ := (mem_findFK inv k _).2 ⟨hkk, hq⟩
      exact ⟨h, (k, f), a, rfl, b⟩
  have hbound : ∀ t i, (t, i) ∈ need.mergeSort pairGE →
      ∃ rs, delBy db (keyedBad s d) t = .list rs ∧ i < rs.length := by
    intro t i hm
    obtain ⟨h, k, hkk, rfl, p, hp, _, hpi⟩ := (hmem t i).1 hm
    have := hT k hkk
    cases hdt : db k.native with
    | dict rs => rw [hdt] at this; exact absurd h this.1
    | list rs =>
      refine ⟨rs, by simp [delBy, hdt], ?_⟩
      rw [hdt] at hp
      simp only [TableData.items, List.mem_map] at hp
      obtain ⟨⟨r, j⟩, hj, rfl⟩ := hp
      simp only [PKey.idx.injEq] at hpi
      subst hpi
      rw [List.mk_mem_zipIdx_iff_getElem?] at hj
      exact (List.getElem?_eq_some_iff.1 hj).1
  obtain ⟨db2, g1, g2⟩ := popAll_spec _ (delBy db (keyedBad s d)) (sorted_need need h2) hbound
  have : db2 = filt s fks db := by
    funext t
    by_cases ht : ∃ k ∈ fks, k.native = t
    · obtain ⟨k0, hk0, rfl⟩ := ht
      have hTt := hT k0 hk0
      rw [g2]
      unfold delBy filt
      cases hdt : db k0.native with
      | dict rs =>
        rw [hdt] at hTt
        simp only
        congr 1
        apply List.filter_congr
        intro p hp
        congr 1
        rw [Bool.eq_iff_iff]
        simp only [keyedBad, rowBad, List.any_eq_true, Bool.and_eq_true, decide_eq_true_eq]
        constructor
        · rintro ⟨⟨k, f⟩, hm, ⟨hkn, _⟩, hpk⟩
          obtain ⟨a, q, hq, hf, hqp⟩ := (mem_findFK inv k _).1 ⟨f, hm, hpk⟩
          rw [hkn, hdt] at hq
          simp only [TableData.items] at hq
          have : q = p := by
            have e1 := PyDict.get?_of_mem hTt.2.1 (k := q.1) (v := q.2) hq
            have e2 := PyDict.get?_of_mem hTt.2.1 (k := p.1) (v := p.2) hp
            rw [hqp] at e1
            rw [e1] at e2
            exact Prod.ext hqp (Option.some.inj e2)
          exact ⟨k, a, hkn, this ▸ hf⟩
        · rintro ⟨k, hkk, hkn, hf⟩
          obtain ⟨f, a, b⟩ := (mem_findFK inv k p.1).2 ⟨hkk, p, by rw [hkn, hdt]; exact hp, hf, rfl⟩
          exact ⟨(k, f), a, ⟨hkn, hTt.1⟩, b⟩
      | list rs =>
        rw [hdt] at hTt
        simp only
        congr 1
        apply keepIdx_eq_filter (fun r => rowBad s fks db k0.native (.idx 0, r))
        intro i hi
        rw [Nat.zero_add, Bool.eq_iff_iff]
        simp only [decide_eq_true_eq, hmem, rowBad, List.any_eq_true, Bool.and_eq_true]
        have hgi : rs[i]? = some rs[i] := List.getElem?_eq_getElem hi
        constructor
        · rintro ⟨_, k, hkk, hkn, p, hp, hf, hpi⟩
          rw [hdt] at hp
          simp only [TableData.items, List.mem_map] at hp
          obtain ⟨⟨r, j⟩, hj, rfl⟩ := hp
          simp only [PKey.idx.injEq] at hpi
          subst hpi
          rw [List.mk_mem_zipIdx_iff_getElem?, hgi] at hj
          simp only [Option.some.injEq] at hj
          subst hj
          exact ⟨k, hkk, hkn, by rw [← failB_idx hs hdb (hk k hkk) (hkn ▸ hdt) hgi]; exact hf⟩
        · rintro ⟨k, hkk, hkn, hf⟩
          refine ⟨hTt.1, k, hkk, hkn, (.idx i, rs[i]), ?_, ?_, rfl⟩
          · rw [hdt]
            simp only [TableData.items, List.mem_map]
            exact ⟨(rs[i], i), by rw [List.mk_mem_zipIdx_iff_getElem?]; exact hgi, rfl⟩
          · rw [failB_idx hs hdb (hk k hkk) (hkn ▸ hdt) hgi]; exact hf
    · have hnot : ∀ k ∈ fks, k.native ≠ t := fun k hkk e => ht ⟨k, hkk, e⟩
      rw [filt_of_not_native s fks db t hnot, g2]
      unfold delBy
      cases hdt : db t with
      | dict rs =>
        simp only
        congr 1
        rw [List.filter_eq_self]
        intro p _
        simp only [keyedBad, Bool.not_eq_true', List.any_eq_false, Bool.and_eq_true, decide_eq_true_eq]
        rintro q hq ⟨⟨e, _⟩, _⟩
        exact hnot q.1 (hkm q hq) e
      | list rs =>
        simp only
        congr 1
        rw [keepIdx_congr _ (fun _ => false) rs 0, keepIdx_false]
        intro i _ _
        apply decide_eq_false
        rw [hmem]
        rintro ⟨_, k, hkk, e, _⟩
        exact hnot k hkk e
  simp [removeRound, hd, h1, g1, this]

/-! ### Rounds preserve good data objects and shrink them -/

theorem dbok_of_sub {s : Schema} {db db' : DB V} (h : SubDB s db' db) (hdb : DBOK s db) : DBOK s db' := by
  intro t ts hm
  have h1 := hdb t ts hm
  have h2 := h t (List.mem_map.2 ⟨_, hm, rfl⟩)
  cases hd : db t <;> cases hd' : db' t <;> rw [hd, hd'] at h2 <;> rw [hd] at h1
  · exact ⟨h1.1, (h2.map _).nodup h1.2.1, fun p hp => h1.2.2 p (h2.subset hp)⟩
  · exact absurd h2 (by simp [SubTable])
  · exact absurd h2 (by simp [SubTable])
  · exact ⟨h1.1, fun p hp => h1.2 p (h2.subset hp)⟩

theorem subTable_refl (t : TableData V) : SubTable t t := by
  cases t <;> exact List.Sublist.refl _

theorem subTable_trans {a b c : TableData V} (h : SubTable a b) (h' : SubTable b c) : SubTable a c := by
  cases a <;> cases b <;> cases c <;> simp only [SubTable] at h h' ⊢ <;> exact h.trans h'

theorem subDB_refl (s : Schema) (db : DB V) : SubDB s db db := fun _ _ => subTable_refl _

theorem subDB_trans {s : Schema} {a b c : DB V} (h : SubDB s a b) (h' : SubDB s b c) : SubDB s a c :=
  fun t ht => subTable_trans (h t ht) (h' t ht)

theorem filt_sub (s : Schema) (fks : List FK) (db : DB V) : SubDB s (filt s fks db) db := by
  intro t _
  unfold filt
  cases db t <;> exact List.filter_sublist

theorem size_le_of_sub {a b : TableData V} (h : SubTable a b) : a.size ≤ b.size := by
  cases a <;> cases b <;> simp only [SubTable] at h <;> exact h.length_le

theorem subTable_antisymm_of_size {a b : TableData V} (h : SubTable a b) (hs : b.size ≤ a.size) : a = b := by
  cases a <;> cases b <;> simp only [SubTable] at h <;>
    · have := h.eq_of_length_le hs
      rw [this]

theorem sum_map_le {A : Type} (l : List A) (f g : A → Nat) (h : ∀ a ∈ l, f a ≤ g a) :
    (l.map f).sum ≤ (l.map g).sum := by
  induction l with
  | nil => simp
  | cons a l ih =>
    have h1 := h a List.mem_cons_self
    have h2 := ih (fun b hb => h b (List.mem_cons_of_mem _ hb))
    simp only [List.map_cons, List.sum_cons]
    omega

theorem sum_map_lt {A : Type} (l : List A) (f g : A → Nat) (h : ∀ a ∈ l, f a ≤ g a)
    (a : A) (ha : a ∈ l) (hlt : f a < g a) : (l.map f).sum < (l.map g).sum := by
  induction l with
  | nil => simp at ha
  | cons b l ih =>
    have h1 := h b List.mem_cons_self
    simp only [List.map_cons, List.sum_cons]
    have hle := sum_map_le l f g (fun c hc => h c (List.mem_cons_of_mem _ hc))
    rcases List.mem_cons.1 ha with rfl | hm
    · omega
    · have := ih (fun c hc => h c (List.mem_cons_of_mem _ hc)) hm
      omega

theorem totalRows_le {s : Schema} {a b : DB V} (h : SubDB s a b) : totalRows s a ≤ totalRows s b :=
  sum_map_le _ _ _ (fun t ht => size_le_of_sub (h t ht))

/-- `find_foreign_key_failures` found nothing iff no row fails. -/
theorem findFK_empty_iff {s : Schema} {db : DB V} {fks : List FK} {d : PyDict FK (FKFailures V)}
    (inv : DictInv (allEvs s db fks) d) :
    d = [] ↔ ∀ k ∈ fks, ∀ p ∈ (db k.native).items, failB s db k p = false := by
  constructor
  · rintro rfl k hk p hp
    cases hf : failB s db k p with
    | false => rfl
    | true =>
      obtain ⟨f, hm, _⟩ := (mem_findFK inv k p.1).2 ⟨hk, p, hp, hf, rfl⟩
      simp at hm
  · intro h
    cases d with
    | nil => rfl
    | cons q d =>
      exfalso
      have hg := PyDict.get?_of_mem inv.nodup (k := q.1) (v := q.2) List.mem_cons_self
      have hne : evOf (allEvs s db fks) q.1 ≠ [] := by
        intro h0; rw [(inv.none_iff q.1).2 h0] at hg; simp at hg
      obtain ⟨e, he⟩ := List.exists_mem_of_ne_nil _ hne
      simp only [evOf, List.mem_filter, decide_eq_true_eq, mem_allEvs] at he
      obtain ⟨⟨h1, p, h2, h3, _⟩, _⟩ := he
      rw [h _ h1 p h2] at h3
      simp at h3

theorem filt_lt {s : Schema} (hs : SchemaOK s) {db : DB V} (hdb : DBOK s db) {fks : List FK}
    (hk : ∀ k ∈ fks, FKOK s k) {k : FK} (hkm : k ∈ fks) {p : PKey V × List V}
    (hp : p ∈ (db k.native).items) (hf : failB s db k p = true) :
    totalRows s (filt s fks db) < totalRows s db := by
  refine sum_map_lt _ _ _ (fun t ht => size_le_of_sub (filt_sub s fks db t ht)) k.native (hk k hkm).native_mem ?_
  unfold filt
  cases hd : db k.native with
  | dict rs =>
    rw [hd] at hp
    simp only [TableData.size]
    apply Nat.lt_of_not_le
    intro hle
    have := (List.filter_sublist (l := rs)).eq_of_length_le hle
    rw [List.filter_eq_self] at this
    have := this p hp
    simp only [Bool.not_eq_true', rowBad, List.any_eq_false] at this
    exact this k hkm (by simp [hf])
  | list rs =>
    rw [hd] at hp
    simp only [TableData.items, List.mem_map] at hp
    obtain ⟨⟨r, i⟩, hi, rfl⟩ := hp
    rw [List.mk_mem_zipIdx_iff_getElem?] at hi
    simp only [TableData.size]
    apply Nat.lt_of_not_le
    intro hle
    have := (List.filter_sublist (l := rs)).eq_of_length_le hle
    rw [List.filter_eq_self] at this
    have := this r (List.mem_of_getElem? hi)
    simp only [Bool.not_eq_true', rowBad, List.any_eq_false] at this
    apply this k hkm
    simp only [decide_true, Bool.true_and]
    rw [← failB_idx hs hdb (hk k hkm) hd hi]
    exact hf

/-- The shape of every run: enough fuel gives a result, reached by filtering rounds, with no failing row. -/
theorem removeFK_run {s : Schema} (hs : SchemaOK s) {fks : List FK}
    (hk : ∀ k ∈ fks, FKOK s k) (hn : fks.Nodup) (P : DB V → Prop)
    (hstep : ∀ db, DBOK s db → P db → P (filt s fks db)) :
    ∀ (fuel : Nat) (db : DB V), DBOK s db → totalRows s db < fuel → P db →
      ∃ db', removeFK s fks true fuel db = some db' ∧ DBOK s db' ∧ SubDB s db' db ∧ P db' ∧
        findFK s fks db' none = some [] := by
  intro fuel
  induction fuel with
  | zero => intro db _ h; omega
  | succ fuel ih =>
    intro db hdb hlt hP
    obtain ⟨d, hd, hr⟩ := removeRound_eq hs hdb hk hn
    obtain ⟨d', hd', inv⟩ := findFK_dictInv hs hdb hk hn none (by simp)
    rw [hd] at hd'
    obtain rfl := Option.some.inj hd'
    simp only [takeLim] at inv
    have hdb1 := dbok_of_sub (filt_sub s fks db) hdb
    cases hde : d with
    | nil =>
      have hnone := (findFK_empty_iff inv).1 hde
      have hfe : filt s fks db = db := by
        funext t
        by_cases ht : ∃ k ∈ fks, k.native = t
        · obtain ⟨k0, hk0, rfl⟩ := ht
          unfold filt
          cases hdt : db k0.native with
          | dict rs =>
            simp only
            congr 1
            rw [List.filter_eq_self]
            intro p hp
            simp only [Bool.not_eq_true', rowBad, List.any_eq_false, Bool.and_eq_true, decide_eq_true_eq, not_and]
            intro k hkk e
            rw [hnone k hkk p (by rw [e, hdt]; exact hp)]
            simp
          | list rs =>
            simp only
            congr 1
            rw [List.filter_eq_self]
            intro r hr
            obtain ⟨i, hi⟩ := List.mem_iff_getElem?.1 hr
            simp only [Bool.not_eq_true', rowBad, List.any_eq_false, Bool.and_eq_true, decide_eq_true_eq, not_and]
            intro k hkk e
            rw [← failB_idx hs hdb (hk k hkk) (e ▸ hdt) hi, hnone k hkk (.idx i, r)]
            · simp
            · rw [e, hdt]
              simp only [TableData.items, List.mem_map]
              exact ⟨(r, i), by rw [List.mk_mem_zipIdx_iff_getElem?]; exact hi, rfl⟩
        · exact filt_of_not_native s fks db t (fun k hkk e => ht ⟨k, hkk, e⟩)
      refine ⟨db, ?_, hdb, subDB_refl s db, hP, by rw [hd, hde]⟩
      simp [removeFK, hr, hde, hfe]
    | cons q d0 =>
      have hex : ∃ k ∈ fks, ∃ p ∈ (db k.native).items, failB s db k p = true := by
        apply Classical.byContradiction
        intro hcon
        have : d = [] := by
          rw [findFK_empty_iff inv]
          intro k hkk p hp
          cases hf : failB s db k p with
          | false => rfl
          | true => exact absurd ⟨k, hkk, p, hp, hf⟩ hcon
        rw [hde] at this
        simp at this
      obtain ⟨k, hkm, p, hp, hf⟩ := hex
      have hlt1 := filt_lt hs hdb hk hkm hp hf
      obtain ⟨db', g1, g2, g3, g4, g5⟩ := ih (filt s fks db) hdb1 (by omega) (hstep db hdb hP)
      refine ⟨db', ?_, g2, subDB_trans g3 (filt_sub s fks db), g4, g5⟩
      simp [removeFK, hr, hde, g1]

end Ticdat

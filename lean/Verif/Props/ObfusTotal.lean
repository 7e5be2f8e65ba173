import Verif.Props.Obfus
/-!
# C34: when `obfusimplify` returns, and when it raises
-/
set_option linter.unusedSimpArgs false
set_option linter.unusedSectionVars false
namespace Ticdat
open Spec
variable {V : Type} [DecidableEq V]

theorem pairwise2_left {A B : Type} {R : A → B → Prop} {l : List A} {l' : List B} (h : Pairwise2 R l l') {a : A} (ha : a ∈ l) :
    ∃ b ∈ l', R a b := by
  induction h with
  | nil => cases ha
  | cons h _ ih =>
    rcases List.mem_cons.1 ha with rfl | ha
    · exact ⟨_, by simp, h⟩
    · obtain ⟨b, hb, hr⟩ := ih ha
      exact ⟨b, by simp [hb], hr⟩

theorem nameChars_length : nameChars.length = 25 := by decide

theorem nameChars_nodup : nameChars.Nodup := by decide

/-- With fewer than 25 prefixes in use a new one is found. -/
theorem findName_none (letters : List Char) (used : List String) (fuel : Nat) : ∀ n, 1 ≤ n → findName letters used fuel n = none →
    ∀ m, m < fuel → n + m ≤ letters.length + 25 → ∃ name, nameAt letters (n + m) = some name ∧ String.ofList name ∈ used := by
  induction fuel with
  | zero => intro n _ _ m hm; omega
  | succ fuel ih =>
    intro n hn h m hm hle
    have hsome : ∃ name, nameAt letters n = some name := by
      unfold nameAt
      split
      · exact ⟨_, rfl⟩
      · unfold baseConverter
        rw [if_pos (by rw [nameChars_length]; omega)]
        exact ⟨_, rfl⟩
    obtain ⟨name, hname⟩ := hsome
    simp only [findName, hname, Option.bind_some] at h
    split at h
    · rename_i hu
      cases m with
      | zero => exact ⟨name, hname, hu⟩
      | succ m =>
        have := ih (n + 1) (by omega) h m (by omega) (by omega)
        rwa [show n + 1 + m = n + (m + 1) by omega] at this
    · cases h

theorem findName_some (letters : List Char) (used : List String) (hu : used.length < 25) :
    ∃ name, findName letters used (letters.length + 26) 1 = some name := by
  cases h : findName letters used (letters.length + 26) 1 with
  | some name => exact ⟨name, rfl⟩
  | none =>
    exfalso
    have hall := findName_none letters used _ 1 (by omega) h
    have hle : (nameChars.map (fun c => String.ofList (letters ++ [c]))).length ≤ used.length := by
      apply nodup_length_le
      · refine List.Pairwise.map _ ?_ nameChars_nodup
        intro a b hab he
        apply hab
        have := congrArg String.toList he
        simpa [String.toList_ofList] using this
      · intro a ha
        obtain ⟨c, hc, rfl⟩ := List.mem_map.1 ha
        obtain ⟨i, hi⟩ := List.mem_iff_getElem?.1 hc
        have hil : i < nameChars.length := (List.getElem?_eq_some_iff.1 hi).1
        have hil' := hil
        rw [nameChars_length] at hil'
        obtain ⟨name, hn, hm⟩ := hall (letters.length + i) (by omega) (by omega)
        have : nameAt letters (1 + (letters.length + i)) = some (letters ++ [c]) := by
          unfold nameAt baseConverter
          rw [if_neg (by omega), show 1 + (letters.length + i) - letters.length - 1 = i by omega, if_pos hil]
          simp [List.getD, hi]
        rw [this] at hn
        cases hn
        exact hm
    rw [List.length_map, nameChars_length] at hle
    omega

theorem addPrepends_some (upper : String → List Char) (ts : List String) : ∀ d : PyDict String String,
    d.length + ts.length ≤ 25 → ∃ d', addPrepends upper ts d = some d' := by
  induction ts with
  | nil => intro d _; exact ⟨d, rfl⟩
  | cons t ts ih =>
    intro d hl
    simp only [List.length_cons] at hl
    obtain ⟨name, hn⟩ := findName_some (fromTable upper t) (d.map Prod.snd) (by rw [List.length_map]; omega)
    simp only [addPrepends, hn, Option.bind_some]
    apply ih
    have : ∀ d : PyDict String String, (PyDict.set d t name).length ≤ d.length + 1 := by
      intro d
      induction d with
      | nil => simp [PyDict.set]
      | cons p d ih =>
        simp only [PyDict.set]
        split
        · simp
        · simpa using ih
    have := this d
    omega

section Total
variable {iter : List String → List String} {upper : String → List Char} {sort : List V → Option (List V)}
    {str : String → V} {s : Schema} {fks0 fks : List FK} {db : DB V} {tp : PyDict String String} {skip : List String}

/-- In consistent data a cell that refers to an entity holds one of its keys. -/
theorem refers_key (hs : SchemaOK s) (hdb : DBOK s db) (hk : ∀ k ∈ fks, FKOK s k) (hc : Consistent s fks db) (hcl : Clear s fks skip)
    {t f E : String} (hE : Entity s fks skip E) (hr : Refers fks t f E) {pk : PKey V} {row : List V} (hm : (pk, row) ∈ (db t).items)
    {v : V} (hv : recOf (tableOf s t) pk row f = some v) : KeyOf db E v := by
  obtain ⟨k, hkk, rfl, rfl, hf⟩ := hr
  obtain ⟨p, hp, rfl⟩ := List.mem_map.1 hf
  have hnf := hc k hkk (pk, recOf (tableOf s k.native) pk row) (by rw [rows_eq_items]; exact List.mem_map.2 ⟨_, hm, rfl⟩)
  unfold Fails at hnf
  simp only [Classical.not_forall, Classical.not_not] at hnf
  obtain ⟨q, hq, hag⟩ := hnf
  have hpq := hag p hp
  rw [hv] at hpq
  rw [rows_eq_items] at hq
  obtain ⟨x, hx, rfl⟩ := List.mem_map.1 hq
  have hpk := hcl.simple k hkk hE p hp
  have hrow := rowOK_of_items (tableOK_of_mem hs hdb (hk k hkk).foreign_mem) hx
  have hlen : (tableOf s k.foreign).pks.length = 1 := by show (s.pks k.foreign).length = 1; rw [hpk]; rfl
  obtain ⟨w, hw⟩ := hrow.2.2.1 hlen
  simp only at hpq
  rw [recOf_pk hrow (by show p.2 ∈ s.pks k.foreign; rw [hpk]; simp), hw] at hpq
  have : (tableOf s k.foreign).pks = [p.2] := hpk
  rw [this] at hpq
  simp [keyVals] at hpq
  exact ⟨x.2, by rw [hpq, ← hw]; exact hx⟩

/-- The fields of the copy are determined: with clear foreign keys joined fields show the same entity. -/
theorem shown_joined (hcl : Clear s fks skip) {prepends : PyDict String String}
    (hents : ∀ E, E ∈ PyDict.keys prepends ↔ Entity s fks skip E) {k : FK} (hk : k ∈ fks) {p : String × String} (hp : p ∈ k.mapping) :
    shown s prepends (fieldEntity fks prepends) k.native p.1 = shown s prepends (fieldEntity fks prepends) k.foreign p.2 := by
  cases h1 : shown s prepends (fieldEntity fks prepends) k.native p.1 with
  | some E =>
    have e1 : Shows s fks skip k.native p.1 E := core_shows hents h1
    have e2 := (hcl.joined k hk p hp E).1 e1
    cases h2 : shown s prepends (fieldEntity fks prepends) k.foreign p.2 with
    | some E' => rw [hcl.single _ _ _ _ e2 (core_shows hents h2)]
    | none =>
      obtain ⟨h3, h4⟩ := core_hides hents h2 E e2.1
      exact absurd e2.2 (fun h => h.elim h3 h4)
  | none =>
    cases h2 : shown s prepends (fieldEntity fks prepends) k.foreign p.2 with
    | none => rfl
    | some E =>
      have e1 := (hcl.joined k hk p hp E).2 (core_shows hents h2)
      obtain ⟨h3, h4⟩ := core_hides hents h1 E e1.1
      exact absurd e1.2 (fun h => h.elim h3 h4)

/-- C34: for consistent data, with clear foreign keys and no more than 25 entity tables, `obfusimplify` returns. -/
theorem obfusimplify_returns (hs : SchemaOK s) (hdb : DBOK s db) (hk : ∀ k ∈ fks, FKOK s k ∧ ForeignDistinct k) (hn : fks.Nodup)
    (hclean : findFK s fks0 db none = some []) (hcons : Consistent s fks db) (hcl : Clear s fks skip)
    (htp : (PyDict.keys tp).Nodup) (hvals : (tp.map Prod.snd).Nodup)
    (hgiven : ∀ p ∈ tp, Entity s fks skip p.1 ∧ (∀ c ∈ p.2.toList, c ∈ uppercase) ∧ p.2.toList.getLast? ≠ some 'I')
    (hskip : ∀ t ∈ skip, Entity s fks [] t)
    (hiter : ∀ l : List String, (iter l).Perm l) (hsort : ∀ l l', sort l = some l' → l'.Perm l)
    (htotal : ∀ E, Entity s fks skip E → ∀ l, (∀ v ∈ l, KeyOf db E v) → ∃ l', sort l = some l')
    (hstr : ∀ a b, str a = str b → a = b)
    (hfew : ∀ l : List String, l.Nodup → (∀ E ∈ l, Entity s fks skip E) → l.length ≤ 25) :
    ∃ out, obfusimplify iter upper sort str s fks0 fks db tp skip = some out := by
  have hgiven' : ∀ p ∈ tp, p.1 ∈ (entityTables s fks).filter (fun t => decide (t ∉ skip)) ∧ goodPrepend p.2 = true := by
    intro p hp
    obtain ⟨h1, h2, h3⟩ := hgiven p hp
    refine ⟨(mem_entities _ _ _ _).2 h1, ?_⟩
    unfold goodPrepend
    simp only [Bool.and_eq_true, List.all_eq_true, decide_eq_true_eq]
    exact ⟨h2, h3⟩
  -- prefixes
  have hlen : tp.length + (iter (((entityTables s fks).filter (fun t => decide (t ∉ skip))).filter
      (fun t => decide (t ∉ PyDict.keys tp)))).length ≤ 25 := by
    have := hfew (PyDict.keys tp ++ iter (((entityTables s fks).filter (fun t => decide (t ∉ skip))).filter
      (fun t => decide (t ∉ PyDict.keys tp)))) ?_ ?_
    · simpa [PyDict.keys] using this
    · rw [List.nodup_append]
      refine ⟨htp, (hiter _).nodup_iff.2 (((entityTables_nodup hs).sublist List.filter_sublist).sublist List.filter_sublist), ?_⟩
      rintro a ha b hb rfl
      have := (List.mem_filter.1 ((hiter _).mem_iff.1 hb)).2
      simp only [decide_eq_true_eq] at this
      exact this ha
    · intro E hE
      rcases List.mem_append.1 hE with h | h
      · obtain ⟨p, hp, rfl⟩ := List.mem_map.1 h
        exact (hgiven p hp).1
      · exact (mem_entities _ _ _ _).1 (List.mem_filter.1 ((hiter _).mem_iff.1 h)).1
  obtain ⟨prepends, hprep⟩ := addPrepends_some upper _ tp hlen
  obtain ⟨hpo, hents⟩ := prepends_ok hs htp hiter hgiven' hvals hprep
  -- labels
  have hlab : ∃ rr, reverseRenamings sort db prepends = some rr := by
    unfold reverseRenamings
    obtain ⟨l, hl⟩ := mapM_some_of_forall (labelTable sort db) prepends (by
      intro p hp
      obtain ⟨l', hl'⟩ := htotal p.1 ((hents _).1 (List.mem_map.2 ⟨p, hp, rfl⟩)) (tableKeys db p.1) (fun v hv => mem_tableKeys.1 hv)
      simp [labelTable, hl'])
    rw [hl]
    exact ⟨_, rfl⟩
  obtain ⟨rr, hrr0⟩ := hlab
  have hrr := reverseRenamings_spec hsort hpo (fun t ht => tableOK_of_mem hs hdb ((hents t).1 ht).1) hrr0
  -- cells
  have hcell : ∀ t pk row f v, (pk, row) ∈ (db t).items → recOf (tableOf s t) pk row f = some v →
      ∃ w, fixCell str rr (fieldEntity fks prepends) t f v = some w := by
    intro t pk row f v hm hv
    unfold fixCell
    cases hg : PyDict.get? (fieldEntity fks prepends) (t, f) with
    | none => exact ⟨v, rfl⟩
    | some e =>
      obtain ⟨h1, h2⟩ := fieldEntity_some hg
      have hkey := refers_key hs hdb (fun k hk' => (hk k hk').1) hcons hcl ((hents e).1 h1) h2 hm hv
      have := (hrr.mem e v).2 ⟨h1, hkey⟩
      cases hl : PyDict.get? rr (e, v) with
      | none => exact absurd this ((PyDict.get?_eq_none _ _).1 hl)
      | some l => exact ⟨str l, by simp [hl]⟩
  have hzip : ∀ (fields : List String) (vals : List V) (r : Rec V), fields.Nodup → fields.length = vals.length →
      (∀ (i : Nat) f, fields[i]? = some f → r f = vals[i]?) → ∀ p ∈ fields.zip vals, r p.1 = some p.2 := by
    intro fields vals r _ _ h p hp
    obtain ⟨i, hi⟩ := List.mem_iff_getElem?.1 hp
    obtain ⟨h1, h2⟩ := List.getElem?_zip_eq_some.1 hi
    rw [h i _ h1, h2]
  have hnd := fun t => List.nodup_append.1 (hs.fields_nodup t)
  have hrowfix : ∀ t pk row, t ∈ PyDict.keys s → (pk, row) ∈ (db t).items →
      ∃ row', fixRow str rr (fieldEntity fks prepends) t (s.dfs t) row = some row' := by
    intro t pk row ht hm
    have hrow := rowOK_of_items (tableOK_of_mem hs hdb ht) hm
    apply fixRow_some
    intro p hp
    apply hcell t pk row p.1 p.2 hm
    refine hzip (s.dfs t) row _ (hnd t).2.1 hrow.2.1.symm ?_ p hp
    intro i f hf
    have hfm : f ∈ s.dfs t := List.mem_iff_getElem?.2 ⟨i, hf⟩
    rw [recOf_df hrow (fun hh => (hnd t).2.2 f hh f hfm rfl) hfm]
    have hi : (s.dfs t)[(s.dfs t).idxOf f]? = some f := by
      rw [List.getElem?_eq_getElem (List.idxOf_lt_length_iff.2 hfm)]; simp
    have := (List.getElem?_inj (List.idxOf_lt_length_iff.2 hfm) (hnd t).2.1).1 (hi.trans hf.symm)
    show row[(s.dfs t).idxOf f]? = row[i]?
    rw [this]
  have hkeyfix : ∀ t pk row, t ∈ PyDict.keys s → (pk, row) ∈ (db t).items →
      ∃ pk', fixKey str rr (fieldEntity fks prepends) t (s.pks t) pk = some pk' := by
    intro t pk row ht hm
    have hrow := rowOK_of_items (tableOK_of_mem hs hdb ht) hm
    have hpkrec : ∀ (i : Nat) f, (s.pks t)[i]? = some f → recOf (tableOf s t) pk row f = (keyVals pk)[i]? := by
      intro i f hf
      have hfm : f ∈ s.pks t := List.mem_iff_getElem?.2 ⟨i, hf⟩
      rw [recOf_pk hrow hfm]
      have hi : (s.pks t)[(s.pks t).idxOf f]? = some f := by
        rw [List.getElem?_eq_getElem (List.idxOf_lt_length_iff.2 hfm)]; simp
      have := (List.getElem?_inj (List.idxOf_lt_length_iff.2 hfm) (hnd t).1).1 (hi.trans hf.symm)
      show (keyVals pk)[(s.pks t).idxOf f]? = _
      rw [this]
    cases pk with
    | idx i => exact ⟨_, rfl⟩
    | one v =>
      obtain ⟨f, hf⟩ := List.length_eq_one_iff.1 (show (s.pks t).length = 1 from hrow.1.symm)
      have hv : recOf (tableOf s t) (.one v) row f = some v := hpkrec 0 f (by rw [hf]; rfl)
      obtain ⟨w, hw⟩ := hcell t _ row f v hm hv
      rw [hf]
      simp only [fixKey]
      unfold fixCell at hw
      cases hg : PyDict.get? (fieldEntity fks prepends) (t, f) with
      | none => exact ⟨_, rfl⟩
      | some e =>
        rw [hg] at hw
        simp only [Option.map_eq_some_iff] at hw
        obtain ⟨l, hl, _⟩ := hw
        exact ⟨.one (str l), by simp [hl]⟩
    | many vs =>
      simp only [fixKey]
      obtain ⟨vs', hv⟩ := fixRow_some str rr (fieldEntity fks prepends) t (fields := s.pks t) (vals := vs) (by
        intro p hp
        apply hcell t _ row p.1 p.2 hm
        exact hzip (s.pks t) vs _ (hnd t).1 hrow.1.symm hpkrec p hp)
      rw [hv]
      exact ⟨_, rfl⟩
  have htabs : ∃ tabs, (PyDict.keys s).mapM (fun t => (fixTable str rr (fieldEntity fks prepends) s t (db t)).map (fun d => (t, d))) = some tabs := by
    apply mapM_some_of_forall
    intro t ht
    rw [Option.isSome_map]
    have h1 := hrowfix t
    have h2 := hkeyfix t
    cases hd : db t with
    | dict rs =>
      rw [hd] at h1 h2
      simp only [fixTable]
      obtain ⟨l, hl⟩ := mapM_some_of_forall (fun p : PKey V × List V => (fixKey str rr (fieldEntity fks prepends) t (s.pks t) p.1).bind
          (fun k => (fixRow str rr (fieldEntity fks prepends) t (s.dfs t) p.2).map (fun r => (k, r)))) rs (by
        intro p hp
        obtain ⟨r', hr'⟩ := h1 p.1 p.2 ht hp
        obtain ⟨k', hk'⟩ := h2 p.1 p.2 ht hp
        simp [hr', hk'])
      rw [hl]
      rfl
    | list rs =>
      rw [hd] at h1
      simp only [fixTable]
      obtain ⟨l, hl⟩ := mapM_some_of_forall (fixRow str rr (fieldEntity fks prepends) t (s.dfs t)) rs (by
        intro r hr
        obtain ⟨i, hi⟩ := List.mem_iff_getElem?.1 hr
        obtain ⟨r', hr'⟩ := h1 (.idx i) r ht (List.mem_map.2 ⟨(r, i), List.mem_zipIdx_iff_getElem?.2 hi, rfl⟩)
        simp [hr'])
      rw [hl]
      rfl
  obtain ⟨tabs, htabs⟩ := htabs
  obtain ⟨hgood, hrows⟩ := core_rows hs hdb hstr hrr htabs
  -- foreign keys
  have hfine : findFK s fks (fun t => (PyDict.get? tabs t).getD (.list [])) none = some [] := by
    rw [findFK_clean_iff hs hgood (fun k hk' => (hk k hk').1) hn]
    intro k hkk x hx
    rw [failsEff_iff (hk k hkk).2]
    have hok := (hk k hkk).1
    obtain ⟨p, hp, hpq⟩ := pairwise2_right (hrows k.native hok.native_mem) (b := (x.1, recOf (tableOf s k.native) x.1 x.2))
      (by rw [rows_eq_items]; exact List.mem_map.2 ⟨x, hx, rfl⟩)
    have hnf := hcons k hkk p hp
    unfold Fails at hnf
    simp only [Classical.not_forall, Classical.not_not] at hnf
    obtain ⟨p', hp', hag⟩ := hnf
    obtain ⟨q', hq', hpq'⟩ := pairwise2_left (hrows k.foreign hok.foreign_mem) hp'
    intro hfail
    refine hfail q' hq' ?_
    intro a ha
    have h1 := hpq a.1 (hok.native_fields a ha)
    have h2 := hpq' a.2 (hok.foreign_fields a ha)
    rw [shown_joined hcl hents hkk ha] at h1
    have e := hag a ha
    cases hsh : shown s prepends (fieldEntity fks prepends) k.foreign a.2 with
    | none =>
      rw [hsh] at h1 h2
      exact h1.trans (e.trans h2.symm)
    | some E =>
      rw [hsh] at h1 h2
      obtain ⟨v, hv, _, hy⟩ := h1
      obtain ⟨v', hv', _, hy'⟩ := h2
      rw [hv, hv'] at e
      cases e
      exact hy.trans hy'.symm
  refine ⟨(tabs, _), obfusimplify_eq_some.2 ⟨prepends, rr, ⟨hclean, ?_, ?_, hgiven', hvals, hprep, hrr0, htabs, hfine⟩, rfl⟩⟩
  · intro t ht
    obtain ⟨p, hp, rfl⟩ := List.mem_map.1 ht
    exact (hgiven p hp).1.2.1
  · intro t ht
    exact (List.mem_filter.1 ((mem_entities s fks [] t).2 (hskip t ht))).1

end Total

section Raises
variable {iter : List String → List String} {upper : String → List Char} {sort : List V → Option (List V)}
    {str : String → V} {s : Schema} {fks0 fks : List FK} {db : DB V} {tp : PyDict String String} {skip : List String}

/-- With foreign keys to primary keys only, the primary key field of an entity shows this entity. -/
theorem own_field {db' : DB V} {ren : PyDict String (String × V)} {name : String → V → String} {ent : String → String → Option String}
    (ho : Obfuscates s fks skip str db db' ren name ent)
    (hsimple : ∀ k ∈ fks, Entity s fks skip k.foreign → ∀ p ∈ k.mapping, s.pks k.foreign = [p.2])
    {E f : String} (hE : Entity s fks skip E) (hf : s.pks E = [f]) : ent E f = some E := by
  cases h : ent E f with
  | none => exact absurd ⟨rfl, hf⟩ (ho.hides E f h E hE).2
  | some X =>
    obtain ⟨hX, hr⟩ := ho.shows E f X h
    rcases hr with ⟨k, hk, rfl, rfl, hm⟩ | ⟨rfl, _⟩
    · exfalso
      obtain ⟨_, _, f', hf', hno⟩ := hE
      rw [hf] at hf'
      cases hf'
      obtain ⟨p, hp, rfl⟩ := List.mem_map.1 hm
      have hpk := hsimple k hk hX p hp
      apply hno k hk rfl hm
      rw [hpk]
      exact ⟨by simp, fun q hq => by rw [List.mem_singleton] at hq; subst hq; exact List.mem_map.2 ⟨p, hp, rfl⟩⟩
    · rfl

/-- C34 fails: when a field refers to two entity tables and its table has a row, `obfusimplify` raises, however consistent
the data is. -/
theorem two_entities_raise (hs : SchemaOK s) (hdb : DBOK s db) (hk : ∀ k ∈ fks, FKOK s k ∧ ForeignDistinct k) (hn : fks.Nodup)
    (htp : (PyDict.keys tp).Nodup) (hiter : ∀ l : List String, (iter l).Perm l) (hsort : ∀ l l', sort l = some l' → l'.Perm l)
    (hstr : ∀ a b, str a = str b → a = b)
    (hsimple : ∀ k ∈ fks, Entity s fks skip k.foreign → ∀ p ∈ k.mapping, s.pks k.foreign = [p.2])
    {t f E E' : String} (hE : Entity s fks skip E) (hE' : Entity s fks skip E') (hne : E ≠ E') (hr : Refers fks t f E)
    (hr' : Refers fks t f E') (hrow : (db t).items ≠ []) :
    obfusimplify iter upper sort str s fks0 fks db tp skip = none := by
  cases h : obfusimplify iter upper sort str s fks0 fks db tp skip with
  | none => rfl
  | some out =>
    exfalso
    obtain ⟨tabs, ren⟩ := out
    obtain ⟨_, name, ent, ho⟩ := obfusimplify_renames hs hdb hk hn htp hiter hsort hstr h
    -- a row of the table
    have htk : t ∈ PyDict.keys s := by obtain ⟨k, hkk, rfl, _⟩ := hr; exact (hk k hkk).1.native_mem
    have hff : f ∈ s.pks t ++ s.dfs t := by
      obtain ⟨k, hkk, rfl, _, hm⟩ := hr
      obtain ⟨p, hp, rfl⟩ := List.mem_map.1 hm
      exact (hk k hkk).1.native_fields p hp
    obtain ⟨x, l, hx⟩ := List.exists_cons_of_ne_nil hrow
    obtain ⟨q, hq, hpq⟩ := pairwise2_left (ho.rows t htk) (a := (x.1, recOf (tableOf s t) x.1 x.2))
      (by rw [rows_eq_items, hx]; simp)
    have hcell := hpq f hff
    -- its new name is a key of both entities
    have key : ∀ F, Entity s fks skip F → Refers fks t f F → ent t f = some F := by
      intro F hF hrF
      cases he : ent t f with
      | none => exact absurd hrF (ho.hides t f he F hF).1
      | some X =>
        rw [he] at hcell
        obtain ⟨v, hv, hkey, hy⟩ := hcell
        obtain ⟨k, hkk, rfl, rfl, hm⟩ := hrF
        obtain ⟨p, hp, rfl⟩ := List.mem_map.1 hm
        have hnf := ho.consistent k hkk q hq
        unfold Fails at hnf
        simp only [Classical.not_forall, Classical.not_not] at hnf
        obtain ⟨q', hq', hag⟩ := hnf
        have hq2 := hag p hp
        rw [hy] at hq2
        obtain ⟨p', hp', hpq'⟩ := pairwise2_right (ho.rows k.foreign (hk k hkk).1.foreign_mem) hq'
        have hc' := hpq' p.2 ((hk k hkk).1.foreign_fields p hp)
        rw [own_field ho hsimple hF (hsimple k hkk hF p hp)] at hc'
        obtain ⟨v', hv', hkey', hy'⟩ := hc'
        rw [hy'] at hq2
        have := hstr _ _ (Option.some.inj hq2)
        rw [(ho.distinct _ _ _ _ (ho.shows _ _ _ he).1 hkey hF hkey' this).1]
    exact hne (Option.some.inj ((key E hE hr).symm.trans (key E' hE' hr')))

end Raises

/-! ### Examples -/

/-- Insertion sort of strings, for the examples. -/
def insStr (a : String) : List String → List String
  | [] => [a]
  | b :: l => if a < b then a :: b :: l else b :: insStr a l

def sortStr (l : List String) : Option (List String) := some (l.foldr insStr [])

theorem insStr_perm (a : String) (l : List String) : (insStr a l).Perm (a :: l) := by
  induction l with
  | nil => exact List.Perm.refl _
  | cons b l ih =>
    unfold insStr
    split
    · exact List.Perm.refl _
    · exact (ih.cons b).trans (List.Perm.swap a b l)

theorem sortStr_perm (l l' : List String) (h : sortStr l = some l') : l'.Perm l := by
  cases h
  induction l with
  | nil => exact List.Perm.refl _
  | cons a l ih => exact (insStr_perm a _).trans (ih.cons a)

def upStr (t : String) : List Char := t.toList.map Char.toUpper

/-- Customers, products, orders, preferred customers and notes. -/
def obSchema : Schema :=
  [("customers", ⟨["name"], ["town"]⟩), ("products", ⟨["name"], []⟩), ("orders", ⟨["customer", "product"], ["remark"]⟩),
   ("preferred", ⟨["customer"], []⟩), ("notes", ⟨[], ["customer", "text"]⟩)]

def obFKs : List FK :=
  [⟨"orders", "customers", [("customer", "name")]⟩, ⟨"orders", "products", [("product", "name")]⟩,
   ⟨"preferred", "customers", [("customer", "name")]⟩, ⟨"notes", "customers", [("customer", "name")]⟩]

def obDB : DB String := fun t =>
  if t = "customers" then .dict [(.one "Zoe", ["Paris"]), (.one "Ann", ["Rome"])]
  else if t = "products" then .dict [(.one "tea", []), (.one "Ann", [])]
  else if t = "orders" then .dict [(.many ["Ann", "tea"], ["Ann"]), (.many ["Zoe", "Ann"], ["soon"])]
  else if t = "preferred" then .dict [(.one "Zoe", [])]
  else .list [["Ann", "tea"], ["Ann", "Zoe"]]

instance {V : Type} [DecidableEq V] : DecidableEq (TableData V) := fun a b =>
  match a, b with
  | .dict x, .dict y => decidable_of_iff (id (α := List (PKey V × List V)) x = y) ⟨fun h => by rw [show x = y from h], fun h => by cases h; rfl⟩
  | .list x, .list y => decidable_of_iff (x = y) ⟨fun h => by rw [h], fun h => by cases h; rfl⟩
  | .dict _, .list _ => isFalse (by intro h; cases h)
  | .list _, .dict _ => isFalse (by intro h; cases h)

instance {V : Type} [DecidableEq V] : DecidableEq (PyDict String (TableData V) × PyDict String (String × V)) :=
  have : DecidableEq (PyDict String (TableData V)) := inferInstanceAs (DecidableEq (List (String × TableData V)))
  have : DecidableEq (PyDict String (String × V)) := inferInstanceAs (DecidableEq (List (String × (String × V))))
  inferInstance

/-- The fields that stand for entities, as a list. -/
def showsList (s : Schema) (fks : List FK) (skip : List String) : List (String × String × String) :=
  (fks.flatMap (fun k => k.mapping.map (fun p => (k.native, p.1, k.foreign))) ++
    (PyDict.keys s).flatMap (fun t => (s.pks t).map (fun f => (t, f, t)))).filter
      (fun x => decide (x.2.2 ∈ (entityTables s fks).filter (fun t => decide (t ∉ skip))))

theorem mem_showsList {s : Schema} {fks : List FK} {skip : List String} {t f E : String} :
    (t, f, E) ∈ showsList s fks skip ↔ Shows s fks skip t f E := by
  unfold showsList Shows
  rw [List.mem_filter, decide_eq_true_eq, mem_entities, List.mem_append, List.mem_flatMap, List.mem_flatMap, and_comm]
  constructor
  · rintro ⟨hE, h⟩
    refine ⟨hE, ?_⟩
    rcases h with ⟨k, hk, hm⟩ | ⟨t', ht', hm⟩
    · obtain ⟨p, hp, he⟩ := List.mem_map.1 hm
      cases he
      exact .inl ⟨k, hk, rfl, rfl, List.mem_map.2 ⟨p, hp, rfl⟩⟩
    · obtain ⟨g, hg, he⟩ := List.mem_map.1 hm
      cases he
      obtain ⟨_, _, g', hg', _⟩ := hE
      rw [hg', List.mem_singleton] at hg
      subst hg
      exact .inr ⟨rfl, hg'⟩
  · rintro ⟨hE, h⟩
    refine ⟨hE, ?_⟩
    rcases h with ⟨k, hk, rfl, rfl, hm⟩ | ⟨rfl, hf⟩
    · obtain ⟨p, hp, rfl⟩ := List.mem_map.1 hm
      exact .inl ⟨k, hk, List.mem_map.2 ⟨p, hp, rfl⟩⟩
    · exact .inr ⟨E, hE.1, List.mem_map.2 ⟨f, by rw [hf]; simp, rfl⟩⟩

/-- `Clear` is a finite check. -/
theorem clear_of {s : Schema} {fks : List FK} {skip : List String}
    (h1 : ∀ k ∈ fks, k.foreign ∈ (entityTables s fks).filter (fun t => decide (t ∉ skip)) → ∀ p ∈ k.mapping, s.pks k.foreign = [p.2])
    (h2 : ∀ a ∈ showsList s fks skip, ∀ b ∈ showsList s fks skip, a.1 = b.1 → a.2.1 = b.2.1 → a.2.2 = b.2.2)
    (h3 : ∀ k ∈ fks, ∀ p ∈ k.mapping, ∀ a ∈ showsList s fks skip,
      (a.1 = k.native ∧ a.2.1 = p.1 → (k.foreign, p.2, a.2.2) ∈ showsList s fks skip) ∧
      (a.1 = k.foreign ∧ a.2.1 = p.2 → (k.native, p.1, a.2.2) ∈ showsList s fks skip)) : Clear s fks skip where
  simple := fun k hk hE => h1 k hk ((mem_entities _ _ _ _).2 hE)
  single := fun t f E E' h h' => h2 (t, f, E) (mem_showsList.2 h) (t, f, E') (mem_showsList.2 h') rfl rfl
  joined := fun k hk p hp E =>
    ⟨fun h => mem_showsList.1 ((h3 k hk p hp _ (mem_showsList.2 h)).1 ⟨rfl, rfl⟩),
     fun h => mem_showsList.1 ((h3 k hk p hp _ (mem_showsList.2 h)).2 ⟨rfl, rfl⟩)⟩

/-- The customer Ann and the product Ann get different names, the remark Ann stays. -/
theorem obfusimplify_example : obfusimplify id upStr sortStr id obSchema obFKs obFKs obDB [("products", "P")] [] =
    some ([("customers", .dict [(.one "C2", ["Paris"]), (.one "C1", ["Rome"])]),
           ("products", .dict [(.one "P2", []), (.one "P1", [])]),
           ("orders", .dict [(.many ["C1", "P2"], ["Ann"]), (.many ["C2", "P1"], ["soon"])]),
           ("preferred", .dict [(.one "C2", [])]),
           ("notes", .list [["C1", "tea"], ["C1", "Zoe"]])],
          [("P1", ("products", "Ann")), ("P2", ("products", "tea")), ("C1", ("customers", "Ann")), ("C2", ("customers", "Zoe"))]) := by
  decide +kernel

theorem obSchema_ok : SchemaOK obSchema := by
  refine ⟨by decide, ?_⟩
  intro t
  by_cases h : t ∈ PyDict.keys obSchema
  · simp only [obSchema, PyDict.keys, List.map_cons, List.map_nil, List.mem_cons, List.not_mem_nil, or_false] at h
    rcases h with rfl | rfl | rfl | rfl | rfl <;> decide
  · rw [← PyDict.get?_eq_none] at h
    simp [Schema.pks, Schema.dfs, h]

theorem obDB_ok : DBOK obSchema obDB := by
  intro t ts h
  simp only [obSchema, List.mem_cons, Prod.mk.injEq, List.not_mem_nil, or_false] at h
  rcases h with ⟨rfl, rfl⟩ | ⟨rfl, rfl⟩ | ⟨rfl, rfl⟩ | ⟨rfl, rfl⟩ | ⟨rfl, rfl⟩ <;>
    simp [obDB, TableOK, KeyOK]

theorem obFKs_ok : ∀ k ∈ obFKs, FKOK obSchema k ∧ ForeignDistinct k := by
  intro k h
  simp only [obFKs, List.mem_cons, List.not_mem_nil, or_false] at h
  rcases h with rfl | rfl | rfl | rfl <;>
    exact ⟨⟨by decide, by decide, by decide, by decide, by decide, by decide⟩, by unfold ForeignDistinct; decide⟩

theorem obFKs_clear : Clear obSchema obFKs [] := clear_of (by decide +kernel) (by decide +kernel) (by decide +kernel)

instance {V : Type} [DecidableEq V] : DecidableEq (Option (PyDict FK (FKFailures V))) :=
  inferInstanceAs (DecidableEq (Option (List (FK × FKFailures V))))

/-- The example meets the hypotheses of `obfusimplify_returns` and of `obfusimplify_renames`. -/
example : ∃ out, obfusimplify id upStr sortStr id obSchema obFKs obFKs obDB [("products", "P")] [] = some out := by
  have hclean : findFK obSchema obFKs obDB none = some [] := by decide +kernel
  refine obfusimplify_returns obSchema_ok obDB_ok obFKs_ok (by decide) hclean
    (consistent_of_clean obSchema_ok obDB_ok obFKs_ok (by decide) hclean) obFKs_clear (by decide) (by decide) ?_ (by simp)
    (fun l => List.Perm.refl l) sortStr_perm (fun _ _ l _ => ⟨_, rfl⟩) (fun _ _ h => h) ?_
  · intro p hp
    simp only [List.mem_cons, List.not_mem_nil, or_false] at hp
    subst hp
    exact ⟨(mem_entities _ _ _ _).1 (by decide +kernel), by decide, by decide⟩
  · intro l hn hl
    exact Nat.le_trans (nodup_length_le l (entityTables obSchema obFKs) hn
      (fun E hE => (List.mem_filter.1 ((mem_entities _ _ _ _).2 (hl E hE))).1)) (by decide +kernel)

example : ∃ db' ren name ent, Obfuscates obSchema obFKs [] id obDB db' ren name ent :=
  have ⟨name, ent, h⟩ := (obfusimplify_renames obSchema_ok obDB_ok obFKs_ok (by decide) (by decide) (fun l => List.Perm.refl l)
    sortStr_perm (fun _ _ h => h) obfusimplify_example).2
  ⟨_, _, name, ent, h⟩

/-! ### Calls that raise -/

/-- Sites may be plants or warehouses; a lane starts at a site that is both. -/
def siteSchema : Schema := [("plants", ⟨["name"], []⟩), ("warehouses", ⟨["name"], []⟩), ("lanes", ⟨["site", "n"], []⟩)]

def siteFKs : List FK := [⟨"lanes", "plants", [("site", "name")]⟩, ⟨"lanes", "warehouses", [("site", "name")]⟩]

def siteDB : DB String := fun t =>
  if t = "lanes" then .dict [(.many ["Oslo", "1"], [])] else .dict [(.one "Oslo", []), (.one "Rome", [])]

theorem siteSchema_ok : SchemaOK siteSchema := by
  refine ⟨by decide, ?_⟩
  intro t
  by_cases h : t ∈ PyDict.keys siteSchema
  · simp only [siteSchema, PyDict.keys, List.map_cons, List.map_nil, List.mem_cons, List.not_mem_nil, or_false] at h
    rcases h with rfl | rfl | rfl <;> decide
  · rw [← PyDict.get?_eq_none] at h
    simp [Schema.pks, Schema.dfs, h]

theorem siteDB_ok : DBOK siteSchema siteDB := by
  intro t ts h
  simp only [siteSchema, List.mem_cons, Prod.mk.injEq, List.not_mem_nil, or_false] at h
  rcases h with ⟨rfl, rfl⟩ | ⟨rfl, rfl⟩ | ⟨rfl, rfl⟩ <;>
    simp [siteDB, TableOK, KeyOK]

theorem siteFKs_ok : ∀ k ∈ siteFKs, FKOK siteSchema k ∧ ForeignDistinct k := by
  intro k h
  simp only [siteFKs, List.mem_cons, List.not_mem_nil, or_false] at h
  rcases h with rfl | rfl <;>
    exact ⟨⟨by decide, by decide, by decide, by decide, by decide, by decide⟩, by unfold ForeignDistinct; decide⟩

/-- **Finding.**  The data is consistent, and `obfusimplify` raises. -/
theorem two_entities_example : findFK siteSchema siteFKs siteDB none = some [] ∧
    obfusimplify id upStr sortStr id siteSchema siteFKs siteFKs siteDB [] [] = none :=
  ⟨by decide +kernel, two_entities_raise siteSchema_ok siteDB_ok siteFKs_ok (by decide) (by decide) (fun l => List.Perm.refl l)
    sortStr_perm (fun _ _ h => h) (fun k hk _ => (by decide : ∀ k ∈ siteFKs, ∀ p ∈ k.mapping, siteSchema.pks k.foreign = [p.2]) k hk)
    (t := "lanes") (f := "site") (E := "plants") (E' := "warehouses")
    ((mem_entities _ _ _ _).1 (by decide +kernel)) ((mem_entities _ _ _ _).1 (by decide +kernel)) (by decide)
    ⟨⟨"lanes", "plants", [("site", "name")]⟩, by decide, rfl, rfl, by decide⟩
    ⟨⟨"lanes", "warehouses", [("site", "name")]⟩, by decide, rfl, rfl, by decide⟩ (by decide +kernel)⟩

/-- **Finding.**  Skipping one of the two tables does not help. -/
theorem skipped_entity_raises :
    obfusimplify id upStr sortStr id siteSchema siteFKs siteFKs siteDB [] ["plants"] = none := by
  rw [← Option.isNone_iff_eq_none]; decide +kernel

/-- **Finding.**  A foreign key to an entity table that also maps a data field raises a `KeyError`. -/
theorem data_field_key_raises :
    let s : Schema := [("people", ⟨["name"], ["town"]⟩), ("visits", ⟨["name", "day"], ["town"]⟩)]
    let k : FK := ⟨"visits", "people", [("name", "name"), ("town", "town")]⟩
    let db : DB String := fun t => if t = "people" then .dict [(.one "Ann", ["Rome"])] else .dict [(.many ["Ann", "1"], ["Rome"])]
    findFK s [k] db none = some [] ∧ obfusimplify id upStr sortStr id s [k] [k] db [] [] = none := by
  refine ⟨by decide +kernel, ?_⟩
  rw [← Option.isNone_iff_eq_none]; decide +kernel

/-- Empty tables `t0, t1, ...` without foreign keys. -/
def manyTables (n : Nat) : Schema := (List.range n).map (fun i => ("t" ++ toString i, ⟨["name"], []⟩))

/-- **Finding.**  26 such tables can be obfuscated, and 27 raise: the generator of prefixes breaks down. -/
theorem many_tables_raise :
    (obfusimplify id upStr sortStr (id : String → String) (manyTables 26) [] [] (fun _ => .dict []) [] []).isSome = true ∧
      obfusimplify id upStr sortStr (id : String → String) (manyTables 27) [] [] (fun _ => .dict []) [] [] = none := by
  refine ⟨by decide +kernel, ?_⟩
  rw [← Option.isNone_iff_eq_none]; decide +kernel

end Ticdat

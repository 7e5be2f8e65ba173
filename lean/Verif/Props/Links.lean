import Verif.Lemmas.Links
/-!
# C55: foreign key links contain exactly the referring rows
-/
set_option linter.unusedSectionVars false
set_option linter.unusedSimpArgs false
namespace Ticdat
open Spec
variable {V : Type} [DecidableEq V]

theorem linkRow_fold_one {s : Schema} {k : FK} {name : String} {posn : List Nat} {ft : PyDict (PKey V) (List V)}
    (hcard : cardinality s k = "one-to-one") (hmeth : name ∉ rowMethods s k.foreign)
    (look : PKey V × List V → PKey V) (l : List (PKey V × List V))
    (hl : ∀ p ∈ l, linkLookup posn p.1 p.2 = some (look p))
    (hinj : l.Pairwise (fun p p' => PyDict.has ft (look p) = true → look p ≠ look p')) (acc : Links V)
    (hfresh : ∀ p ∈ l, PyDict.has ft (look p) = true → PyDict.get? acc (k.foreign, look p, name) = none) :
    ∃ acc', l.foldlM (linkRow s k name posn ft) acc = some acc' ∧
      ∀ key v, PyDict.get? acc' key = some v ↔ PyDict.get? acc key = some v ∨
        ∃ p ∈ l, PyDict.has ft (look p) = true ∧ key = (k.foreign, look p, name) ∧ v = .row (k.native, p.1) := by
  induction l generalizing acc with
  | nil => exact ⟨acc, rfl, by simp⟩
  | cons p l ih =>
    obtain ⟨hp1, hp2⟩ := List.pairwise_cons.1 hinj
    have hlp := hl p List.mem_cons_self
    cases hft : PyDict.get? ft (look p) with
    | none =>
      have hh : PyDict.has ft (look p) = false := by simp [PyDict.has, hft]
      obtain ⟨acc', h1, h2⟩ := ih (fun q hq => hl q (List.mem_cons_of_mem _ hq)) hp2 acc
        (fun q hq => hfresh q (List.mem_cons_of_mem _ hq))
      refine ⟨acc', ?_, ?_⟩
      · simp only [List.foldlM_cons, linkRow, hlp, hft, Option.bind_eq_bind, Option.bind_some]
        exact h1
      · intro key v
        rw [h2]
        simp [hh]
    | some fr =>
      have hh : PyDict.has ft (look p) = true := by simp [PyDict.has, hft]
      have hf := hfresh p List.mem_cons_self hh
      have hno : PyDict.has acc (k.foreign, look p, name) = false := by simp [PyDict.has, hf]
      obtain ⟨acc', h1, h2⟩ := ih (fun q hq => hl q (List.mem_cons_of_mem _ hq)) hp2
        (PyDict.set acc (k.foreign, look p, name) (.row (k.native, p.1))) (by
          intro q hq hqf
          rw [PyDict.get?_set, if_neg]
          · exact hfresh q (List.mem_cons_of_mem _ hq) hqf
          · intro e
            simp only [Prod.mk.injEq, true_and, and_true] at e
            exact hp1 q hq hh (by first | exact e | exact e.symm))
      refine ⟨acc', ?_, ?_⟩
      · simp only [List.foldlM_cons, linkRow, hlp, hft, hcard, if_true, hno, Bool.false_or, hmeth, decide_false,
          Option.bind_eq_bind, Option.bind_some, Bool.false_eq_true, if_false]
        exact h1
      · intro key v
        rw [h2, PyDict.get?_set]
        by_cases hkey : key = (k.foreign, look p, name)
        · subst hkey
          simp only [if_true, hf]
          constructor
          · rintro (h | ⟨q, hq, h3, h4, h5⟩)
            · right; exact ⟨p, List.mem_cons_self, hh, rfl, by simpa using h.symm⟩
            · right; exact ⟨q, List.mem_cons_of_mem _ hq, h3, h4, h5⟩
          · rintro (h | ⟨q, hq, h3, h4, h5⟩)
            · simp at h
            · rcases List.mem_cons.1 hq with rfl | hq
              · left; simp [h5]
              · right; exact ⟨q, hq, h3, h4, h5⟩
        · rw [if_neg (by first | exact hkey | exact fun e => hkey e.symm)]
          constructor
          · rintro (h | ⟨q, hq, h3⟩)
            · exact Or.inl h
            · exact Or.inr ⟨q, List.mem_cons_of_mem _ hq, h3⟩
          · rintro (h | ⟨q, hq, h3, h4, h5⟩)
            · exact Or.inl h
            · rcases List.mem_cons.1 hq with rfl | hq
              · exact absurd h4 hkey
              · exact Or.inr ⟨q, hq, h3, h4, h5⟩

theorem linkRow_fold_many {s : Schema} {k : FK} {name : String} {posn : List Nat} {ft : PyDict (PKey V) (List V)}
    (hcard : cardinality s k ≠ "one-to-one") (n : Nat)
    (look : PKey V × List V → PKey V) (l : List (PKey V × List V))
    (hl : ∀ p ∈ l, linkLookup posn p.1 p.2 = some (look p) ∧ linkKeyFits n (linkKey posn p.1 p.2) = true)
    (acc : Links V)
    (hacc : ∀ q, PyDict.has ft q = true → ∃ t, PyDict.get? acc (k.foreign, q, name) = some (.table n t)) :
    ∃ acc', l.foldlM (linkRow s k name posn ft) acc = some acc' ∧
      (∀ key, (∀ q, PyDict.has ft q = true → key ≠ (k.foreign, q, name)) →
        PyDict.get? acc' key = PyDict.get? acc key) ∧
      ∀ q t, PyDict.has ft q = true → PyDict.get? acc (k.foreign, q, name) = some (.table n t) →
        PyDict.get? acc' (k.foreign, q, name) = some (.table n
          ((l.filter (fun p => decide (look p = q))).foldl
            (fun t p => PyDict.set t (linkKey posn p.1 p.2) (k.native, p.1)) t)) := by
  induction l generalizing acc with
  | nil => exact ⟨acc, rfl, fun _ _ => rfl, fun q t _ h => h⟩
  | cons p l ih =>
    obtain ⟨hlp, hfit⟩ := hl p List.mem_cons_self
    cases hft : PyDict.get? ft (look p) with
    | none =>
      have hh : PyDict.has ft (look p) = false := by simp [PyDict.has, hft]
      obtain ⟨acc', h1, h2, h3⟩ := ih (fun q hq => hl q (List.mem_cons_of_mem _ hq)) acc hacc
      refine ⟨acc', ?_, h2, ?_⟩
      · simp only [List.foldlM_cons, linkRow, hlp, hft, Option.bind_eq_bind, Option.bind_some]
        exact h1
      · intro q t hq ht
        have hne : look p ≠ q := by rintro rfl; rw [hh] at hq; exact absurd hq (by simp)
        rw [h3 q t hq ht]
        simp [List.filter_cons, hne]
    | some fr =>
      have hh : PyDict.has ft (look p) = true := by simp [PyDict.has, hft]
      obtain ⟨t0, ht0⟩ := hacc _ hh
      obtain ⟨acc', h1, h2, h3⟩ := ih (fun q hq => hl q (List.mem_cons_of_mem _ hq))
        (PyDict.set acc (k.foreign, look p, name)
          (.table n (PyDict.set t0 (linkKey posn p.1 p.2) (k.native, p.1)))) (by
          intro q hq
          rw [PyDict.get?_set]
          split
          · exact ⟨_, rfl⟩
          · exact hacc q hq)
      refine ⟨acc', ?_, ?_, ?_⟩
      · simp only [List.foldlM_cons, linkRow, hlp, hft, hcard, if_false, ht0, hfit, if_true,
          Option.bind_eq_bind, Option.bind_some]
        exact h1
      · intro key hkey
        rw [h2 key hkey, PyDict.get?_set, if_neg]
        intro e
        exact hkey _ hh (by first | exact e | exact e.symm)
      · intro q t hq ht
        by_cases hpq : look p = q
        · subst hpq
          have : t0 = t := by rw [ht0] at ht; simpa using ht
          subst this
          rw [h3 (look p) (PyDict.set t0 (linkKey posn p.1 p.2) (k.native, p.1)) hh (by rw [PyDict.get?_set, if_pos rfl])]
          simp [List.filter_cons]
        · rw [h3 q t hq (by
            rw [PyDict.get?_set, if_neg]
            · exact ht
            · intro e
              simp only [Prod.mk.injEq, true_and, and_true] at e
              exact hpq (by first | exact e | exact e.symm))]
          simp [List.filter_cons, hpq]

theorem emptyTables {ft : PyDict (PKey V) (List V)} {foreign name : String} {n : Nat} (acc : Links V)
    (key : String × PKey V × String) :
    PyDict.get? (ft.foldl (fun a p => PyDict.set a (foreign, p.1, name) (.table n [])) acc) key =
      if key.1 = foreign ∧ key.2.2 = name ∧ PyDict.has ft key.2.1 = true then some (.table n [])
      else PyDict.get? acc key := by
  induction ft generalizing acc with
  | nil => simp [PyDict.has]
  | cons p ft ih =>
    obtain ⟨q, r⟩ := p
    obtain ⟨a, b, c⟩ := key
    rw [List.foldl_cons, ih, PyDict.get?_set]
    have hhas : PyDict.has ((q, r) :: ft) b = (decide (q = b) || PyDict.has ft b) := by
      unfold PyDict.has
      simp only [PyDict.get?]
      by_cases h : q = b <;> simp [h]
    simp only [hhas, Prod.mk.injEq, Bool.or_eq_true, decide_eq_true_eq]
    by_cases h1 : a = foreign <;> by_cases h2 : c = name <;> by_cases h3 : q = b <;>
      by_cases h4 : PyDict.has ft b = true <;> simp [h1, h2, h3, h4, eq_comm] <;>
      (first
        | done
        | (intro h; exact absurd h.symm (by assumption))
        | (intro h; exact absurd h (by assumption))
        | (rintro h h'; exact absurd h' (by assumption))
        | (rintro rfl; simp_all)
        | skip)

/-- Two native rows that refer to the same foreign row and have the same remaining key are the same row. -/
theorem referring_unique {s : Schema} (hs : SchemaOK s) {k : FK} (hne : s.pks k.native ≠ [])
    {pk pk' : PKey V} {row row' : List V}
    (hr : RowOK (tableOf s k.native) pk row) (hr' : RowOK (tableOf s k.native) pk' row') {r : Rec V}
    (ha : Agrees k.mapping (recOf (tableOf s k.native) pk row) r)
    (ha' : Agrees k.mapping (recOf (tableOf s k.native) pk' row') r)
    (hu : ∀ f ∈ unmapped s k, recOf (tableOf s k.native) pk row f = recOf (tableOf s k.native) pk' row' f) :
    pk = pk' := by
  have hn : (tableOf s k.native).pks.Nodup := (List.nodup_append.1 (hs.fields_nodup k.native)).1
  have h1 := map_recOf_pks hr hn
  have h2 := map_recOf_pks hr' hn
  have h3 : (tableOf s k.native).pks.map (recOf (tableOf s k.native) pk row) =
      (tableOf s k.native).pks.map (recOf (tableOf s k.native) pk' row') := by
    apply List.map_congr_left
    intro f hf
    by_cases hm : f ∈ k.mapping.map Prod.fst
    · obtain ⟨p, hp, rfl⟩ := List.mem_map.1 hm
      rw [ha p hp, ha' p hp]
    · exact hu f (by
        unfold unmapped
        rw [List.mem_filter]
        exact ⟨hf, by simp only [hm, decide_false, Bool.not_false]⟩)
  have h4 : keyVals pk = keyVals pk' := map_some_inj (h1.symm.trans (h3.trans h2))
  rw [← oneOrTuple_keyVals (rowOK_keyOK hr hne), ← oneOrTuple_keyVals (rowOK_keyOK hr' hne), h4]

theorem oneToOne_iff (s : Schema) (k : FK) : OneToOne s k ↔ unmapped s k = [] := by
  unfold OneToOne unmapped
  rw [List.filter_eq_nil_iff]
  constructor
  · intro h f hf; simpa using h f hf
  · intro h f hf; simpa using h f hf

theorem linkPk_eq (s : Schema) (k : FK) : linkPk s k = unmapped s k := by
  unfold linkPk unmapped
  apply List.filter_congr
  intro f _
  by_cases h : f ∈ k.mapping.map Prod.fst <;> simp only [h, not_true, not_false_iff, decide_true, decide_false, Bool.not_true, Bool.not_false]

/-- The loop body for one foreign key. -/
theorem linkFK_spec {s : Schema} (hs : SchemaOK s) {db : DB V} (hdb : DBOK s db) {gens generics : List String}
    {k : FK} (hk : FKOK s k) (hfd : ForeignDistinct k) (hsim : Simple s k) {name : String}
    (hmeth : name ∈ rowMethods s k.foreign → name ∈ reserved) (hgen : name ∉ generics) (acc : Links V)
    (hfresh : ∀ q, PyDict.get? acc (k.foreign, q, name) = none) :
    ∃ acc', linkFK s gens generics name db acc k = some acc' ∧
      (∀ t q n, (t ≠ k.foreign ∨ n ≠ name) → PyDict.get? acc' (t, q, n) = PyDict.get? acc (t, q, n)) ∧
      (Linkable s gens k → name ∉ reserved → LinksRight s db k name acc') ∧
      (∀ q l, PyDict.get? acc' (k.foreign, q, name) = some l → Linkable s gens k ∧ name ∉ reserved ∧
        ∃ r', (q, r') ∈ rows (tableOf s k.foreign) (db k.foreign)) := by
  have hlk : (canLink s gens k.native && canLink s gens k.foreign && decide (name ∉ ["keys", "items", "values"])) = true
      ↔ Linkable s gens k ∧ name ∉ reserved := by
    simp only [canLink, Linkable, reserved, Bool.and_eq_true, decide_eq_true_eq]
  unfold linkFK
  by_cases hc : Linkable s gens k ∧ name ∉ reserved
  · rw [if_pos (hlk.2 hc)]
    obtain ⟨⟨⟨_, hnp⟩, ⟨_, hfp⟩⟩, hres⟩ := hc
    have hmeth' : name ∉ rowMethods s k.foreign := fun h => hres (hmeth h)
    have htab : ∀ t, t ∈ PyDict.keys s → TableOK (tableOf s t) (db t) := by
      intro t ht
      obtain ⟨⟨t', ts⟩, hm, rfl⟩ := List.mem_map.1 ht
      have h1 := hdb t' ts hm
      have h2 : PyDict.get? s t' = some ts := PyDict.get?_of_mem hs.tables_nodup hm
      have h3 : tableOf s t' = ts := by
        cases ts
        simp [tableOf, Schema.pks, Schema.dfs, h2]
      rw [h3]; exact h1
    have hN := htab _ hk.native_mem
    have hF := htab _ hk.foreign_mem
    cases hdf : db k.foreign with
    | list rs => rw [hdf] at hF; exact absurd hF.1 hfp
    | dict ft =>
      cases hdn : db k.native with
      | list rs => rw [hdn] at hN; exact absurd hN.1 hnp
      | dict nt =>
        rw [hdf] at hF
        rw [hdn] at hN
        have hNr : ∀ p ∈ nt, RowOK (tableOf s k.native) p.1 p.2 := fun p hp => rowOK_of_items hN hp
        have hFr : ∀ p ∈ ft, RowOK (tableOf s k.foreign) p.1 p.2 := fun p hp => rowOK_of_items hF hp
        have hFk : (PyDict.keys ft).Nodup := hF.2.1
        have hNk : (nt.map Prod.fst).Nodup := hN.2.1
        have hlook : ∀ p : PKey V × List V, ∃ q : PKey V, p ∈ nt → linkLookup (posnOf s k) p.1 p.2 = some q ∧
            (∀ fr ∈ ft, q = fr.1 ↔ Agrees k.mapping (recOf (tableOf s k.native) p.1 p.2)
              (recOf (tableOf s k.foreign) fr.1 fr.2)) := by
          intro p
          by_cases hp : p ∈ nt
          · obtain ⟨look, h1, h2⟩ := linkLookup_eq hk hfd hsim (hNr p hp)
            exact ⟨oneOrTuple look, fun _ => ⟨h1, fun fr hfr => look_iff hs hfd hsim hfp h2 (hFr fr hfr)⟩⟩
          · exact ⟨p.1, fun h => absurd h hp⟩
        obtain ⟨look, hlook⟩ := Classical.axiomOfChoice hlook
        have hhas : ∀ q, PyDict.has ft q = true ↔ ∃ fr ∈ ft, fr.1 = q := by
          intro q; rw [PyDict.has_iff]; simp only [PyDict.keys, List.mem_map]
        have hrowsF : ∀ q r', (q, r') ∈ rows (tableOf s k.foreign) (.dict ft) ↔
            ∃ fr ∈ ft, fr.1 = q ∧ recOf (tableOf s k.foreign) fr.1 fr.2 = r' := by
          intro q r'; simp only [rows, List.mem_map, Prod.mk.injEq]
        have hrowsN : ∀ q r', (q, r') ∈ rows (tableOf s k.native) (.dict nt) ↔
            ∃ p ∈ nt, p.1 = q ∧ recOf (tableOf s k.native) p.1 p.2 = r' := by
          intro q r'; simp only [rows, List.mem_map, Prod.mk.injEq]
        have huniq : ∀ p ∈ nt, ∀ p' ∈ nt, PyDict.has ft (look p) = true → look p = look p' →
            (∀ f ∈ unmapped s k, recOf (tableOf s k.native) p.1 p.2 f = recOf (tableOf s k.native) p'.1 p'.2 f) →
            p.1 = p'.1 := by
          intro p hp p' hp' hh he hu
          obtain ⟨fr, hfr, hq⟩ := (hhas _).1 hh
          exact referring_unique hs hnp (hNr p hp) (hNr p' hp')
            (((hlook p hp).2 fr hfr).1 hq.symm) (((hlook p' hp').2 fr hfr).1 (he ▸ hq.symm)) hu
        have hnp' : nt.Pairwise (fun p p' => p.1 ≠ p'.1) := List.pairwise_map.1 hNk
        have hpair : ∀ (R : PKey V × List V → PKey V × List V → Prop),
            (∀ p ∈ nt, ∀ p' ∈ nt, p.1 ≠ p'.1 → R p p') → nt.Pairwise R := by
          intro R hR
          exact List.Pairwise.imp_of_mem (fun {a b} ha hb hab => hR a ha b hb hab) hnp'
        simp only [localPosn_eq hk hfd hsim, Option.bind_eq_bind, Option.bind_some]
        have hone := cardinality_one s k hnp hfp hsim
        by_cases hcard : cardinality s k = "one-to-one"
        · have ho := hone.1 hcard
          simp only [hcard, if_true, Option.bind_some]
          obtain ⟨acc', h1, h2⟩ := linkRow_fold_one (name := name) (posn := posnOf s k) (ft := ft) hcard hmeth' look nt
            (fun p hp => (hlook p hp).1)
            (hpair _ (fun p hp p' hp' hne hh he => hne (huniq p hp p' hp' hh he (by
              rw [(oneToOne_iff s k).1 ho]; simp)))) acc (fun p _ _ => hfresh _)
          refine ⟨acc', h1, ?_, ?_, ?_⟩
          · intro t q n htn
            apply Option.ext
            intro v
            rw [h2]
            constructor
            · rintro (h | ⟨p, _, _, he, _⟩)
              · exact h
              · simp only [Prod.mk.injEq] at he
                rcases htn with h | h
                · exact absurd he.1 h
                · exact absurd he.2.2 h
            · exact Or.inl
          · intro _ _ q r' hq
            rw [hdf] at hq
            obtain ⟨fr, hfr, rfl, rfl⟩ := (hrowsF q r').1 hq
            refine ⟨fun _ l => ?_, fun hno => absurd ho hno⟩
            rw [h2, hfresh]
            simp only [reduceCtorEq, false_or, Referring, hdn, hrowsN]
            constructor
            · rintro ⟨p, hp, hh, he, rfl⟩
              simp only [Prod.mk.injEq, true_and, and_true] at he
              exact ⟨p.1, _, ⟨⟨p, hp, rfl, rfl⟩, ((hlook p hp).2 fr hfr).1 he.symm⟩, rfl⟩
            · rintro ⟨pk, r, ⟨⟨p, hp, rfl, rfl⟩, ha⟩, rfl⟩
              have he := ((hlook p hp).2 fr hfr).2 ha
              exact ⟨p, hp, (hhas _).2 ⟨fr, hfr, he.symm⟩, by rw [he], rfl⟩
          · intro q l hl
            rcases (h2 _ _).1 hl with h | ⟨p, hp, hh, he, _⟩
            · rw [hfresh] at h; simp at h
            · simp only [Prod.mk.injEq, true_and, and_true] at he
              obtain ⟨fr, hfr, hq⟩ := (hhas _).1 hh
              refine ⟨⟨⟨?_, hnp⟩, ⟨?_, hfp⟩⟩, hres, _, (hrowsF q _).2 ⟨fr, hfr, hq.trans he.symm, rfl⟩⟩ <;>
                assumption
        · have ho : ¬ OneToOne s k := fun h => hcard (hone.2 h)
          have hun : unmapped s k ≠ [] := fun h => ho ((oneToOne_iff s k).2 h)
          simp only [hcard, if_false, hgen, Option.bind_some, linkPk_eq]
          obtain ⟨acc', h1, h2, h3⟩ := linkRow_fold_many (name := name) (posn := posnOf s k) (ft := ft) hcard
            (unmapped s k).length look nt
            (fun p hp => ⟨(hlook p hp).1, linkKeyFits_of (linkKey_keyOf hs hk hfd hsim hun (hNr p hp)).1⟩)
            (ft.foldl (fun a p => PyDict.set a (k.foreign, p.1, name) (.table (unmapped s k).length [])) acc)
            (fun q hq => ⟨[], by rw [emptyTables]; simp [hq]⟩)
          have hempty : ∀ key, PyDict.get? (ft.foldl (fun a p => PyDict.set a (k.foreign, p.1, name)
              (.table (unmapped s k).length [])) acc) key = if key.1 = k.foreign ∧ key.2.2 = name ∧
                PyDict.has ft key.2.1 = true then some (.table (unmapped s k).length [])
                else PyDict.get? acc key := emptyTables acc
          refine ⟨acc', h1, ?_, ?_, ?_⟩
          · intro t q n htn
            rw [h2, hempty, if_neg]
            · rintro ⟨ha, hb, _⟩
              rcases htn with h | h
              · exact h ha
              · exact h hb
            · intro q' _ he
              simp only [Prod.mk.injEq] at he
              rcases htn with h | h
              · exact h he.1
              · exact h he.2.2
          · intro _ _ q r' hq
            rw [hdf] at hq
            obtain ⟨fr, hfr, rfl, rfl⟩ := (hrowsF q r').1 hq
            have hh : PyDict.has ft fr.1 = true := (hhas _).2 ⟨fr, hfr, rfl⟩
            refine ⟨fun hc => absurd hc ho, fun _ => ?_⟩
            have h4 := h3 fr.1 [] hh (by rw [hempty]; simp [hh])
            have h5 : ((nt.filter (fun p => decide (look p = fr.1))).foldl
                (fun t p => PyDict.set t (linkKey (posnOf s k) p.1 p.2) (k.native, p.1)) []) =
                PyDict.ofList ((nt.filter (fun p => decide (look p = fr.1))).map
                  (fun p => (linkKey (posnOf s k) p.1 p.2, (k.native, p.1)))) := by
              unfold PyDict.ofList
              rw [List.foldl_map]
            have hkn : (PyDict.keys ((nt.filter (fun p => decide (look p = fr.1))).map
                  (fun p => (linkKey (posnOf s k) p.1 p.2, (k.native, p.1))))).Nodup := by
              unfold PyDict.keys
              rw [List.map_map]
              unfold List.Nodup
              rw [List.pairwise_map]
              apply List.Pairwise.imp_of_mem (R := fun (p p' : PKey V × List V) => p.1 ≠ p'.1)
              · intro a b ha hb hab he
                obtain ⟨ha1, ha2⟩ := List.mem_filter.1 ha
                obtain ⟨hb1, hb2⟩ := List.mem_filter.1 hb
                have ha3 : look a = fr.1 := by simpa using ha2
                have hb3 : look b = fr.1 := by simpa using hb2
                refine hab (huniq a ha1 b hb1 (by rw [ha3]; exact hh) (ha3.trans hb3.symm) ?_)
                have hka := (linkKey_keyOf hs hk hfd hsim hun (hNr a ha1)).2
                have hkb := (linkKey_keyOf hs hk hfd hsim hun (hNr b hb1)).2
                have he' : linkKey (posnOf s k) a.1 a.2 = linkKey (posnOf s k) b.1 b.2 := he
                rw [he'] at hka
                exact List.map_inj_left.1 (hka.symm.trans hkb)
              · exact List.Pairwise.filter _ hnp'
            rw [h5, PyDict.ofList_of_nodup _ hkn] at h4
            refine ⟨_, h4, hkn, ?_⟩
            intro key ref
            rw [PyDict.get?_iff_mem hkn]
            simp only [List.mem_map, List.mem_filter, decide_eq_true_eq, Prod.mk.injEq, Referring, hdn, hrowsN]
            constructor
            · rintro ⟨p, ⟨hp, he⟩, rfl, rfl⟩
              exact ⟨p.1, _, ⟨⟨p, hp, rfl, rfl⟩, ((hlook p hp).2 fr hfr).1 he⟩,
                linkKey_keyOf hs hk hfd hsim hun (hNr p hp), rfl⟩
            · rintro ⟨pk, r, ⟨⟨p, hp, rfl, rfl⟩, ha⟩, hkey, rfl⟩
              exact ⟨p, ⟨hp, ((hlook p hp).2 fr hfr).2 ha⟩,
                keyOf_unique (linkKey_keyOf hs hk hfd hsim hun (hNr p hp)) hkey, rfl⟩
          · intro q l hl
            have hin : PyDict.has ft q = true := by
              apply Decidable.byContradiction
              intro hno
              rw [h2, hempty, if_neg (fun hc => hno hc.2.2), hfresh] at hl
              · simp at hl
              · intro q' hq' he
                simp only [Prod.mk.injEq, true_and, and_true] at he
                exact hno (he ▸ hq')
            obtain ⟨fr, hfr, hq⟩ := (hhas _).1 hin
            refine ⟨⟨⟨?_, hnp⟩, ⟨?_, hfp⟩⟩, hres, _, (hrowsF q _).2 ⟨fr, hfr, hq, rfl⟩⟩ <;> assumption
  · rw [if_neg (fun h => hc (hlk.1 h))]
    refine ⟨acc, rfl, fun _ _ _ _ => rfl, fun h1 h2 => absurd ⟨h1, h2⟩ hc, ?_⟩
    intro q l hl
    rw [hfresh] at hl
    simp at hl

theorem linksRight_congr {s : Schema} {db : DB V} {k : FK} {name : String} {a b : Links V}
    (h : ∀ q, PyDict.get? a (k.foreign, q, name) = PyDict.get? b (k.foreign, q, name))
    (hr : LinksRight s db k name b) : LinksRight s db k name a := by
  intro q r' hq
  simp only [h]
  exact hr q r' hq

/-- No two foreign keys into one table have the same link name. -/
def NamesDistinct (name : FK → String) (fks : List FK) : Prop :=
  ∀ k ∈ fks, ∀ k' ∈ fks, k.foreign = k'.foreign → name k = name k' → k = k'

/-- **C55.**  With foreign key links enabled, on every good data object the constructor makes the links without raising,
and they are exact.  For every linkable foreign key, every foreign row has precisely the native rows that refer to it:
as a table under the rest of their primary key, or as the row itself if the foreign key is one-to-one.  There are no
other links.  This holds in whatever order the foreign keys are handled, provided no two foreign keys into one table
share a link name, and no link has the name of a method of the rows or of a generic table. -/
theorem links_exact {s : Schema} (hs : SchemaOK s) {db : DB V} (hdb : DBOK s db) {gens generics : List String}
    {fks : List FK} (hk : ∀ k ∈ fks, FKOK s k ∧ ForeignDistinct k ∧ Simple s k) (hn : fks.Nodup)
    {name : FK → String} (hname : NamesDistinct name fks)
    (hmeth : ∀ k ∈ fks, name k ∈ rowMethods s k.foreign → name k ∈ reserved)
    (hgen : ∀ k ∈ fks, name k ∉ generics) :
    ∃ links, makeLinks s gens generics name fks db = some links ∧
      (∀ k ∈ fks, Linkable s gens k → name k ∉ reserved → LinksRight s db k (name k) links) ∧
      (∀ t q n l, PyDict.get? links (t, q, n) = some l →
        ∃ k ∈ fks, Linkable s gens k ∧ n ∉ reserved ∧ k.foreign = t ∧ name k = n ∧
          ∃ r', (q, r') ∈ rows (tableOf s t) (db t)) := by
  have hsimple : fks.any (fun k => !simpleFK s k) = false := by
    rw [List.any_eq_false]
    intro k hkm
    simp [(simpleFK_iff s k).2 (hk k hkm).2.2]
  unfold makeLinks
  rw [if_neg (by rw [hsimple]; simp)]
  -- the fold, from any links made for other foreign keys
  have main : ∀ (l : List FK) (acc : Links V), l.Nodup → (∀ k ∈ l, k ∈ fks) →
      (∀ k ∈ l, ∀ q, PyDict.get? acc (k.foreign, q, name k) = none) →
      ∃ links, l.foldlM (fun acc k => linkFK s gens generics (name k) db acc k) acc = some links ∧
        (∀ k ∈ l, Linkable s gens k → name k ∉ reserved → LinksRight s db k (name k) links) ∧
        (∀ t q n, (∀ k ∈ l, t ≠ k.foreign ∨ n ≠ name k) → PyDict.get? links (t, q, n) = PyDict.get? acc (t, q, n)) ∧
        (∀ k ∈ l, ∀ q v, PyDict.get? links (k.foreign, q, name k) = some v → Linkable s gens k ∧ name k ∉ reserved ∧
          ∃ r', (q, r') ∈ rows (tableOf s k.foreign) (db k.foreign)) := by
    intro l
    induction l with
    | nil => intro acc _ _ _; exact ⟨acc, rfl, by simp, fun _ _ _ _ => rfl, by simp⟩
    | cons k l ih =>
      intro acc hnd hmem hfresh
      obtain ⟨hkl, hnd'⟩ := List.nodup_cons.1 hnd
      have hkm := hmem k List.mem_cons_self
      obtain ⟨acc1, h1, h2, h3, h4⟩ := linkFK_spec hs hdb (gens := gens) (hk k hkm).1 (hk k hkm).2.1 (hk k hkm).2.2
        (hmeth k hkm) (hgen k hkm) acc (hfresh k List.mem_cons_self)
      have hoth : ∀ k' ∈ l, k'.foreign ≠ k.foreign ∨ name k' ≠ name k := by
        intro k' hk'
        by_cases he : k'.foreign = k.foreign
        · right
          intro hc
          have := hname k' (hmem k' (List.mem_cons_of_mem _ hk')) k hkm he hc
          exact hkl (this ▸ hk')
        · exact Or.inl he
      obtain ⟨links, g1, g2, g3, g4⟩ := ih acc1 hnd' (fun k' h => hmem k' (List.mem_cons_of_mem _ h)) (by
        intro k' hk' q
        rw [h2 _ _ _ (hoth k' hk')]
        exact hfresh k' (List.mem_cons_of_mem _ hk') q)
      have hsame : ∀ q, PyDict.get? links (k.foreign, q, name k) = PyDict.get? acc1 (k.foreign, q, name k) := by
        intro q
        apply g3
        intro k' hk'
        rcases hoth k' hk' with h | h
        · exact Or.inl (Ne.symm h)
        · exact Or.inr (Ne.symm h)
      refine ⟨links, ?_, ?_, ?_, ?_⟩
      · simp only [List.foldlM_cons, h1, Option.bind_eq_bind, Option.bind_some]
        exact g1
      · intro k' hk'
        rcases List.mem_cons.1 hk' with rfl | hk'
        · intro ha hb
          exact linksRight_congr hsame (h3 ha hb)
        · exact g2 k' hk'
      · intro t q n htn
        rw [g3 t q n (fun k' hk' => htn k' (List.mem_cons_of_mem _ hk')), h2 t q n (htn k List.mem_cons_self)]
      · intro k' hk' q v hv
        rcases List.mem_cons.1 hk' with rfl | hk'
        · rw [hsame] at hv; exact h4 q v hv
        · exact g4 k' hk' q v hv
  obtain ⟨links, h1, h2, h3, h4⟩ := main fks [] hn (fun _ h => h) (fun _ _ _ => rfl)
  refine ⟨links, h1, h2, ?_⟩
  intro t q n l hl
  by_cases hc : ∃ k ∈ fks, t = k.foreign ∧ n = name k
  · obtain ⟨k, hkm, rfl, rfl⟩ := hc
    obtain ⟨a, b, c⟩ := h4 k hkm q l hl
    exact ⟨k, hkm, a, b, rfl, rfl, c⟩
  · rw [h3 t q n (fun k hkm => by
      by_cases he : t = k.foreign
      · right; intro hn'; exact hc ⟨k, hkm, he, hn'⟩
      · exact Or.inl he)] at hl
    simp [PyDict.get?] at hl

/-- **C55.**  A foreign key whose foreign fields are not the primary key of the foreign table prevents links. -/
theorem links_refused {s : Schema} {db : DB V} {gens generics : List String} {fks : List FK} {name : FK → String}
    (h : ∃ k ∈ fks, ¬ Simple s k) : makeLinks s gens generics name fks db = none := by
  obtain ⟨k, hk, hns⟩ := h
  unfold makeLinks
  rw [if_pos]
  rw [List.any_eq_true]
  refine ⟨k, hk, ?_⟩
  cases hb : simpleFK s k with
  | true => exact absurd ((simpleFK_iff s k).1 hb) hns
  | false => rfl

theorem sameNative_iff (k k' : FK) : sameNative k k' = true ↔
    ∀ f, f ∈ k.mapping.map Prod.fst ↔ f ∈ k'.mapping.map Prod.fst := by
  unfold sameNative
  simp only [Bool.and_eq_true, List.all_eq_true, decide_eq_true_eq]
  constructor
  · rintro ⟨h1, h2⟩ f
    constructor
    · intro h; obtain ⟨p, hp, rfl⟩ := List.mem_map.1 h; exact h1 p hp
    · intro h; obtain ⟨p, hp, rfl⟩ := List.mem_map.1 h; exact h2 p hp
  · intro h
    exact ⟨fun p hp => (h p.1).1 (List.mem_map.2 ⟨p, hp, rfl⟩), fun p hp => (h p.1).2 (List.mem_map.2 ⟨p, hp, rfl⟩)⟩

theorem mem_siblings {s : Schema} {fks : List FK} {k k' : FK} : k' ∈ siblings s fks k ↔
    k' ∈ fks ∧ k'.native = k.native ∧ k'.foreign = k.foreign ∧ Simple s k' := by
  unfold siblings
  rw [List.mem_filter]
  simp only [Bool.and_eq_true, decide_eq_true_eq, simpleFK_iff, and_assoc]

/-- **C55.**  The link is named after the native table if no other foreign key connects the same two tables. -/
theorem linkName_single {ord : List String → List String} {s : Schema} {fks : List FK} {k : FK}
    (h : ∀ k' ∈ fks, k'.native = k.native → k'.foreign = k.foreign → k' = k) :
    linkName ord s fks k = k.native := by
  unfold linkName
  simp only
  rw [if_pos]
  rw [List.filter_eq_nil_iff]
  intro k' hk'
  obtain ⟨h1, h2, h3, _⟩ := mem_siblings.1 hk'
  have := h k' h1 h2 h3
  subst this
  simp [(sameNative_iff k' k').2 (fun _ => Iff.rfl)]

/-- With at most one foreign key from one table to another, the link names are distinct. -/
theorem linkName_distinct_single {ord : List String → List String} {s : Schema} {fks : List FK}
    (h : ∀ k ∈ fks, ∀ k' ∈ fks, k'.native = k.native → k'.foreign = k.foreign → k' = k) :
    NamesDistinct (linkName ord s fks) fks := by
  intro k hk k' hk' hf hname
  rw [linkName_single (h k hk), linkName_single (h k' hk')] at hname
  exact h k' hk' k hk hname hf

/-- **C55.**  With the names that the code gives: if at most one foreign key goes from one table to another, the links are
exact and named after the native table. -/
theorem links_exact_by_table {ord : List String → List String} {s : Schema} (hs : SchemaOK s) {db : DB V}
    (hdb : DBOK s db) {gens generics : List String}
    {fks : List FK} (hk : ∀ k ∈ fks, FKOK s k ∧ ForeignDistinct k ∧ Simple s k) (hn : fks.Nodup)
    (hone : ∀ k ∈ fks, ∀ k' ∈ fks, k'.native = k.native → k'.foreign = k.foreign → k' = k)
    (hmeth : ∀ k ∈ fks, k.native ∈ rowMethods s k.foreign → k.native ∈ reserved)
    (hgen : ∀ k ∈ fks, k.native ∉ generics) :
    ∃ links, makeLinks s gens generics (linkName ord s fks) fks db = some links ∧
      ∀ k ∈ fks, Linkable s gens k → k.native ∉ reserved → LinksRight s db k k.native links := by
  have hnm : ∀ k ∈ fks, linkName ord s fks k = k.native := fun k h => linkName_single (hone k h)
  obtain ⟨links, h1, h2, _⟩ := links_exact hs hdb (gens := gens) (generics := generics) hk hn
    (linkName_distinct_single (ord := ord) (s := s) hone)
    (fun k h => by rw [hnm k h]; exact hmeth k h) (fun k h => by rw [hnm k h]; exact hgen k h)
  refine ⟨links, h1, fun k h hl hr => ?_⟩
  have := h2 k h hl (by rw [hnm k h]; exact hr)
  rwa [hnm k h] at this

theorem joinUnderscore_toList (a : String) (l : List String) :
    (joinUnderscore a l).toList = a.toList ++ (l.map (fun x => '_' :: x.toList)).flatten := by
  unfold joinUnderscore
  induction l generalizing a with
  | nil => simp
  | cons x l ih =>
    rw [List.foldl_cons, ih]
    simp

theorem take_until {a b x y : List Char} (ha : '_' ∉ a) (hb : '_' ∉ b)
    (hx : x = [] ∨ ∃ x', x = '_' :: x') (hy : y = [] ∨ ∃ y', y = '_' :: y') (h : a ++ x = b ++ y) : a = b ∧ x = y := by
  induction a generalizing b with
  | nil =>
    cases b with
    | nil => exact ⟨rfl, by simpa using h⟩
    | cons c b =>
      exfalso
      rcases hx with rfl | ⟨x', rfl⟩
      · simp at h
      · simp only [List.nil_append, List.cons_append, List.cons.injEq] at h
        exact hb (h.1 ▸ List.mem_cons_self)
  | cons c a ih =>
    cases b with
    | nil =>
      exfalso
      rcases hy with rfl | ⟨y', rfl⟩
      · simp at h
      · simp only [List.nil_append, List.cons_append, List.cons.injEq] at h
        exact ha (h.1 ▸ List.mem_cons_self)
    | cons d b =>
      simp only [List.cons_append, List.cons.injEq] at h
      obtain ⟨h1, h2⟩ := ih (fun hc => ha (List.mem_cons_of_mem _ hc)) (b := b)
        (fun hc => hb (List.mem_cons_of_mem _ hc)) h.2
      exact ⟨by rw [h.1, h1], h2⟩

theorem flatten_under (l : List String) : (l.map (fun x => '_' :: x.toList)).flatten = [] ∨
    ∃ y, (l.map (fun x => '_' :: x.toList)).flatten = '_' :: y := by
  cases l with
  | nil => exact Or.inl rfl
  | cons x l => right; exact ⟨_, rfl⟩

theorem joinUnderscore_inj {a b : String} {l m : List String} (ha : '_' ∉ a.toList) (hb : '_' ∉ b.toList)
    (hl : ∀ x ∈ l, '_' ∉ x.toList) (hm : ∀ x ∈ m, '_' ∉ x.toList)
    (h : joinUnderscore a l = joinUnderscore b m) : a = b ∧ l = m := by
  have h' := congrArg String.toList h
  rw [joinUnderscore_toList, joinUnderscore_toList] at h'
  obtain ⟨h1, h2⟩ := take_until ha hb (flatten_under l) (flatten_under m) h'
  refine ⟨String.toList_inj.1 h1, ?_⟩
  clear h h' h1
  induction l generalizing m with
  | nil =>
    cases m with
    | nil => rfl
    | cons y m => simp at h2
  | cons x l ih =>
    cases m with
    | nil => simp at h2
    | cons y m =>
      simp only [List.map_cons, List.flatten_cons, List.cons_append, List.cons.injEq, true_and] at h2
      obtain ⟨h3, h4⟩ := take_until (hl x List.mem_cons_self) (hm y List.mem_cons_self)
        (flatten_under l) (flatten_under m) h2
      rw [String.toList_inj.1 h3, ih (fun z hz => hl z (List.mem_cons_of_mem _ hz))
        (fun z hz => hm z (List.mem_cons_of_mem _ hz)) h4]

/-- **C55.**  When there are several foreign keys between two tables their links still get distinct names, if the
foreign keys differ in the set of native fields and no table or field name has an underscore.  This holds whatever the
order in which sets of names are iterated. -/
theorem linkName_distinct {ord : List String → List String} (hord : ∀ l x, x ∈ ord l ↔ x ∈ l)
    {s : Schema} {fks : List FK} (hsim : ∀ k ∈ fks, Simple s k)
    (hdiff : ∀ k ∈ fks, ∀ k' ∈ fks, k'.native = k.native → k'.foreign = k.foreign →
      (∀ f, f ∈ k.mapping.map Prod.fst ↔ f ∈ k'.mapping.map Prod.fst) → k = k')
    (hne : ∀ k ∈ fks, k.mapping ≠ [])
    (hund : ∀ k ∈ fks, '_' ∉ k.native.toList ∧ ∀ p ∈ k.mapping, '_' ∉ p.1.toList) :
    NamesDistinct (linkName ord s fks) fks := by
  -- the parts of the name
  have parts : ∀ k ∈ fks, ∃ L, linkName ord s fks k = joinUnderscore k.native L ∧
      (∀ x ∈ L, x ∈ k.mapping.map Prod.fst) ∧
      (∀ k' ∈ fks, k'.native = k.native → k'.foreign = k.foreign → k ≠ k' →
        L ≠ [] ∧ ((∀ x ∈ L, x ∉ k'.mapping.map Prod.fst) ∨ ∀ x, x ∈ k.mapping.map Prod.fst → x ∈ L)) := by
    intro k hk
    have hself : sameNative k k = true := (sameNative_iff k k).2 (fun _ => Iff.rfl)
    have hsib : k ∈ siblings s fks k := mem_siblings.2 ⟨hk, rfl, rfl, hsim k hk⟩
    have hme : ((siblings s fks k).find? (sameNative k)).getD k = k := by
      cases hf : (siblings s fks k).find? (sameNative k) with
      | none => rfl
      | some k' =>
        have h1 := List.find?_some hf
        obtain ⟨h2, h3, h4, _⟩ := mem_siblings.1 (List.mem_of_find?_eq_some hf)
        exact (hdiff k hk k' h2 h3 h4 ((sameNative_iff k k').1 h1)).symm
    unfold linkName
    simp only [hme]
    by_cases ho : (siblings s fks k).filter (fun k' => !sameNative k k') = []
    · rw [if_pos ho]
      refine ⟨[], rfl, by simp, ?_⟩
      intro k' hk' h1 h2 hne'
      exfalso
      rw [List.filter_eq_nil_iff] at ho
      have := ho k' (mem_siblings.2 ⟨hk', h1, h2, hsim k' hk'⟩)
      have hsm : sameNative k k' = true := by simpa using this
      exact hne' (hdiff k hk k' hk' h1 h2 ((sameNative_iff k k').1 hsm))
    · rw [if_neg ho]
      refine ⟨_, rfl, ?_, ?_⟩
      · intro x hx
        split at hx
        · exact (hord _ _).1 hx
        · exact (List.mem_filter.1 ((hord _ _).1 hx)).1
      · intro k' hk' h1 h2 hne'
        have hnil : ∀ l, l ≠ [] → ord l ≠ [] := by
          intro l hl hc
          obtain ⟨y, hy⟩ := List.exists_mem_of_ne_nil l hl
          have := (hord l y).2 hy
          rw [hc] at this
          simp at this
        have hme' : k.mapping.map Prod.fst ≠ [] := by simpa using hne k hk
        have hoth : k' ∈ (siblings s fks k).filter (fun k' => !sameNative k k') := by
          rw [List.mem_filter]
          refine ⟨mem_siblings.2 ⟨hk', h1, h2, hsim k' hk'⟩, ?_⟩
          cases hb : sameNative k k' with
          | false => rfl
          | true => exact absurd (hdiff k hk k' hk' h1 h2 ((sameNative_iff k k').1 hb)) hne'
        split
        · exact ⟨hnil _ hme', Or.inr (fun x hx => (hord _ _).2 hx)⟩
        · rename_i ht
          refine ⟨hnil _ ht, Or.inl ?_⟩
          intro x hx
          have := (List.mem_filter.1 ((hord _ _).1 hx)).2
          rw [List.all_eq_true] at this
          simpa using this k' hoth
  intro k hk k' hk' hf hname
  obtain ⟨L, h1, h2, h3⟩ := parts k hk
  obtain ⟨L', h1', h2', h3'⟩ := parts k' hk'
  rw [h1, h1'] at hname
  have hu : ∀ (k : FK), k ∈ fks → ∀ L : List String, (∀ x ∈ L, x ∈ k.mapping.map Prod.fst) → ∀ x ∈ L, '_' ∉ x.toList := by
    intro k hk L hL x hx
    obtain ⟨p, hp, rfl⟩ := List.mem_map.1 (hL x hx)
    exact (hund k hk).2 p hp
  obtain ⟨hn, rfl⟩ := joinUnderscore_inj (hund k hk).1 (hund k' hk').1 (hu k hk L h2) (hu k' hk' L' h2') hname
  apply Classical.byContradiction
  intro hc
  obtain ⟨hne1, hor⟩ := h3 k' hk' hn.symm hf.symm hc
  obtain ⟨_, hor'⟩ := h3' k hk hn hf (Ne.symm hc)
  obtain ⟨y, hy⟩ := List.exists_mem_of_ne_nil L hne1
  rcases hor with ha | ha
  · exact ha y hy (h2' y hy)
  · rcases hor' with hb | hb
    · exact hb y hy (h2 y hy)
    · exact hc (hdiff k hk k' hk' hn.symm hf.symm (fun f => ⟨fun h => h2' f (ha f h), fun h => h2 f (hb f h)⟩))

/-- **C55.**  The promise in the documentation of `enable_foreign_key_links`: a native row that refers to a foreign row is
found, as the same object, in the foreign row's link under the rest of its key. -/
theorem link_is_the_row {s : Schema} {db : DB V} {k : FK} {name : String} {links : Links V}
    (h : LinksRight s db k name links) (ho : ¬ OneToOne s k) {q : PKey V} {r' : Rec V}
    (hq : (q, r') ∈ rows (tableOf s k.foreign) (db k.foreign)) {pk : PKey V} {r : Rec V}
    (hr : Referring s db k r' pk r) {key : PKey V} (hkey : RestKey (unmapped s k) r key) :
    ∃ n tbl, PyDict.get? links (k.foreign, q, name) = some (.table n tbl) ∧
      PyDict.get? tbl key = some (k.native, pk) := by
  obtain ⟨tbl, h1, _, h3⟩ := (h q r' hq).2 ho
  exact ⟨_, tbl, h1, (h3 _ _).2 ⟨pk, r, hr, hkey, rfl⟩⟩

section examples

private def dietSchema : Schema :=
  [("categories", ⟨["name"], ["minN", "maxN"]⟩), ("foods", ⟨["name"], ["cost"]⟩),
   ("nq", ⟨["food", "category"], ["qty"]⟩), ("notes", ⟨["name"], ["text"]⟩)]
private def dietFKs : List FK :=
  [⟨"nq", "foods", [("food", "name")]⟩, ⟨"nq", "categories", [("category", "name")]⟩,
   ⟨"notes", "foods", [("name", "name")]⟩]
private def dietDB : DB Nat := fun t =>
  if t = "categories" then .dict [(.one 10, [0, 5]), (.one 11, [1, 6])]
  else if t = "foods" then .dict [(.one 20, [3]), (.one 21, [4])]
  else if t = "nq" then .dict [(.many [20, 10], [7]), (.many [20, 11], [8]), (.many [21, 10], [9]), (.many [29, 10], [9])]
  else .dict [(.one 21, [100])]

/-- The diet example: the premises of `links_exact` and `linkName_distinct_single` are met. -/
example : SchemaOK dietSchema ∧ DBOK dietSchema dietDB ∧ dietFKs.Nodup ∧
    (∀ k ∈ dietFKs, FKOK dietSchema k ∧ ForeignDistinct k ∧ Simple dietSchema k) ∧
    (∀ k ∈ dietFKs, ∀ k' ∈ dietFKs, k'.native = k.native → k'.foreign = k.foreign → k' = k) ∧
    (∀ k ∈ dietFKs, k.native ∉ rowMethods dietSchema k.foreign) ∧
    NamesDistinct (linkName id dietSchema dietFKs) dietFKs := by
  refine ⟨⟨by decide, ?_⟩, ?_, by decide, ?_, by decide, by decide, linkName_distinct_single (by decide)⟩
  · intro t
    by_cases h : t ∈ PyDict.keys dietSchema
    · have : ∀ t ∈ PyDict.keys dietSchema, (Schema.pks dietSchema t ++ Schema.dfs dietSchema t).Nodup := by decide
      exact this t h
    · have := (PyDict.get?_eq_none dietSchema t).2 h
      simp [Schema.pks, Schema.dfs, this]
  · intro t ts h
    simp only [dietSchema, List.mem_cons, Prod.mk.injEq, List.not_mem_nil, or_false] at h
    rcases h with ⟨rfl, rfl⟩ | ⟨rfl, rfl⟩ | ⟨rfl, rfl⟩ | ⟨rfl, rfl⟩ <;>
      simp [dietDB, TableOK, KeyOK]
  · intro k hk
    simp only [dietFKs, List.mem_cons, List.not_mem_nil, or_false] at hk
    rcases hk with rfl | rfl | rfl
    all_goals
      refine ⟨⟨by decide, by decide, by decide, by decide, by decide, by decide⟩, by unfold ForeignDistinct; decide, ?_⟩
      intro f
      simp [dietSchema, Schema.pks, PyDict.get?]

/-- Its links: `foods[20].nq` has the rows for the categories 10 and 11, `foods[21].notes` is the note itself. -/
example : makeLinks dietSchema [] [] (linkName id dietSchema dietFKs) dietFKs dietDB = some
    [(("foods", .one 20, "nq"), .table 1 [(.one 10, ("nq", .many [20, 10])), (.one 11, ("nq", .many [20, 11]))]),
     (("foods", .one 21, "nq"), .table 1 [(.one 10, ("nq", .many [21, 10]))]),
     (("categories", .one 10, "nq"), .table 1 [(.one 20, ("nq", .many [20, 10])), (.one 21, ("nq", .many [21, 10])),
        (.one 29, ("nq", .many [29, 10]))]),
     (("categories", .one 11, "nq"), .table 1 [(.one 20, ("nq", .many [20, 11]))]),
     (("foods", .one 21, "notes"), .row ("notes", .one 21))] := by decide +kernel

/-- A foreign key that is not simple, for `links_refused`. -/
example : ∃ k ∈ [(⟨"nq", "foods", [("qty", "cost")]⟩ : FK)], ¬ Simple dietSchema k :=
  ⟨_, List.mem_cons_self, fun h => absurd ((h "cost").2 (by decide)) (by decide)⟩

private def routes : Schema := [("cities", ⟨["name"], ["pop"]⟩), ("routes", ⟨["source", "target"], ["km"]⟩)]
private def routeFKs : List FK :=
  [⟨"routes", "cities", [("source", "name")]⟩, ⟨"routes", "cities", [("target", "name")]⟩]

/-- Two foreign keys between the same tables: the premises of `linkName_distinct`, and the names. -/
example : (∀ k ∈ routeFKs, Simple routes k) ∧ (∀ k ∈ routeFKs, k.mapping ≠ []) ∧
    (∀ k ∈ routeFKs, '_' ∉ k.native.toList ∧ ∀ p ∈ k.mapping, '_' ∉ p.1.toList) ∧
    routeFKs.map (linkName id routes routeFKs) = ["routes_source", "routes_target"] := by
  refine ⟨fun k hk => (simpleFK_iff _ _).1 ?_, by decide, by decide, by decide +kernel⟩
  revert k; decide

private def repSchema : Schema := [("f", ⟨["x"], ["v"]⟩), ("t", ⟨["a", "b", "c"], ["d"]⟩)]
private def repDB : DB Nat := fun t =>
  if t = "f" then .dict [(.one 1, [0])] else .dict [(.many [1, 1, 5], [0])]

/-- **C55, finding.**  A foreign key that maps two native fields to one foreign field is accepted by `add_foreign_key`
and is simple, but a data object with a matching row cannot be built once links are enabled: the key found for the link
table has one value too many. -/
theorem links_repeated_foreign_field_raises :
    simpleFK repSchema ⟨"t", "f", [("a", "x"), ("b", "x")]⟩ = true ∧
    makeLinks repSchema [] [] (linkName id repSchema [⟨"t", "f", [("a", "x"), ("b", "x")]⟩])
      [⟨"t", "f", [("a", "x"), ("b", "x")]⟩] repDB = none := by
  refine ⟨by decide, ?_⟩
  rw [← Option.isNone_iff_eq_none]; decide +kernel

private def crossSchema : Schema := [("f", ⟨["x", "y"], ["v"]⟩), ("t", ⟨["a", "b", "c"], ["d"]⟩)]
private def crossFKs : List FK :=
  [⟨"t", "f", [("a", "x"), ("b", "y")]⟩, ⟨"t", "f", [("a", "y"), ("b", "x")]⟩]
private def crossDB : DB Nat := fun t =>
  if t = "f" then .dict [(.many [1, 2], [0])] else .dict [(.many [1, 2, 5], [0]), (.many [2, 1, 6], [0])]

/-- **C55, finding.**  Two foreign keys between the same tables with the same native fields, mapped differently, share one
link name.  The foreign row `(1, 2)` is referred to by the native row `(1, 2, 5)` through the first foreign key, but its
link has only the row found through the second. -/
theorem links_same_native_fields_lost :
    linkName id crossSchema crossFKs ⟨"t", "f", [("a", "x"), ("b", "y")]⟩ =
      linkName id crossSchema crossFKs ⟨"t", "f", [("a", "y"), ("b", "x")]⟩ ∧
    makeLinks crossSchema [] [] (linkName id crossSchema crossFKs) crossFKs crossDB =
      some [(("f", .many [1, 2], "t"), .table 1 [(.one 6, ("t", .many [2, 1, 6]))])] :=
  ⟨by decide +kernel, by decide +kernel⟩

private def underSchema : Schema :=
  [("f", ⟨["x"], ["v"]⟩), ("a_b", ⟨["k"], ["x"]⟩), ("a", ⟨["k"], ["b", "c"]⟩)]
private def underFKs : List FK :=
  [⟨"a_b", "f", [("x", "x")]⟩, ⟨"a", "f", [("b", "x")]⟩, ⟨"a", "f", [("c", "x")]⟩]

/-- **C55, finding.**  Underscores in table names can make two link names equal: the link of the table `a_b` and the link
of the table `a` through its field `b`. -/
theorem links_underscore_clash : ¬ NamesDistinct (linkName id underSchema underFKs) underFKs := by
  intro h
  have := h ⟨"a_b", "f", [("x", "x")]⟩ (by decide) ⟨"a", "f", [("b", "x")]⟩ (by decide) rfl (by decide +kernel)
  exact absurd this (by decide)

private def methodSchema : Schema := [("f", ⟨["x"], []⟩), ("get", ⟨["x"], ["d"]⟩)]
private def methodDB : DB Nat := fun t =>
  if t = "f" then .dict [(.one 1, [])] else .dict [(.one 1, [5])]

/-- **C55, finding.**  A one-to-one link called like a method of dictionaries, into a table without data fields, is not
skipped like `keys`, `items` and `values`: it raises. -/
theorem links_method_name_raises :
    makeLinks methodSchema [] [] (linkName id methodSchema [⟨"get", "f", [("x", "x")]⟩])
      [⟨"get", "f", [("x", "x")]⟩] methodDB = none := by
  rw [← Option.isNone_iff_eq_none]; decide +kernel

end examples

/-- **C55, finding.**  Freezing a data object does not freeze its link tables: `_freeze` looks for them in an attribute
that nothing sets. -/
theorem freeze_misses_links (tables : List Nat) (t : Nat) : t ∉ alsoFrozen (collectedTables tables) := by
  simp [alsoFrozen, collectedTables, PyDict.get?]

/-- **C55, finding.**  So reading a missing key from a link table of a frozen data object changes the link table: the key
is there afterwards, with an empty row that is no row of the native table. -/
theorem reading_link_adds {n : Nat} {rows : PyDict (PKey V) (Option (RowRef V))} {item : PKey V}
    (hfit : KeyOK n item) (hmiss : PyDict.get? rows item = none) :
    ∃ rows', linkGetItem n false rows item = some (rows', none) ∧ PyDict.get? rows' item = some none := by
  refine ⟨PyDict.set rows item none, ?_, by rw [PyDict.get?_set, if_pos rfl]⟩
  simp [linkGetItem, hmiss, linkKeyFits_of hfit]

/-- The premises of `reading_link_adds`: a link table with one row, and a key that it lacks. -/
example : KeyOK 1 (.one 7 : PKey Nat) ∧
    PyDict.get? [((.one 5 : PKey Nat), (some ("t", .one 1) : Option (RowRef Nat)))] (.one 7) = none := ⟨rfl, rfl⟩

end Ticdat

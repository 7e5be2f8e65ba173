import Verif.Lemmas.Heap
/-!
# C27: frozen data objects
-/
namespace Ticdat
open Spec
set_option linter.unusedSimpArgs false

/-- The attribute for table `t` of data object `d` refuses changes. -/
def FrozenTabOf (w : World) (d : Nat) (t : String) : Prop :=
  ∃ o a tab, w.dats[d]? = some o ∧ PyDict.get? o.tabs t = some a ∧ w.tabs[a]? = some tab ∧ TabFrozen tab ∧
    ∀ b ∈ tab.addrs, ∃ r, w.rows[b]? = some r ∧ r.frozen = true

/-- Facts about one call of `freezeTab`. -/
structure FreezeTabFacts (w w' : World) (d : Nat) (t : String) : Prop where
  others : ∀ i, i ≠ d → w'.dats[i]? = w.dats[i]?
  flag : (w'.dats[d]?).map (·.frozen) = (w.dats[d]?).map (·.frozen)
  otherTabs : ∀ t', t' ≠ t → (w'.dats[d]?).bind (fun o => PyDict.get? o.tabs t') =
    (w.dats[d]?).bind (fun o => PyDict.get? o.tabs t')
  rowView : ∀ b, viewRow w' b = viewRow w b
  rowLen : w'.rows.length = w.rows.length
  tabView : ∀ a tab, w.tabs[a]? = some tab → viewTabAt w' a = viewTabAt w a
  tabLen : w.tabs.length ≤ w'.tabs.length

theorem viewTab_congr {w w' : World} (h : ∀ b, viewRow w' b = viewRow w b) (tab : TabObj) :
    viewTab w' tab = viewTab w tab := by
  cases tab <;> simp only [viewTab, h]

theorem viewTab_freeze (w : World) (cls : TabClass) (rows : PyDict KeyArg Nat) (b b' : Bool) :
    viewTab w (.dict cls rows b) = viewTab w (.dict cls rows b') := rfl

theorem datGet_put {w : World} {d : Nat} {o o' : DatObj} (h : w.dats[d]? = some o) :
    (w.putDat d o').dats[d]? = some o' := by
  have : d < w.dats.length := by
    rw [List.getElem?_eq_some_iff] at h
    exact h.1
  simp [World.putDat, this]

theorem freezeTab_facts (w : World) (d : Nat) (t : String) : FreezeTabFacts w (freezeTab w d t).1 d t := by
  obtain ⟨w', h1, h2, hcase⟩ := freezeTab_cases w d t
  rcases hcase with ⟨he, _⟩ | ⟨o, a, tab, hd, ha, ht, _, hrows, hcase⟩
  · rw [he]
    exact ⟨fun i _ => by rw [h1.dats], by rw [h1.dats], fun t' _ => by rw [h1.dats], h1.view, h1.len,
      fun a tab h => by simp only [viewTabAt, h1.tabs, h, Option.map_some, viewTab_congr h1.view],
      by rw [h1.tabs]; exact Nat.le_refl _⟩
  · have hlt : a < w.tabs.length := by
      rw [List.getElem?_eq_some_iff] at ht
      exact ht.1
    rcases hcase with ⟨cls, rows, fr, rfl, he⟩ | ⟨hnd, he⟩
    · rw [he]
      refine ⟨fun i _ => by simp [World.putTab, h1.dats], by simp [World.putTab, h1.dats],
        fun t' _ => by simp [World.putTab, h1.dats], h1.view, h1.len, ?_, by simp [World.putTab, h1.tabs]⟩
      intro a' tab' h'
      have hv := viewTab_congr (w := w) (w' := w'.putTab a (.dict cls rows true)) h1.view
      simp only [viewTabAt]
      by_cases haa : a = a'
      · subst haa
        rw [ht] at h'
        cases h'
        have : (w'.putTab a (.dict cls rows true)).tabs[a]? = some (.dict cls rows true) := by
          simp [World.putTab, h1.tabs, hlt]
        rw [this, ht]
        simp only [Option.map_some, hv]
        rfl
      · have : (w'.putTab a (.dict cls rows true)).tabs[a']? = some tab' := by
          simp [World.putTab, h1.tabs, List.getElem?_set, haa, h']
        rw [this, h']
        simp only [Option.map_some, hv]
    · rw [he]
      have hd' : (w'.newTab (.tuple tab.addrs)).dats[d]? = some o := by
        show w'.dats[d]? = some o
        rw [h1.dats]; exact hd
      refine ⟨?_, ?_, ?_, h1.view, h1.len, ?_, by simp [World.putDat, World.newTab, h1.tabs]⟩
      · intro i hi
        have : d ≠ i := fun h => hi h.symm
        simp [World.putDat, World.newTab, h1.dats, List.getElem?_set, this]
      · rw [datGet_put hd', hd]; rfl
      · intro t' ht'
        rw [datGet_put hd', hd]
        simp only [Option.bind_some]
        rw [PyDict.get?_set]
        have : t ≠ t' := fun h => ht' h.symm
        simp [this]
      · intro a' tab' h'
        simp only [viewTabAt]
        have hg : ((w'.newTab (.tuple tab.addrs)).putDat d
            ⟨PyDict.set o.tabs t w.tabs.length, o.frozen⟩).tabs[a']? = some tab' := by
          show (w'.tabs ++ _)[a']? = some tab'
          rw [h1.tabs]
          exact getElem?_append_some h'
        rw [hg, h']
        simp only [Option.map_some]
        exact congrArg some (viewTab_congr h1.view tab')

theorem freezeTab_keeps (w : World) (d : Nat) (t : String)
    (hd : ∀ o, w.dats[d]? = some o → o.frozen = false) : Keeps w (freezeTab w d t).1 := by
  obtain ⟨w', h1, h2, hcase⟩ := freezeTab_cases w d t
  rcases hcase with ⟨he, _⟩ | ⟨o, a, tab, hd0, ha, ht, _, hrows, hcase⟩
  · rw [he]; exact h2
  · rcases hcase with ⟨cls, rows, fr, rfl, he⟩ | ⟨hnd, he⟩
    · rw [he]
      refine h2.trans (Keeps.putTab _ _ _ (fun t0 h0 hf => ?_))
      rw [h1.tabs, ht] at h0
      cases h0
      simp only [TabFrozen] at hf
      rw [hf]
    · rw [he]
      refine h2.trans ((Keeps.newTab _ _).trans (Keeps.putDat _ _ _ (fun o0 h0 hf => ?_)))
      have h0' : w.dats[d]? = some o0 := by rw [← h1.dats]; exact h0
      rw [hd o0 h0'] at hf
      simp at hf

theorem freezeTab_ok (w : World) (d : Nat) (t : String) (h : (freezeTab w d t).2 = false) :
    FrozenTabOf (freezeTab w d t).1 d t := by
  obtain ⟨w', h1, h2, hcase⟩ := freezeTab_cases w d t
  rcases hcase with ⟨_, he⟩ | ⟨o, a, tab, hd0, ha, ht, _, hrows, hcase⟩
  · rw [he] at h; simp at h
  · rcases hcase with ⟨cls, rows, fr, rfl, he⟩ | ⟨hnd, he⟩
    · rw [he]
      have hlt : a < w.tabs.length := by
        rw [List.getElem?_eq_some_iff] at ht
        exact ht.1
      refine ⟨o, a, .dict cls rows true, ?_, ha, ?_, rfl, hrows⟩
      · show w'.dats[d]? = some o
        rw [h1.dats]; exact hd0
      · simp [World.putTab, h1.tabs, hlt]
    · rw [he]
      refine ⟨⟨PyDict.set o.tabs t w.tabs.length, o.frozen⟩, w.tabs.length, .tuple tab.addrs, ?_, ?_, ?_, trivial,
        hrows⟩
      · exact datGet_put (o := o) (by show w'.dats[d]? = some o; rw [h1.dats]; exact hd0)
      · rw [PyDict.get?_set]; simp
      · show (w'.tabs ++ _)[w.tabs.length]? = _
        rw [h1.tabs]; simp

theorem freezeTab_view (w : World) (d : Nat) (t : String) :
    ∀ t' a, (w.dats[d]?).bind (fun o => PyDict.get? o.tabs t') = some a → a < w.tabs.length →
      ∃ a', ((freezeTab w d t).1.dats[d]?).bind (fun o => PyDict.get? o.tabs t') = some a' ∧
        a' < (freezeTab w d t).1.tabs.length ∧
        viewTabAt (freezeTab w d t).1 a' = viewTabAt w a := by
  intro t' a hget hlt
  have hf := freezeTab_facts w d t
  have hsome : ∃ tab, w.tabs[a]? = some tab := ⟨w.tabs[a], by simp [hlt]⟩
  obtain ⟨tab, htab⟩ := hsome
  by_cases hne : t' = t
  · subst hne
    obtain ⟨w', h1, h2, hcase⟩ := freezeTab_cases w d t'
    rcases hcase with ⟨he, _⟩ | ⟨o, a0, tab0, hd0, ha0, ht0, _, hrows, hcase⟩
    · refine ⟨a, ?_, Nat.lt_of_lt_of_le hlt hf.tabLen, hf.tabView a tab htab⟩
      rw [he, h1.dats]; exact hget
    · rw [hd0] at hget
      simp only [Option.bind_some, ha0, Option.some.injEq] at hget
      subst hget
      rw [ht0] at htab
      obtain rfl : tab0 = tab := Option.some.inj htab
      rcases hcase with ⟨cls, rows, fr, rfl, he⟩ | ⟨hnd, he⟩
      · refine ⟨a0, ?_, Nat.lt_of_lt_of_le hlt hf.tabLen, hf.tabView a0 _ ht0⟩
        rw [he]
        show (w'.dats[d]?).bind _ = _
        rw [h1.dats, hd0]
        exact ha0
      · refine ⟨w.tabs.length, ?_, ?_, ?_⟩
        · rw [he, datGet_put (o := o) (by show w'.dats[d]? = some o; rw [h1.dats]; exact hd0)]
          simp only [Option.bind_some]
          rw [PyDict.get?_set]; simp
        · rw [he]; simp [World.putDat, World.newTab, h1.tabs]
        · have e : (freezeTab w d t').1.tabs[w.tabs.length]? = some (.tuple tab0.addrs) := by
            rw [he]
            show (w'.tabs ++ _)[w.tabs.length]? = _
            rw [h1.tabs]; simp
          simp only [viewTabAt, e, ht0, Option.map_some, viewTab_congr hf.rowView]
          cases tab0 with
          | dict cls rows fr => exact absurd rfl (hnd cls rows fr)
          | list cls rows => rfl
          | tuple rows => rfl
  · exact ⟨a, by rw [hf.otherTabs t' hne]; exact hget, Nat.lt_of_lt_of_le hlt hf.tabLen, hf.tabView a tab htab⟩

/-- What freezing (all or some of) the tables of data object `d` leaves alone. -/
structure FreezeFacts (w w' : World) (d : Nat) : Prop where
  keeps : Keeps w w'
  others : ∀ i, i ≠ d → w'.dats[i]? = w.dats[i]?
  flag : (w'.dats[d]?).map (·.frozen) = (w.dats[d]?).map (·.frozen)
  rowView : ∀ b, viewRow w' b = viewRow w b
  tabView : ∀ a, a < w.tabs.length → viewTabAt w' a = viewTabAt w a
  tabLen : w.tabs.length ≤ w'.tabs.length
  datView : ∀ t a, (w.dats[d]?).bind (fun o => PyDict.get? o.tabs t) = some a → a < w.tabs.length →
    ∃ a', (w'.dats[d]?).bind (fun o => PyDict.get? o.tabs t) = some a' ∧ a' < w'.tabs.length ∧
      viewTabAt w' a' = viewTabAt w a

theorem FreezeFacts.trans {a b c : World} {d : Nat} (h1 : FreezeFacts a b d) (h2 : FreezeFacts b c d) :
    FreezeFacts a c d where
  keeps := h1.keeps.trans h2.keeps
  others i hi := (h2.others i hi).trans (h1.others i hi)
  flag := h2.flag.trans h1.flag
  rowView b := (h2.rowView b).trans (h1.rowView b)
  tabView i hi := (h2.tabView i (Nat.lt_of_lt_of_le hi h1.tabLen)).trans (h1.tabView i hi)
  tabLen := Nat.le_trans h1.tabLen h2.tabLen
  datView t i h hi := by
    obtain ⟨i', h', hi', e'⟩ := h1.datView t i h hi
    obtain ⟨i'', h'', hi'', e''⟩ := h2.datView t i' h' hi'
    exact ⟨i'', h'', hi'', e''.trans e'⟩

theorem FreezeFacts.refl (w : World) (d : Nat) : FreezeFacts w w d where
  keeps := Keeps.refl w
  others _ _ := rfl
  flag := rfl
  rowView _ := rfl
  tabView _ _ := rfl
  tabLen := Nat.le_refl _
  datView _ a h hi := ⟨a, h, hi, rfl⟩

theorem freezeTab_freezeFacts (w : World) (d : Nat) (t : String)
    (hd : ∀ o, w.dats[d]? = some o → o.frozen = false) : FreezeFacts w (freezeTab w d t).1 d where
  keeps := freezeTab_keeps w d t hd
  others := (freezeTab_facts w d t).others
  flag := (freezeTab_facts w d t).flag
  rowView := (freezeTab_facts w d t).rowView
  tabView a ha := (freezeTab_facts w d t).tabView a w.tabs[a] (by simp [ha])
  tabLen := (freezeTab_facts w d t).tabLen
  datView := freezeTab_view w d t

theorem unfrozen_of_flag {w w' : World} {d : Nat}
    (h : (w'.dats[d]?).map (·.frozen) = (w.dats[d]?).map (·.frozen))
    (hd : ∀ o, w.dats[d]? = some o → o.frozen = false) : ∀ o, w'.dats[d]? = some o → o.frozen = false := by
  intro o ho
  rw [ho] at h
  cases hw : w.dats[d]? with
  | none => rw [hw] at h; simp at h
  | some o0 =>
    rw [hw] at h
    simp only [Option.map_some, Option.some.injEq] at h
    rw [h]; exact hd o0 hw

theorem frozenTabOf_keep {w w' : World} {d : Nat} {t t' : String} (hf : FreezeTabFacts w w' d t') (hk : Keeps w w')
    (hne : t ≠ t') (h : FrozenTabOf w d t) : FrozenTabOf w' d t := by
  obtain ⟨o, a, tab, h1, h2, h3, h4, h5⟩ := h
  have h6 := hf.otherTabs t hne
  rw [h1] at h6
  simp only [Option.bind_some, h2] at h6
  cases hw : w'.dats[d]? with
  | none => rw [hw] at h6; simp at h6
  | some o' =>
    rw [hw] at h6
    simp only [Option.bind_some] at h6
    refine ⟨o', a, tab, hw, h6, hk.tabs a tab h3 h4, h4, fun b hb => ?_⟩
    obtain ⟨r, hr, hfr⟩ := h5 b hb
    exact ⟨r, hk.rows b r hr hfr, hfr⟩

theorem freezeTabs_facts (ts : List String) : ∀ (w : World) (d : Nat), (∀ o, w.dats[d]? = some o → o.frozen = false) →
    FreezeFacts w (freezeTabs w d ts).1 d := by
  induction ts with
  | nil => intro w d _; exact FreezeFacts.refl w d
  | cons t rest ih =>
    intro w d hd
    have h1 := freezeTab_freezeFacts w d t hd
    unfold freezeTabs
    cases hr : freezeTab w d t with
    | mk w' raised =>
      rw [hr] at h1
      cases raised with
      | true => exact h1
      | false => exact h1.trans (ih w' d (unfrozen_of_flag h1.flag hd))

theorem freezeTabs_ok (ts : List String) : ∀ (w : World) (d : Nat), (∀ o, w.dats[d]? = some o → o.frozen = false) →
    (freezeTabs w d ts).2 = false → ∀ t, t ∈ ts ∨ FrozenTabOf w d t → FrozenTabOf (freezeTabs w d ts).1 d t := by
  induction ts with
  | nil => intro w d _ _ t ht; simpa [freezeTabs] using ht
  | cons t0 rest ih =>
    intro w d hd h t ht
    have h1 := freezeTab_freezeFacts w d t0 hd
    have h2 := freezeTab_facts w d t0
    have h3 := freezeTab_ok w d t0
    unfold freezeTabs at h ⊢
    cases hr : freezeTab w d t0 with
    | mk w' raised =>
      rw [hr] at h h1 h2 h3
      cases raised with
      | true => simp at h
      | false =>
        simp only at h h1 h2 h3 ⊢
        refine ih w' d (unfrozen_of_flag h1.flag hd) h t ?_
        by_cases htt : t = t0
        · subst htt; exact .inr (h3 trivial)
        · rcases ht with ht | ht
          · exact .inl (by simpa [htt] using ht)
          · exact .inr (frozenTabOf_keep h2 h1.keeps htt ht)

theorem freezeTabs_missing (ts : List String) : ∀ (w : World) (d : Nat) (t : String), t ∈ ts →
    (∀ o, w.dats[d]? = some o → o.frozen = false) →
    (w.dats[d]?).bind (fun o => PyDict.get? o.tabs t) = none → (freezeTabs w d ts).2 = true := by
  induction ts with
  | nil => intro w d t ht; simp at ht
  | cons t0 rest ih =>
    intro w d t ht hd hn
    have h2 := freezeTab_facts w d t0
    unfold freezeTabs
    cases hr : freezeTab w d t0 with
    | mk w' raised =>
      cases raised with
      | true => rfl
      | false =>
        rw [hr] at h2
        simp only at h2 ⊢
        by_cases htt : t = t0
        · subst htt
          exfalso
          have hok := freezeTab_cases w d t
          obtain ⟨_, _, _, hcase⟩ := hok
          rcases hcase with ⟨_, he⟩ | ⟨o, a, tab, hd0, ha, _⟩
          · rw [hr] at he; simp at he
          · rw [hd0] at hn
            simp [ha] at hn
        · exact ih w' d t (by simpa [htt] using ht) (unfrozen_of_flag h2.flag hd) (by rw [h2.otherTabs t htt]; exact hn)

theorem freezeDat_cases (w : World) (d : Nat) (order : List String) :
    (freezeDat w d order).1 = w ∨
    ∃ o, w.dats[d]? = some o ∧ o.frozen = false ∧
      ((freezeDat w d order).1 = (freezeTabs w d order).1 ∧ (freezeDat w d order).2 = true ∨
       ∃ o', (freezeTabs w d order).2 = false ∧ (freezeTabs w d order).1.dats[d]? = some o' ∧
        freezeDat w d order = ((freezeTabs w d order).1.putDat d ⟨o'.tabs, true⟩, false)) := by
  unfold freezeDat
  cases hd : w.dats[d]? with
  | none => exact .inl rfl
  | some o =>
    simp only
    cases ho : o.frozen with
    | true => exact .inl rfl
    | false =>
      right
      refine ⟨o, rfl, ho, ?_⟩
      cases hr : freezeTabs w d order with
      | mk w' raised =>
        cases raised with
        | true => exact .inl ⟨rfl, rfl⟩
        | false =>
          cases hd' : w'.dats[d]? with
          | none => left; simp [hd']
          | some o' => right; exact ⟨o', rfl, rfl, by simp [hd']⟩

theorem freezeDat_facts (w : World) (d : Nat) (order : List String) :
    Keeps w (freezeDat w d order).1 ∧
    (∀ i, i ≠ d → (freezeDat w d order).1.dats[i]? = w.dats[i]?) ∧
    (∀ b, viewRow (freezeDat w d order).1 b = viewRow w b) ∧
    (∀ a, a < w.tabs.length → viewTabAt (freezeDat w d order).1 a = viewTabAt w a) ∧
    w.tabs.length ≤ (freezeDat w d order).1.tabs.length ∧
    (∀ t a, (w.dats[d]?).bind (fun o => PyDict.get? o.tabs t) = some a → a < w.tabs.length →
      ∃ a', ((freezeDat w d order).1.dats[d]?).bind (fun o => PyDict.get? o.tabs t) = some a' ∧
        a' < (freezeDat w d order).1.tabs.length ∧ viewTabAt (freezeDat w d order).1 a' = viewTabAt w a) := by
  rcases freezeDat_cases w d order with h | ⟨o, hd, ho, h⟩
  · rw [h]
    exact ⟨Keeps.refl w, fun _ _ => rfl, fun _ => rfl, fun _ _ => rfl, Nat.le_refl _, fun _ a h ha => ⟨a, h, ha, rfl⟩⟩
  · have hunf : ∀ o, w.dats[d]? = some o → o.frozen = false := by
      intro o' ho'
      rw [hd] at ho'
      cases ho'
      exact ho
    have hf := freezeTabs_facts order w d hunf
    rcases h with ⟨h, _⟩ | ⟨o', _, hd', h⟩
    · rw [h]
      exact ⟨hf.keeps, hf.others, hf.rowView, hf.tabView, hf.tabLen, hf.datView⟩
    · rw [h]
      have hun' := unfrozen_of_flag hf.flag hunf
      refine ⟨hf.keeps.trans (Keeps.putDat _ _ _ (fun o0 h0 hf0 => ?_)), ?_, hf.rowView, hf.tabView, hf.tabLen, ?_⟩
      · rw [hun' o0 h0] at hf0; simp at hf0
      · intro i hi
        have : d ≠ i := fun h => hi h.symm
        rw [← hf.others i hi]
        simp [World.putDat, List.getElem?_set, this]
      · intro t a h ha
        obtain ⟨a', h1, h2, h3⟩ := hf.datView t a h ha
        refine ⟨a', ?_, h2, h3⟩
        rw [datGet_put hd']
        rw [hd'] at h1
        exact h1

theorem step_keeps (w : World) (op : Op) (h : op.unguarded = false) : Keeps w (step w op).1 := by
  cases op with
  | tab a o => exact tabOp_keeps w a o h
  | row a f v => exact rowOp_keeps w a f v
  | newPlain fields => exact Keeps.newRow w _
  | setAttr d t a =>
    simp only [step]
    cases hd : w.dats[d]? with
    | none => exact Keeps.refl w
    | some o =>
      simp only
      split
      · exact Keeps.refl w
      · rename_i hof
        split
        · refine Keeps.putDat _ _ _ (fun o0 h0 hf => ?_)
          rw [hd] at h0
          cases h0
          exact absurd hf hof
        · exact Keeps.refl w
  | delAttr d t =>
    simp only [step]
    cases hd : w.dats[d]? with
    | none => exact Keeps.refl w
    | some o =>
      simp only
      split
      · exact Keeps.refl w
      · rename_i hof
        split
        · refine Keeps.putDat _ _ _ (fun o0 h0 hf => ?_)
          rw [hd] at h0
          cases h0
          exact absurd hf hof
        · exact Keeps.refl w
  | freeze d order => exact (freezeDat_facts w d order).1

theorem run_keeps (ops : List Op) : ∀ w, (∀ op ∈ ops, op.unguarded = false) → Keeps w (run w ops) := by
  induction ops with
  | nil => intro w _; exact Keeps.refl w
  | cons op rest ih =>
    intro w h
    exact (step_keeps w op (h op (by simp))).trans (ih _ (fun o ho => h o (by simp [ho])))

theorem FrozenDat.keep {ts : List String} {w w' : World} {d : Nat} (hk : Keeps w w') (h : FrozenDat ts w d) :
    FrozenDat ts w' d ∧ viewDat ts w' d = viewDat ts w d := by
  obtain ⟨o, h1, h2, h3⟩ := h
  have h1' := hk.dats d o h1 h2
  refine ⟨⟨o, h1', h2, fun t ht => ?_⟩, ?_⟩
  · obtain ⟨a, tab, e1, e2, e3, e4⟩ := h3 t ht
    refine ⟨a, tab, e1, hk.tabs a tab e2 e3, e3, fun b hb => ?_⟩
    obtain ⟨r, hr, hf⟩ := e4 b hb
    exact ⟨r, hk.rows b r hr hf, hf⟩
  · unfold viewDat
    rw [h1, h1']
    simp only [Option.map_some, Option.some.injEq]
    apply List.map_congr_left
    intro t ht
    obtain ⟨a, tab, e1, e2, e3, e4⟩ := h3 t ht
    rw [e1]
    simp only [Option.bind_some, viewTabAt]
    rw [e2, hk.tabs a tab e2 e3]
    simp only [Option.map_some, Option.some.injEq]
    have hv : ∀ b ∈ tab.addrs, viewRow w' b = viewRow w b := by
      intro b hb
      obtain ⟨r, hr, hf⟩ := e4 b hb
      simp only [viewRow, hr, hk.rows b r hr hf]
    cases tab with
    | dict cls rows fr =>
      simp only [viewTab]
      apply List.map_congr_left
      intro p hp
      rw [hv p.2 (by simp only [TabObj.addrs, List.mem_map]; exact ⟨p, hp, rfl⟩)]
    | list cls rows => exact List.map_congr_left (fun b hb => by rw [hv b hb])
    | tuple rows => exact List.map_congr_left (fun b hb => by rw [hv b hb])

/-- **C27 (partial), part 1: `freeze_me` establishes frozenness and does not change the contents.**  If `freeze_me`
returns normally for an unfrozen data object, then the object, every table and every row of it is frozen, and it has the
same contents as before.  `order` is the iteration order over the tables of the schema `ts`. -/
theorem freeze_establishes (ts order : List String) (w : World) (d : Nat) (o : DatObj)
    (hok : HeapOK w) (hd : w.dats[d]? = some o) (ho : o.frozen = false) (horder : ∀ t, t ∈ order ↔ t ∈ ts)
    (h : (freezeDat w d order).2 = false) :
    FrozenDat ts (freezeDat w d order).1 d ∧ viewDat ts (freezeDat w d order).1 d = viewDat ts w d := by
  have hunf : ∀ o, w.dats[d]? = some o → o.frozen = false := by
    intro o' ho'
    rw [hd] at ho'
    cases ho'
    exact ho
  obtain ⟨_, _, hrv, htv, _, hdv⟩ := freezeDat_facts w d order
  have hcase := freezeDat_cases w d order
  have hcase' : ∃ o', (freezeTabs w d order).2 = false ∧ (freezeTabs w d order).1.dats[d]? = some o' ∧
        freezeDat w d order = ((freezeTabs w d order).1.putDat d ⟨o'.tabs, true⟩, false) := by
    unfold freezeDat at h ⊢
    rw [hd] at h ⊢
    simp only [ho, Bool.false_eq_true, if_false] at h ⊢
    cases hr : freezeTabs w d order with
    | mk w' raised =>
      rw [hr] at h
      cases raised with
      | true => simp at h
      | false =>
        simp only at h ⊢
        cases hd' : w'.dats[d]? with
        | none => rw [hd'] at h; simp at h
        | some o' => exact ⟨o', by simp, by simp, by simp⟩
  obtain ⟨o', hok', hd', he⟩ := hcase'
  have hfrozen : FrozenDat ts (freezeDat w d order).1 d := by
    rw [he]
    refine ⟨⟨o'.tabs, true⟩, datGet_put hd', rfl, fun t ht => ?_⟩
    obtain ⟨o'', a, tab, e1, e2, e3, e4, e5⟩ := freezeTabs_ok order w d hunf hok' t (.inl ((horder t).mpr ht))
    rw [hd'] at e1
    cases e1
    exact ⟨a, tab, e2, e3, e4, e5⟩
  refine ⟨hfrozen, ?_⟩
  obtain ⟨of, f1, _, f3⟩ := hfrozen
  unfold viewDat
  rw [f1, hd]
  simp only [Option.map_some, Option.some.injEq]
  apply List.map_congr_left
  intro t ht
  cases hg : PyDict.get? o.tabs t with
  | none =>
    -- a missing attribute makes freeze_me raise
    exfalso
    have := freezeTabs_missing order w d t ((horder t).mpr ht) hunf (by rw [hd]; exact hg)
    rw [hok'] at this
    simp at this
  | some a =>
    have hlt : a < w.tabs.length := hok.tabs d o hd (t, a) (PyDict.get?_mem hg)
    obtain ⟨a', h1, _, h3⟩ := hdv t a (by rw [hd]; exact hg) hlt
    rw [f1] at h1
    simp only [Option.bind_some] at h1 ⊢
    rw [h1]
    exact h3

/-! ### Well-formed heaps -/

theorem HeapOK.putTab {w : World} (h : HeapOK w) (a : Nat) (t : TabObj) (ht : ∀ b ∈ t.addrs, b < w.rows.length) :
    HeapOK (w.putTab a t) := by
  refine ⟨fun i t' hi b hb => ?_, fun i o hi p hp => ?_⟩
  · simp only [World.putTab, List.getElem?_set] at hi
    split at hi
    · split at hi
      · cases hi; exact ht b hb
      · simp at hi
    · exact h.rows i t' hi b hb
  · have := h.tabs i o hi p hp
    simpa [World.putTab] using this

theorem HeapOK.newRow {w : World} (h : HeapOK w) (r : RowObj) : HeapOK (w.newRow r) := by
  refine ⟨fun i t' hi b hb => ?_, fun i o hi p hp => h.tabs i o hi p hp⟩
  have := h.rows i t' hi b hb
  simp [World.newRow]; omega

theorem HeapOK.putRow {w : World} (h : HeapOK w) (a : Nat) (r : RowObj) : HeapOK (w.putRow a r) := by
  refine ⟨fun i t' hi b hb => ?_, fun i o hi p hp => h.tabs i o hi p hp⟩
  have := h.rows i t' hi b hb
  simpa [World.putRow] using this

theorem HeapOK.newTab {w : World} (h : HeapOK w) (t : TabObj) (ht : ∀ b ∈ t.addrs, b < w.rows.length) :
    HeapOK (w.newTab t) := by
  refine ⟨fun i t' hi b hb => ?_, fun i o hi p hp => ?_⟩
  · simp only [World.newTab, List.getElem?_append] at hi
    split at hi
    · exact h.rows i t' hi b hb
    · rw [List.getElem?_singleton] at hi
      split at hi
      · cases hi; exact ht b hb
      · simp at hi
  · have := h.tabs i o hi p hp
    simp [World.newTab]; omega

theorem HeapOK.putDat {w : World} (h : HeapOK w) (d : Nat) (o : DatObj) (ho : ∀ p ∈ o.tabs, p.2 < w.tabs.length) :
    HeapOK (w.putDat d o) := by
  refine ⟨fun i t' hi b hb => h.rows i t' hi b hb, fun i o' hi p hp => ?_⟩
  simp only [World.putDat, List.getElem?_set] at hi
  split at hi
  · split at hi
    · cases hi; exact ho p hp
    · simp at hi
  · exact h.tabs i o' hi p hp

theorem erase_subset {A B : Type} [DecidableEq A] (d : PyDict A B) (k : A) : ∀ p ∈ PyDict.erase d k, p ∈ d := by
  induction d with
  | nil => intro p hp; simp [PyDict.erase] at hp
  | cons q rest ih =>
    intro p hp
    obtain ⟨k', v'⟩ := q
    simp only [PyDict.erase] at hp
    split at hp
    · exact List.mem_cons_of_mem _ hp
    · rcases List.mem_cons.mp hp with hp | hp
      · subst hp; simp
      · exact List.mem_cons_of_mem _ (ih p hp)

theorem set_subset {A B : Type} [DecidableEq A] (d : PyDict A B) (k : A) (v : B) :
    ∀ p ∈ PyDict.set d k v, p ∈ d ∨ p.2 = v := by
  induction d with
  | nil => intro p hp; simp [PyDict.set] at hp; subst hp; exact .inr rfl
  | cons q rest ih =>
    intro p hp
    obtain ⟨k', v'⟩ := q
    simp only [PyDict.set] at hp
    split at hp
    · rcases List.mem_cons.mp hp with hp | hp
      · subst hp; exact .inr rfl
      · exact .inl (List.mem_cons_of_mem _ hp)
    · rcases List.mem_cons.mp hp with hp | hp
      · subst hp; simp
      · rcases ih p hp with h | h
        · exact .inl (List.mem_cons_of_mem _ h)
        · exact .inr h

theorem HeapOK.putDict {w : World} (h : HeapOK w) (a : Nat) (cls : TabClass) (rows : PyDict KeyArg Nat) (fr : Bool)
    (hr : ∀ p ∈ rows, p.2 < w.rows.length) : HeapOK (w.putTab a (.dict cls rows fr)) :=
  h.putTab a _ (by
    intro b hb
    simp only [TabObj.addrs, List.mem_map] at hb
    obtain ⟨p, hp, rfl⟩ := hb
    exact hr p hp)

theorem tabSetItem_ok {w : World} (h : HeapOK w) (a : Nat) (cls : TabClass) (rows : PyDict KeyArg Nat) (fr : Bool)
    (hr : ∀ p ∈ rows, p.2 < w.rows.length) (k : KeyArg) (x : RowIn) : HeapOK (tabSetItem w a cls rows fr k x).1 := by
  unfold tabSetItem
  split
  · split
    · exact h
    · split
      · exact h
      · refine (h.newRow _).putDict a cls _ _ (fun p hp => ?_)
        rcases set_subset rows k _ p hp with h' | h'
        · have := hr p h'
          simp [World.newRow]; omega
        · simp [World.newRow, h']
  · exact h

theorem tabOp_ok {w : World} (h : HeapOK w) (a : Nat) (op : TabOp) : HeapOK (tabOp w a op).1 := by
  unfold tabOp
  cases ht : w.tabs[a]? with
  | none => exact h
  | some tab =>
    have hb := h.rows a tab ht
    cases tab with
    | dict cls rows frozen =>
      have hr : ∀ p ∈ rows, p.2 < w.rows.length := fun p hp => hb p.2 (by
        simp only [TabObj.addrs, List.mem_map]; exact ⟨p, hp, rfl⟩)
      have hset : ∀ k b, b < w.rows.length → ∀ p ∈ PyDict.set rows k b, p.2 < w.rows.length := by
        intro k b hb p hp
        rcases set_subset rows k b p hp with h' | h'
        · exact hr p h'
        · rw [h']; exact hb
      cases op with
      | setItem k x => exact tabSetItem_ok h a cls rows frozen hr k x
      | getItem k =>
        simp only
        split
        · exact h
        · split
          · exact h
          · exact tabSetItem_ok h a cls rows frozen hr k _
      | delItem k =>
        simp only
        split
        · exact h
        · split
          · exact h.putDict a cls _ _ (fun p hp => hr p (erase_subset rows k p hp))
          · exact h
      | pop k =>
        simp only
        split
        · exact h
        · split
          · exact h.putDict a cls _ _ (fun p hp => hr p (erase_subset rows k p hp))
          · exact h
      | update k b =>
        simp only
        split
        · exact h
        · split
          · exact h.putDict a cls _ _ (hset k b (by assumption))
          · exact h
      | setdefault k b =>
        simp only
        split
        · exact h
        · split
          · exact h.putDict a cls _ _ (hset k b (by assumption))
          · exact h
      | ior k b =>
        simp only
        split
        · exact h.putDict a cls _ _ (hset k b (by assumption))
        · exact h
      | clear => exact h.putDict a cls _ _ (by simp)
      | popitem =>
        simp only
        split
        · exact h
        · exact h.putDict a cls _ _ (fun p hp => hr p (List.dropLast_subset _ hp))
      | insert i x => exact h
      | setAt i x => exact h
      | delAt i => exact h
    | list cls rows =>
      have hr : ∀ b ∈ rows, b < w.rows.length := hb
      cases op with
      | insert i x =>
        simp only
        split
        · exact h
        · rename_i r _
          refine (h.newRow r).putTab a _ (fun b hb => ?_)
          simp only [TabObj.addrs, List.mem_append, List.mem_cons] at hb
          simp only [World.newRow, List.length_append, List.length_singleton]
          rcases hb with hb | hb | hb
          · have := hr b (List.mem_of_mem_take hb); omega
          · omega
          · have := hr b (List.mem_of_mem_drop hb); omega
      | setAt i x =>
        simp only
        split
        · exact h
        · rename_i r _
          split
          · refine (h.newRow r).putTab a _ (fun b hb => ?_)
            simp only [World.newRow, List.length_append, List.length_singleton]
            rcases List.mem_or_eq_of_mem_set hb with hb | hb
            · have := hr b hb; omega
            · omega
          · exact h
      | delAt i =>
        simp only
        split
        · exact h.putTab a _ (fun b hb => hr b (List.mem_of_mem_eraseIdx hb))
        · exact h
      | _ => exact h
    | tuple rows => exact h

theorem freezeRows_heapOK {w w' : World} (hf : RowsFreeze w w') (h : HeapOK w) : HeapOK w' := by
  refine ⟨fun i t hi b hb => ?_, fun i o hi p hp => ?_⟩
  · rw [hf.tabs] at hi; rw [hf.len]; exact h.rows i t hi b hb
  · rw [hf.dats] at hi; rw [hf.tabs]; exact h.tabs i o hi p hp

theorem freezeTab_ok' {w : World} (h : HeapOK w) (d : Nat) (t : String) : HeapOK (freezeTab w d t).1 := by
  obtain ⟨w', h1, h2, hcase⟩ := freezeTab_cases w d t
  have h' := freezeRows_heapOK h1 h
  rcases hcase with ⟨he, _⟩ | ⟨o, a, tab, hd, ha, ht, _, hrows, hcase⟩
  · rw [he]; exact h'
  · have hb := h'.rows a tab (by rw [h1.tabs]; exact ht)
    rcases hcase with ⟨cls, rows, fr, rfl, he⟩ | ⟨hnd, he⟩
    · rw [he]
      exact h'.putTab a _ hb
    · rw [he]
      refine (h'.newTab (.tuple tab.addrs) hb).putDat d _ (fun p hp => ?_)
      simp only [World.newTab, List.length_append, List.length_singleton, h1.tabs]
      rcases set_subset _ _ _ p hp with hp | hp
      · have := h.tabs d o hd p hp; omega
      · omega

theorem freezeTabs_heapOK (ts : List String) : ∀ {w : World}, HeapOK w → ∀ d, HeapOK (freezeTabs w d ts).1 := by
  induction ts with
  | nil => intro w h d; exact h
  | cons t rest ih =>
    intro w h d
    have h1 := freezeTab_ok' h d t
    unfold freezeTabs
    cases hr : freezeTab w d t with
    | mk w' raised =>
      rw [hr] at h1
      cases raised with
      | true => exact h1
      | false => exact ih h1 d

/-- No step leaves a dangling address. -/
theorem step_heapOK {w : World} (h : HeapOK w) (op : Op) : HeapOK (step w op).1 := by
  cases op with
  | tab a o => exact tabOp_ok h a o
  | row a f v =>
    simp only [step, rowOp]
    split
    · exact h
    · split
      · exact h
      · exact h.putRow _ _
  | newPlain fields => exact h.newRow _
  | setAttr d t a =>
    simp only [step]
    split
    · exact h
    · rename_i o ho
      split
      · exact h
      · split
        · refine h.putDat d _ (fun p hp => ?_)
          rcases set_subset _ _ _ p hp with hp | hp
          · exact h.tabs d o ho p hp
          · omega
        · exact h
  | delAttr d t =>
    simp only [step]
    split
    · exact h
    · rename_i o ho
      split
      · exact h
      · split
        · exact h.putDat d _ (fun p hp => h.tabs d o ho p (erase_subset _ _ p hp))
        · exact h
  | freeze d order =>
    simp only [step]
    rcases freezeDat_cases w d order with he | ⟨o, _, _, ⟨he, _⟩ | ⟨o', _, hd', he⟩⟩
    · rw [he]; exact h
    · rw [he]; exact freezeTabs_heapOK order h d
    · rw [he]
      have h' := freezeTabs_heapOK order h d
      exact h'.putDat d _ (fun p hp => h'.tabs d o' hd' p hp)

/-! ### Histories -/

/-- The invariant of histories: no dangling addresses, and every data object that is flagged as frozen is frozen through
and through. -/
structure FreezeInv (ts : List String) (w : World) : Prop where
  ok : HeapOK w
  frozen : ∀ (d : Nat) (o : DatObj), w.dats[d]? = some o → o.frozen = true → FrozenDat ts w d

theorem step_freezeInv {ts : List String} {w : World} (h : FreezeInv ts w) (op : Op) (hg : op.unguarded = false)
    (ho : FreezesAll ts op) : FreezeInv ts (step w op).1 := by
  refine ⟨step_heapOK h.ok op, fun d o hd hfr => ?_⟩
  have hk := step_keeps w op hg
  by_cases hwas : ∃ o0, w.dats[d]? = some o0 ∧ o0.frozen = true
  · obtain ⟨o0, h0, hf0⟩ := hwas
    exact (FrozenDat.keep hk (h.frozen d o0 h0 hf0)).1
  · have same : (step w op).1.dats[d]? = w.dats[d]? → FrozenDat ts (step w op).1 d := fun e =>
      absurd ⟨o, by rw [← e]; exact hd, hfr⟩ hwas
    have put : ∀ d0 o0, o0.frozen = false → (step w op).1.dats = w.dats.set d0 o0 → FrozenDat ts (step w op).1 d := by
      intro d0 o0 hf0 e
      by_cases hdd : d0 = d
      · subst hdd
        rw [e, List.getElem?_set] at hd
        simp only [if_true] at hd
        split at hd
        · cases hd; rw [hf0] at hfr; simp at hfr
        · simp at hd
      · apply same
        rw [e, List.getElem?_set]
        simp [hdd]
    cases op with
    | tab a o' =>
      apply same
      show (tabOp w a o').1.dats[d]? = _
      have : (tabOp w a o').1.dats = w.dats := by
        unfold tabOp tabSetItem
        repeat' split
        all_goals rfl
      rw [this]
    | row a f v =>
      apply same
      show (rowOp w a f v).1.dats[d]? = _
      have : (rowOp w a f v).1.dats = w.dats := by
        unfold rowOp
        repeat' split
        all_goals rfl
      rw [this]
    | newPlain fields => exact same rfl
    | setAttr d0 t a =>
      have hc : (step w (.setAttr d0 t a)).1 = w ∨
          ∃ o', o'.frozen = false ∧ (step w (.setAttr d0 t a)).1 = w.putDat d0 o' := by
        simp only [step]
        repeat' split
        all_goals first
          | exact .inl rfl
          | exact .inr ⟨_, rfl, rfl⟩
      rcases hc with e | ⟨o', hf', e⟩
      · exact same (by rw [e])
      · exact put d0 o' hf' (by rw [e]; rfl)
    | delAttr d0 t =>
      have hc : (step w (.delAttr d0 t)).1 = w ∨
          ∃ o', o'.frozen = false ∧ (step w (.delAttr d0 t)).1 = w.putDat d0 o' := by
        simp only [step]
        repeat' split
        all_goals first
          | exact .inl rfl
          | exact .inr ⟨_, rfl, rfl⟩
      rcases hc with e | ⟨o', hf', e⟩
      · exact same (by rw [e])
      · exact put d0 o' hf' (by rw [e]; rfl)
    | freeze d0 order =>
      by_cases hdd : d = d0
      · subst hdd
        rcases freezeDat_cases w d order with he | ⟨o1, ho1, hf1, ⟨he, _⟩ | ⟨o', hok', hd', he⟩⟩
        · exact same (by simp only [step, he])
        · exfalso
          have hunf : ∀ o, w.dats[d]? = some o → o.frozen = false := by
            intro o2 ho2
            rw [ho1] at ho2
            cases ho2
            exact hf1
          have := unfrozen_of_flag (freezeTabs_facts order w d hunf).flag hunf o (by
            rw [← he]; exact hd)
          rw [this] at hfr
          simp at hfr
        · exact (freeze_establishes ts order w d o1 h.ok ho1 hf1 ho (by rw [he])).1
      · exact same ((freezeDat_facts w d0 order).2.1 d hdd)

theorem run_freezeInv {ts : List String} (ops : List Op) : ∀ {w : World}, FreezeInv ts w →
    (∀ op ∈ ops, op.unguarded = false ∧ FreezesAll ts op) → FreezeInv ts (run w ops) := by
  induction ops with
  | nil => intro w h _; exact h
  | cons op rest ih =>
    intro w h hops
    exact ih (step_freezeInv h op (hops op (by simp)).1 (hops op (by simp)).2) (fun o ho => hops o (by simp [ho]))

theorem run_append (w : World) (a b : List Op) : run w (a ++ b) = run (run w a) b := by
  simp [run, List.foldl_append]

/-- **C27 (partial): frozen data objects cannot be changed.**  Start from a heap in which nothing is flagged as frozen.
After any history `h1`, if data object `d` is frozen then no further history `h2` changes its contents.  The histories
may share tables between data objects, keep references to tables and rows from before the freeze, store foreign objects
with `update`, freeze other objects, in any order.
Missing for the full property: the dictionary methods `clear`, `popitem`, `setdefault` and `|=`, which do change frozen
tables (`frozen_table_can_be_cleared` and the theorems after it). -/
theorem frozen_forever_partial (ts : List String) (w : World) (hok : HeapOK w)
    (h0 : ∀ (i : Nat) (o : DatObj), w.dats[i]? = some o → o.frozen = false) (h1 h2 : List Op)
    (hops : ∀ op ∈ h1 ++ h2, op.unguarded = false ∧ FreezesAll ts op) (d : Nat) (o : DatObj)
    (hd : (run w h1).dats[d]? = some o) (hfr : o.frozen = true) :
    viewDat ts (run w (h1 ++ h2)) d = viewDat ts (run w h1) d := by
  have hinv : FreezeInv ts (run w h1) := by
    refine run_freezeInv h1 ⟨hok, fun i o hi hf => ?_⟩ (fun op hop => hops op (by simp [hop]))
    rw [h0 i o hi] at hf
    simp at hf
  rw [run_append]
  exact (FrozenDat.keep (run_keeps h2 _ (fun op hop => (hops op (by simp [hop])).1)) (hinv.frozen d o hd hfr)).2

/-- **C27 (partial), each attempt raises.**  On a frozen data object: assigning, deleting or popping a key, updating,
list operations, writing a cell, replacing or deleting a table attribute all raise and leave the heap as it was. -/
theorem frozen_attempts_raise (ts : List String) (w : World) (d : Nat) (h : FrozenDat ts w d) (t : String) (ht : t ∈ ts) :
    ∃ o a tab, w.dats[d]? = some o ∧ PyDict.get? o.tabs t = some a ∧ w.tabs[a]? = some tab ∧
      (∀ k x, step w (.tab a (.setItem k x)) = (w, true)) ∧
      (∀ k, step w (.tab a (.delItem k)) = (w, true)) ∧
      (∀ k, step w (.tab a (.pop k)) = (w, true)) ∧
      (∀ k b, step w (.tab a (.update k b)) = (w, true)) ∧
      (∀ i x, step w (.tab a (.insert i x)) = (w, true)) ∧
      (∀ i x, step w (.tab a (.setAt i x)) = (w, true)) ∧
      (∀ i, step w (.tab a (.delAt i)) = (w, true)) ∧
      (∀ k, (step w (.tab a (.getItem k))).1 = w) ∧
      (∀ b ∈ tab.addrs, ∀ f v, step w (.row b f v) = (w, true)) ∧
      (∀ t' b, step w (.setAttr d t' b) = (w, true)) ∧
      (∀ t', step w (.delAttr d t') = (w, true)) := by
  obtain ⟨o, h1, h2, h3⟩ := h
  obtain ⟨a, tab, e1, e2, e3, e4⟩ := h3 t ht
  refine ⟨o, a, tab, h1, e1, e2, ?_, ?_, ?_, ?_, ?_, ?_, ?_, ?_, ?_, ?_, ?_⟩
  · intro k x
    cases tab with
    | dict cls rows fr =>
      simp only [TabFrozen] at e3
      subst e3
      simp only [step, tabOp, e2, tabSetItem]
      split
      · split <;> rfl
      · rfl
    | list cls rows => exact e3.elim
    | tuple rows => simp only [step, tabOp, e2]
  · intro k
    cases tab with
    | dict cls rows fr => simp only [TabFrozen] at e3; subst e3; simp [step, tabOp, e2]
    | list cls rows => exact e3.elim
    | tuple rows => simp only [step, tabOp, e2]
  · intro k
    cases tab with
    | dict cls rows fr => simp only [TabFrozen] at e3; subst e3; simp [step, tabOp, e2]
    | list cls rows => exact e3.elim
    | tuple rows => simp only [step, tabOp, e2]
  · intro k b
    cases tab with
    | dict cls rows fr => simp only [TabFrozen] at e3; subst e3; simp [step, tabOp, e2]
    | list cls rows => exact e3.elim
    | tuple rows => simp only [step, tabOp, e2]
  · intro i x
    cases tab with
    | dict cls rows fr => simp only [step, tabOp, e2]
    | list cls rows => exact e3.elim
    | tuple rows => simp only [step, tabOp, e2]
  · intro i x
    cases tab with
    | dict cls rows fr => simp only [step, tabOp, e2]
    | list cls rows => exact e3.elim
    | tuple rows => simp only [step, tabOp, e2]
  · intro i
    cases tab with
    | dict cls rows fr => simp only [step, tabOp, e2]
    | list cls rows => exact e3.elim
    | tuple rows => simp only [step, tabOp, e2]
  · intro k
    cases tab with
    | dict cls rows fr =>
      simp only [TabFrozen] at e3
      subst e3
      simp only [step, tabOp, e2]
      split <;> rfl
    | list cls rows => exact e3.elim
    | tuple rows => simp only [step, tabOp, e2]
  · intro b hb f v
    obtain ⟨r, hr, hf⟩ := e4 b hb
    simp only [step, rowOp, hr, setItem_frozen r f v hf]
  · intro t' b
    simp only [step, h1, h2, if_true]
  · intro t'
    simp only [step, h1, h2, if_true]

/-- **C27, other objects.**  `freeze_me` (whether it succeeds or raises half way) changes the contents of no data
object; of the other data objects it changes nothing but the frozen flags of shared tables and rows. -/
theorem freeze_changes_no_contents (ts order : List String) (w : World) (hok : HeapOK w) (d d' : Nat) (hne : d' ≠ d) :
    viewDat ts (freezeDat w d order).1 d' = viewDat ts w d' ∧
      (freezeDat w d order).1.dats[d']? = w.dats[d']? := by
  obtain ⟨_, ho, _, htv, _, _⟩ := freezeDat_facts w d order
  refine ⟨?_, ho d' hne⟩
  unfold viewDat
  rw [ho d' hne]
  cases hd : w.dats[d']? with
  | none => rfl
  | some o =>
    simp only [Option.map_some, Option.some.injEq]
    apply List.map_congr_left
    intro t _
    cases hg : PyDict.get? o.tabs t with
    | none => rfl
    | some a => exact htv a (hok.tabs d' o hd (t, a) (PyDict.get?_mem hg))

/-! ### Freezing an ordinary data object succeeds -/

/-- A row made by the row factory and not frozen yet. -/
def Freezable : RowObj → Prop
  | .td _ _ b => b = false
  | .opn _ b => b = false
  | .plain _ => False

theorem freezeRow_other (w : World) (a b : Nat) (h : a ≠ b) : (freezeRow w a).1.rows[b]? = w.rows[b]? := by
  rcases freezeRow_spec w a with e | ⟨r, _, _, e⟩
  · rw [e]
  · rw [e]; simp [World.putRow, List.getElem?_set, h]

theorem freezeRow_fresh (w : World) (a : Nat) (r : RowObj) (h : w.rows[a]? = some r) (hf : Freezable r) :
    (freezeRow w a).2 = false := by
  cases r with
  | td dfs data b => simp only [Freezable] at hf; subst hf; simp [freezeRow, h]
  | opn d b => simp only [Freezable] at hf; subst hf; simp [freezeRow, h]
  | plain d => exact hf.elim

/-- A row that is frozen already makes freezing raise, unless it is empty; it stays as it is. -/
theorem freezeRow_frozen (w : World) (a : Nat) (r : RowObj) (h : w.rows[a]? = some r) :
    (∀ dfs data, r = .td dfs data true → freezeRow w a = (w, decide (data ≠ []))) ∧
      ∀ d, r = .opn d true → freezeRow w a = (w, decide (d ≠ [])) := by
  constructor
  · rintro dfs data rfl
    unfold freezeRow
    rw [h]
    simp
  · rintro d rfl
    unfold freezeRow
    rw [h]
    simp

theorem freezeRows_fresh (as : List Nat) : ∀ w : World, as.Nodup → (∀ a ∈ as, ∃ r, w.rows[a]? = some r ∧ Freezable r) →
    (freezeRows w as).2 = false ∧ ∀ b, b ∉ as → (freezeRows w as).1.rows[b]? = w.rows[b]? := by
  induction as with
  | nil => intro w _ _; exact ⟨rfl, fun _ _ => rfl⟩
  | cons a rest ih =>
    intro w hn h
    rw [List.nodup_cons] at hn
    obtain ⟨r, hr, hf⟩ := h a (by simp)
    have h1 := freezeRow_fresh w a r hr hf
    have h2 := fun b hb => freezeRow_other w a b hb
    unfold freezeRows
    cases hx : freezeRow w a with
    | mk w' raised =>
      rw [hx] at h1 h2
      simp only at h1 h2
      subst h1
      simp only
      have := ih w' hn.2 (fun b hb => by
        have hne : a ≠ b := fun e => hn.1 (e ▸ hb)
        rw [h2 b hne]
        exact h b (by simp [hb]))
      refine ⟨this.1, fun b hb => ?_⟩
      simp only [List.mem_cons, not_or] at hb
      rw [this.2 b hb.2, h2 b (fun e => hb.1 e.symm)]

/-- The addresses of the rows of table `t` of data object `d`. -/
def datAddrs (w : World) (d : Nat) (t : String) : List Nat :=
  match (w.dats[d]?).bind (fun o => PyDict.get? o.tabs t) with
  | some a => ((w.tabs[a]?).map TabObj.addrs).getD []
  | none => []

theorem freezeTabs_fresh (ts : List String) : ∀ w : World, ∀ d, ts.Nodup →
    (∀ o, w.dats[d]? = some o → o.frozen = false) →
    (∀ t ∈ ts, ∃ a tab, (w.dats[d]?).bind (fun o => PyDict.get? o.tabs t) = some a ∧ w.tabs[a]? = some tab) →
    (ts.flatMap (datAddrs w d)).Nodup →
    (∀ t ∈ ts, ∀ b ∈ datAddrs w d t, ∃ r, w.rows[b]? = some r ∧ Freezable r) →
    (freezeTabs w d ts).2 = false := by
  induction ts with
  | nil => intro w d _ _ _ _ _; rfl
  | cons t rest ih =>
    intro w d hnt hun htab hnod hfr
    rw [List.nodup_cons] at hnt
    obtain ⟨a, tab, ha, htb⟩ := htab t (by simp)
    have hda : datAddrs w d t = tab.addrs := by simp [datAddrs, ha, htb]
    rw [List.flatMap_cons, List.nodup_append] at hnod
    obtain ⟨n1, n2, n3⟩ := hnod
    have hfresh := freezeRows_fresh tab.addrs w (hda ▸ n1) (fun b hb => hfr t (by simp) b (by rw [hda]; exact hb))
    have hok : (freezeTab w d t).2 = false ∧ ∀ b, b ∉ tab.addrs → (freezeTab w d t).1.rows[b]? = w.rows[b]? := by
      cases hd : w.dats[d]? with
      | none => rw [hd] at ha; simp at ha
      | some o =>
        rw [hd] at ha
        simp only [Option.bind_some] at ha
        unfold freezeTab
        rw [hd]
        simp only [ha, htb]
        cases hx : freezeRows w tab.addrs with
        | mk w' raised =>
          rw [hx] at hfresh
          simp only at hfresh
          obtain ⟨h1, h2⟩ := hfresh
          subst h1
          cases tab <;> exact ⟨rfl, h2⟩
    have hfacts := freezeTab_facts w d t
    have hff := freezeTab_freezeFacts w d t hun
    unfold freezeTabs
    cases hx : freezeTab w d t with
    | mk w' raised =>
      rw [hx] at hok hfacts hff
      simp only at hok hfacts hff
      obtain ⟨h1, h2⟩ := hok
      subst h1
      simp only
      -- the other tables have the same rows as before
      have haddr : ∀ t' ∈ rest, datAddrs w' d t' = datAddrs w d t' := by
        intro t' ht'
        have hne : t' ≠ t := fun e => hnt.1 (e ▸ ht')
        obtain ⟨a', tab', ha', htb'⟩ := htab t' (by simp [ht'])
        have hget := hfacts.otherTabs t' hne
        rw [ha'] at hget
        simp only [datAddrs, ha', hget, htb', Option.map_some, Option.getD_some]
        obtain ⟨w0, g1, _, hcase⟩ := freezeTab_cases w d t
        rw [hx] at hcase
        simp only at hcase
        rcases hcase with ⟨_, hbad⟩ | ⟨o, a0, tab0, hd0, ha0, ht0, _, _, hcase⟩
        · simp at hbad
        · rcases hcase with ⟨cls, rows, fr, rfl, he⟩ | ⟨hnd, he⟩
          · rw [he]
            simp only [World.putTab, List.getElem?_set, g1.tabs]
            by_cases haa : a0 = a'
            · subst haa
              have hlt : a0 < w.tabs.length := by
                rw [List.getElem?_eq_some_iff] at ht0
                exact ht0.1
              rw [ht0] at htb'
              cases htb'
              simp [hlt, TabObj.addrs]
            · simp [haa, htb']
          · rw [he]
            show ((w0.tabs ++ _)[a']?.map _).getD _ = _
            rw [g1.tabs, getElem?_append_some htb']
            rfl
      apply ih w' d hnt.2 (unfrozen_of_flag hfacts.flag hun)
      · intro t' ht'
        have hne : t' ≠ t := fun e => hnt.1 (e ▸ ht')
        obtain ⟨a', tab', ha', htb'⟩ := htab t' (by simp [ht'])
        refine ⟨a', ?_⟩
        have hlt : a' < w'.tabs.length := Nat.lt_of_lt_of_le (by
          rw [List.getElem?_eq_some_iff] at htb'
          exact htb'.1) hfacts.tabLen
        exact ⟨w'.tabs[a'], by rw [hfacts.otherTabs t' hne]; exact ha', by simp [hlt]⟩
      · have : rest.flatMap (datAddrs w' d) = rest.flatMap (datAddrs w d) := by
          rw [List.flatMap_def, List.flatMap_def, List.map_congr_left haddr]
        rw [this]; exact n2
      · intro t' ht' b hb
        rw [haddr t' ht'] at hb
        have hnb : b ∉ tab.addrs := by
          intro hb'
          exact n3 b (by rw [hda]; exact hb') b (List.mem_flatMap.mpr ⟨t', ht', hb⟩) rfl
        rw [h2 b hnb]
        exact hfr t' (by simp [ht']) b hb

/-- **C27, freezing works.**  For an unfrozen data object that has all the tables of the schema and whose rows are
distinct, unfrozen row objects (as the constructor, the file readers and item assignment make them), `freeze_me`
succeeds whatever the order in which it visits the tables. -/
theorem freeze_succeeds (order : List String) (w : World) (d : Nat) (o : DatObj) (hd : w.dats[d]? = some o)
    (ho : o.frozen = false) (hn : order.Nodup)
    (htab : ∀ t ∈ order, ∃ a tab, PyDict.get? o.tabs t = some a ∧ w.tabs[a]? = some tab)
    (hrows : (order.flatMap (datAddrs w d)).Nodup)
    (hfr : ∀ t ∈ order, ∀ b ∈ datAddrs w d t, ∃ r, w.rows[b]? = some r ∧ Freezable r) :
    (freezeDat w d order).2 = false := by
  have hunf : ∀ o, w.dats[d]? = some o → o.frozen = false := by
    intro o' ho'
    rw [hd] at ho'
    cases ho'
    exact ho
  have h := freezeTabs_fresh order w d hn hunf (by rw [hd]; exact htab) hrows hfr
  have hf := freezeTabs_facts order w d hunf
  unfold freezeDat
  rw [hd]
  simp only [ho, Bool.false_eq_true, if_false]
  cases hx : freezeTabs w d order with
  | mk w' raised =>
    rw [hx] at h hf
    simp only at h hf
    subst h
    simp only
    have := hf.flag
    rw [hd] at this
    cases hd' : w'.dats[d]? with
    | none => rw [hd'] at this; simp at this
    | some o' => rfl

/-! ### The dictionary methods that are not overridden -/

/-- A heap with one data object with one keyed table with one row, frozen by `freeze_me`. -/
def frozenWorld : World :=
  run ⟨[.td ["cost"] [.num (.fin 5)] false], [.dict ⟨["name"], ["cost"], []⟩ [(.one (.str "x"), 0)] false], [⟨[("foods", 0)], false⟩]⟩
    [.freeze 0 ["foods"]]

theorem frozenWorld_frozen : FrozenDat ["foods"] frozenWorld 0 := by
  refine ⟨⟨[("foods", 0)], true⟩, by decide +kernel, rfl, fun t ht => ?_⟩
  obtain rfl : t = "foods" := by simpa using ht
  refine ⟨0, .dict ⟨["name"], ["cost"], []⟩ [(.one (.str "x"), 0)] true, by decide +kernel, by decide +kernel, rfl, ?_⟩
  intro b hb
  obtain rfl : b = 0 := by simpa [TabObj.addrs] using hb
  exact ⟨.td ["cost"] [.num (.fin 5)] true, by decide +kernel, rfl⟩

/-- **C27 fails:** `dat.foods.clear()` empties a table of a frozen data object, without an exception. -/
theorem frozen_table_can_be_cleared :
    FrozenDat ["foods"] frozenWorld 0 ∧ (step frozenWorld (.tab 0 .clear)).2 = false ∧
      viewDat ["foods"] frozenWorld 0 = some [some [(some (.one (.str "x")), some [("cost", .num (.fin 5))])]] ∧
      viewDat ["foods"] (step frozenWorld (.tab 0 .clear)).1 0 = some [some []] :=
  ⟨frozenWorld_frozen, by decide +kernel, by decide +kernel, by decide +kernel⟩

/-- **C27 fails:** `popitem`, `setdefault` and `|=` change a frozen table too. -/
theorem frozen_table_other_leaks :
    viewDat ["foods"] (step frozenWorld (.tab 0 .popitem)).1 0 = some [some []] ∧
      viewDat ["foods"] (run frozenWorld [.newPlain [], .tab 0 (.setdefault (.one (.str "y")) 1)]) 0 =
        some [some [(some (.one (.str "x")), some [("cost", .num (.fin 5))]), (some (.one (.str "y")), some [])]] ∧
      viewDat ["foods"] (run frozenWorld [.newPlain [], .tab 0 (.ior (.one (.str "x")) 1)]) 0 =
        some [some [(some (.one (.str "x")), some [])]] := by
  decide +kernel

/-! ### Non-vacuity -/

/-- A heap with two data objects (one keyed and one list table each) that share the list table. -/
def demoHeap : World :=
  ⟨[.td ["cost", "note"] [.num (.fin 5), .none] false, .td ["cost", "note"] [.num (.fin 6), .none] false,
    .td ["v"] [.str "a"] false],
   [.dict demoClassF [(.one (.str "x"), 0), (.one (.str "y"), 1)] false, .list ⟨[], ["v"], []⟩ [2],
    .dict demoClassF [] false],
   [⟨[("foods", 0), ("log", 1)], false⟩, ⟨[("foods", 2), ("log", 1)], false⟩]⟩
where
  /-- the class of the keyed table -/
  demoClassF : TabClass := ⟨["name"], ["cost", "note"], [("note", .str "?")]⟩

theorem demoHeap_ok : HeapOK demoHeap := by
  refine ⟨fun i t h b hb => ?_, fun i o h p hp => ?_⟩
  · match i, h with
    | 0, h => cases h; simp [TabObj.addrs] at hb; rcases hb with rfl | rfl <;> decide
    | 1, h => cases h; simp [TabObj.addrs] at hb; subst hb; decide
    | 2, h => cases h; simp [TabObj.addrs] at hb
    | n + 3, h => simp [demoHeap] at h
  · match i, h with
    | 0, h => cases h; simp at hp; rcases hp with rfl | rfl <;> decide
    | 1, h => cases h; simp at hp; rcases hp with rfl | rfl <;> decide
    | n + 2, h => simp [demoHeap] at h

example : (freezeDat demoHeap 0 ["log", "foods"]).2 = false ∧ (freezeDat demoHeap 0 ["foods", "log"]).2 = false ∧
    (["log", "foods"].flatMap (datAddrs demoHeap 0)).Nodup := by decide +kernel

/-- A history before and one after the freeze of object 0. -/
def demoBefore : List Op := [.row 0 "cost" (.num (.fin 7)), .tab 0 (.getItem (.one (.str "z"))), .freeze 0 ["log", "foods"]]

/-- Attempts on the frozen object, and on the one that shares its list table. -/
def demoAfter : List Op :=
  [.row 0 "cost" .none, .tab 0 (.setItem (.one (.str "q")) (.dict [])), .tab 1 (.insert 0 (.scalar .none)),
   .row 2 "v" .none, .delAttr 0 "log", .tab 2 (.setItem (.one (.str "q")) (.dict []))]

example : (∀ op ∈ demoBefore ++ demoAfter, op.unguarded = false) ∧
    ((run demoHeap demoBefore).dats[0]?).map (·.frozen) = some true := by decide +kernel

example : viewDat ["foods", "log"] (run demoHeap (demoBefore ++ demoAfter)) 0 =
    some [some [(some (.one (.str "x")), some [("cost", .num (.fin 7)), ("note", .none)]),
      (some (.one (.str "y")), some [("cost", .num (.fin 6)), ("note", .none)]),
      (some (.one (.str "z")), some [("cost", .num (.fin 0)), ("note", .str "?")])],
      some [(none, some [("v", .str "a")])]] := by decide +kernel

example : viewDat ["foods", "log"] (run demoHeap (demoBefore ++ demoAfter)) 1 =
    some [some [(some (.one (.str "q")), some [("cost", .num (.fin 0)), ("note", .str "?")])],
      some [(none, some [("v", .none)]), (none, some [("v", .str "a")])]] := by decide +kernel

end Ticdat

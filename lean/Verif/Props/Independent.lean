import Verif.Props.Freeze
import Verif.Spec.Copy
/-!
# C31: two clients that use their own objects do not see each other's changes
-/
set_option linter.unusedSimpArgs false
namespace Ticdat
open Spec

/-- A step of client `s`: the objects of the other client are the same objects, and ownership is still clean. -/
structure Guarded (own : Owner) (s : Bool) (w w' : World) : Prop where
  rlen : w.rows.length ≤ w'.rows.length
  tlen : w.tabs.length ≤ w'.tabs.length
  dlen : w.dats.length ≤ w'.dats.length
  rows : ∀ a, own.row a ≠ s → a < w.rows.length → w'.rows[a]? = w.rows[a]?
  tabs : ∀ a, own.tab a ≠ s → a < w.tabs.length → w'.tabs[a]? = w.tabs[a]?
  dats : ∀ a, own.dat a ≠ s → a < w.dats.length → w'.dats[a]? = w.dats[a]?
  sep : Separated (own.grow w s) w'
  ok : HeapOK w'

theorem grow_row_of {own : Owner} {w : World} {s : Bool} {a : Nat} (h : own.row a = s) : (own.grow w s).row a = s := by
  simp only [Owner.grow]; split <;> simp [h]

theorem grow_tab_of {own : Owner} {w : World} {s : Bool} {a : Nat} (h : own.tab a = s) : (own.grow w s).tab a = s := by
  simp only [Owner.grow]; split <;> simp [h]

theorem grow_dat_of {own : Owner} {w : World} {s : Bool} {a : Nat} (h : own.dat a = s) : (own.grow w s).dat a = s := by
  simp only [Owner.grow]; split <;> simp [h]

theorem lt_of_some {A : Type} {l : List A} {a : Nat} {x : A} (h : l[a]? = some x) : a < l.length :=
  (List.getElem?_eq_some_iff.1 h).1

theorem Spec.Separated.grow {own : Owner} {w : World} (h : Separated own w) (ok : HeapOK w) (s : Bool) : Separated (own.grow w s) w := by
  constructor
  · intro a tab ht b hb
    have h1 := ok.rows a tab ht b hb
    have h2 := lt_of_some ht
    simp only [Owner.grow]
    rw [if_neg (by omega), if_neg (by omega)]
    exact h.rows a tab ht b hb
  · intro d o hd p hp
    have h1 := ok.tabs d o hd p hp
    have h2 := lt_of_some hd
    simp only [Owner.grow]
    rw [if_neg (by omega), if_neg (by omega)]
    exact h.tabs d o hd p hp

theorem Guarded.refl {own : Owner} {w : World} (s : Bool) (h : Separated own w) (ok : HeapOK w) : Guarded own s w w :=
  ⟨Nat.le_refl _, Nat.le_refl _, Nat.le_refl _, fun _ _ _ => rfl, fun _ _ _ => rfl, fun _ _ _ => rfl, h.grow ok s, ok⟩

theorem grow_grow (own : Owner) (s : Bool) {w w' : World} (h1 : w.rows.length ≤ w'.rows.length)
    (h2 : w.tabs.length ≤ w'.tabs.length) (h3 : w.dats.length ≤ w'.dats.length) :
    (own.grow w s).grow w' s = own.grow w s := by
  unfold Owner.grow
  simp only [Owner.mk.injEq]
  refine ⟨?_, ?_, ?_⟩ <;> funext a <;> split
  · rw [if_pos (by omega)]
  · rfl
  · rw [if_pos (by omega)]
  · rfl
  · rw [if_pos (by omega)]
  · rfl

theorem Guarded.trans {own : Owner} {s : Bool} {w w' w'' : World} (h1 : Guarded own s w w')
    (h2 : Guarded (own.grow w s) s w' w'') : Guarded own s w w'' := by
  refine ⟨Nat.le_trans h1.rlen h2.rlen, Nat.le_trans h1.tlen h2.tlen, Nat.le_trans h1.dlen h2.dlen, ?_, ?_, ?_, ?_, h2.ok⟩
  · intro a ha hl
    rw [h2.rows a _ (Nat.lt_of_lt_of_le hl h1.rlen), h1.rows a ha hl]
    simp only [Owner.grow]; rw [if_neg (by omega)]; exact ha
  · intro a ha hl
    rw [h2.tabs a _ (Nat.lt_of_lt_of_le hl h1.tlen), h1.tabs a ha hl]
    simp only [Owner.grow]; rw [if_neg (by omega)]; exact ha
  · intro a ha hl
    rw [h2.dats a _ (Nat.lt_of_lt_of_le hl h1.dlen), h1.dats a ha hl]
    simp only [Owner.grow]; rw [if_neg (by omega)]; exact ha
  · have := h2.sep
    rwa [grow_grow own s h1.rlen h1.tlen h1.dlen] at this

section Basic
variable {own : Owner} {s : Bool} {w : World} (h : Separated own w) (ok : HeapOK w)
include h ok

theorem Guarded.newRow (r : RowObj) : Guarded own s w (w.newRow r) := by
  refine ⟨by simp [World.newRow], Nat.le_refl _, Nat.le_refl _, ?_, fun _ _ _ => rfl, fun _ _ _ => rfl, ?_, ok.newRow r⟩
  · intro a _ hl
    exact List.getElem?_append_left hl
  · exact ⟨(h.grow ok s).rows, (h.grow ok s).tabs⟩

theorem Guarded.putRow (a : Nat) (r : RowObj) (ha : own.row a = s) : Guarded own s w (w.putRow a r) := by
  refine ⟨by simp [World.putRow], Nat.le_refl _, Nat.le_refl _, ?_, fun _ _ _ => rfl, fun _ _ _ => rfl, ?_, ok.putRow a r⟩
  · intro b hb hl
    simp only [World.putRow, List.getElem?_set]
    rw [if_neg]
    rintro rfl
    exact hb ha
  · exact ⟨(h.grow ok s).rows, (h.grow ok s).tabs⟩

theorem Guarded.newTab (t : TabObj) (ht : ∀ b ∈ t.addrs, own.row b = s) (hv : ∀ b ∈ t.addrs, b < w.rows.length) :
    Guarded own s w (w.newTab t) := by
  refine ⟨Nat.le_refl _, by simp [World.newTab], Nat.le_refl _, fun _ _ _ => rfl, ?_, fun _ _ _ => rfl, ?_, ok.newTab t hv⟩
  · intro a _ hl
    exact List.getElem?_append_left hl
  · refine ⟨?_, (h.grow ok s).tabs⟩
    intro a tab hg b hb
    simp only [World.newTab] at hg
    by_cases hl : a < w.tabs.length
    · rw [List.getElem?_append_left hl] at hg
      exact (h.grow ok s).rows a tab hg b hb
    · have hl' := lt_of_some hg
      rw [List.length_append] at hl'
      simp only [List.length_singleton] at hl'
      have : a = w.tabs.length := by omega
      subst this
      rw [List.getElem?_concat_length] at hg
      cases hg
      rw [grow_row_of (ht b hb)]
      simp only [Owner.grow]
      rw [if_pos (Nat.le_refl _)]

theorem Guarded.putTab (a : Nat) (t : TabObj) (ha : own.tab a = s) (ht : ∀ b ∈ t.addrs, own.row b = s)
    (hv : ∀ b ∈ t.addrs, b < w.rows.length) : Guarded own s w (w.putTab a t) := by
  refine ⟨Nat.le_refl _, by simp [World.putTab], Nat.le_refl _, fun _ _ _ => rfl, ?_, fun _ _ _ => rfl, ?_, ok.putTab a t hv⟩
  · intro b hb hl
    simp only [World.putTab, List.getElem?_set]
    rw [if_neg]
    rintro rfl
    exact hb ha
  · refine ⟨?_, (h.grow ok s).tabs⟩
    intro b tab hg c hc
    simp only [World.putTab, List.getElem?_set] at hg
    split at hg
    · rename_i e
      subst e
      split at hg
      · cases hg
        rw [grow_row_of (ht c hc), grow_tab_of ha]
      · cases hg
    · exact (h.grow ok s).rows b tab hg c hc

theorem Guarded.putDat (d : Nat) (o : DatObj) (hd : own.dat d = s) (ht : ∀ p ∈ o.tabs, own.tab p.2 = s)
    (hv : ∀ p ∈ o.tabs, p.2 < w.tabs.length) : Guarded own s w (w.putDat d o) := by
  refine ⟨Nat.le_refl _, Nat.le_refl _, by simp [World.putDat], fun _ _ _ => rfl, fun _ _ _ => rfl, ?_, ?_, ok.putDat d o hv⟩
  · intro b hb hl
    simp only [World.putDat, List.getElem?_set]
    rw [if_neg]
    rintro rfl
    exact hb hd
  · refine ⟨(h.grow ok s).rows, ?_⟩
    intro b o' hg p hp
    simp only [World.putDat, List.getElem?_set] at hg
    split at hg
    · rename_i e
      subst e
      split at hg
      · cases hg
        rw [grow_tab_of (ht p hp), grow_dat_of hd]
      · cases hg
    · exact (h.grow ok s).tabs b o' hg p hp

/-- A new row, stored in a table. -/
theorem Guarded.storeRow (a : Nat) (r : RowObj) (t : TabObj) (ha : own.tab a = s)
    (ht : ∀ b ∈ t.addrs, b = w.rows.length ∨ own.row b = s ∧ b < w.rows.length) :
    Guarded own s w ((w.newRow r).putTab a t) := by
  have g1 := Guarded.newRow (s := s) h ok r
  refine g1.trans (Guarded.putTab g1.sep g1.ok a t (grow_tab_of ha) ?_ ?_)
  · intro b hb
    rcases ht b hb with rfl | ⟨h1, _⟩
    · simp [Owner.grow]
    · exact grow_row_of h1
  · intro b hb
    simp only [World.newRow, List.length_append, List.length_singleton]
    rcases ht b hb with rfl | ⟨_, h2⟩ <;> omega

end Basic

theorem guarded_tabOp {own : Owner} {s : Bool} {w : World} (h : Separated own w) (ok : HeapOK w) (a : Nat) (op : TabOp)
    (ha : own.tab a = s) (hop : TabOpOf own s op) : Guarded own s w (tabOp w a op).1 := by
  have refl := Guarded.refl s h ok
  unfold tabOp
  cases ht : w.tabs[a]? with
  | none => exact refl
  | some tab =>
    have hr : ∀ b ∈ tab.addrs, own.row b = s ∧ b < w.rows.length :=
      fun b hb => ⟨(h.rows a tab ht b hb).trans ha, ok.rows a tab ht b hb⟩
    cases tab with
    | dict cls rows frozen =>
      have hset : ∀ (k : KeyArg) (n : Nat) fr, ∀ b ∈ (TabObj.dict cls (PyDict.set rows k n) fr).addrs, b = n ∨ own.row b = s ∧ b < w.rows.length := by
        intro k n fr b hb
        simp only [TabObj.addrs, List.mem_map] at hb
        obtain ⟨p, hp, rfl⟩ := hb
        rcases set_subset _ _ _ p hp with hp | hp
        · exact .inr (hr _ (List.mem_map.2 ⟨p, hp, rfl⟩))
        · exact .inl hp
      have hsub : ∀ (l : PyDict KeyArg Nat) fr, (∀ p ∈ l, p ∈ rows) → ∀ b ∈ (TabObj.dict cls l fr).addrs, own.row b = s ∧ b < w.rows.length := by
        intro l fr hl b hb
        simp only [TabObj.addrs, List.mem_map] at hb
        obtain ⟨p, hp, rfl⟩ := hb
        exact hr _ (List.mem_map.2 ⟨p, hl p hp, rfl⟩)
      have hsi : ∀ k x, Guarded own s w (tabSetItem w a cls rows frozen k x).1 := by
        intro k x
        unfold tabSetItem
        split
        · split
          · exact refl
          · split
            · exact refl
            · exact Guarded.storeRow h ok a _ _ ha (hset k _ _)
        · exact refl
      have hput : ∀ k n, own.row n = s → n < w.rows.length → Guarded own s w (w.putTab a (.dict cls (PyDict.set rows k n) frozen)) := by
        intro k n h1 h2
        refine Guarded.putTab h ok a _ ha (fun b hb => ?_) (fun b hb => ?_)
        · rcases hset k n _ b hb with rfl | hh
          · exact h1
          · exact hh.1
        · rcases hset k n _ b hb with rfl | hh
          · exact h2
          · exact hh.2
      have hdel : ∀ l, (∀ p ∈ l, p ∈ rows) → Guarded own s w (w.putTab a (.dict cls l frozen)) := fun l hl =>
        Guarded.putTab h ok a _ ha (fun b hb => (hsub l _ hl b hb).1) (fun b hb => (hsub l _ hl b hb).2)
      cases op with
      | setItem k x => exact hsi k x
      | getItem k =>
        simp only
        split
        · exact refl
        · split
          · exact refl
          · exact hsi _ _
      | delItem k =>
        simp only
        split
        · exact refl
        · split
          · exact hdel _ (erase_subset _ _)
          · exact refl
      | pop k =>
        simp only
        split
        · exact refl
        · split
          · exact hdel _ (erase_subset _ _)
          · exact refl
      | update k b =>
        simp only
        split
        · exact refl
        · split
          · rename_i hb
            exact hput k b hop hb
          · exact refl
      | ior k b =>
        simp only
        split
        · rename_i hb
          exact hput k b hop hb
        · exact refl
      | setdefault k b =>
        simp only
        split
        · exact refl
        · split
          · rename_i hb
            exact hput k b hop hb
          · exact refl
      | clear => exact hdel [] (by simp)
      | popitem =>
        simp only
        split
        · exact refl
        · exact hdel _ (fun p hp => List.dropLast_subset _ hp)
      | insert i x => exact refl
      | setAt i x => exact refl
      | delAt i => exact refl
    | list cls rows =>
      cases op with
      | insert i x =>
        simp only
        split
        · exact refl
        · refine Guarded.storeRow h ok a _ _ ha ?_
          intro b hb
          simp only [TabObj.addrs, List.mem_append, List.mem_cons] at hb
          rcases hb with hb | rfl | hb
          · exact .inr (hr b (List.mem_of_mem_take hb))
          · exact .inl rfl
          · exact .inr (hr b (List.mem_of_mem_drop hb))
      | setAt i x =>
        simp only
        split
        · exact refl
        · split
          · refine Guarded.storeRow h ok a _ _ ha ?_
            intro b hb
            rcases List.mem_or_eq_of_mem_set hb with hb | rfl
            · exact .inr (hr b hb)
            · exact .inl rfl
          · exact refl
      | delAt i =>
        simp only
        split
        · exact Guarded.putTab h ok a _ ha (fun b hb => (hr b (List.mem_of_mem_eraseIdx hb)).1)
            (fun b hb => (hr b (List.mem_of_mem_eraseIdx hb)).2)
        · exact refl
      | _ => exact refl
    | tuple rows => exact refl

theorem guarded_freezeRow {own : Owner} {s : Bool} {w : World} (h : Separated own w) (ok : HeapOK w) (a : Nat)
    (ha : own.row a = s) : Guarded own s w (freezeRow w a).1 := by
  unfold freezeRow
  split
  · exact Guarded.putRow h ok a _ ha
  · exact Guarded.refl s h ok
  · exact Guarded.putRow h ok a _ ha
  · exact Guarded.refl s h ok
  · exact Guarded.refl s h ok

theorem guarded_freezeRows {s : Bool} (l : List Nat) : ∀ {own : Owner} {w : World} (_ : Separated own w) (_ : HeapOK w)
    (_ : ∀ a ∈ l, own.row a = s), Guarded own s w (freezeRows w l).1 := by
  induction l with
  | nil => intro own w h ok _; exact Guarded.refl s h ok
  | cons a l ih =>
    intro own w h ok hl
    have g := guarded_freezeRow h ok a (hl a (by simp))
    simp only [freezeRows]
    cases e : freezeRow w a with
    | mk w' r =>
      rw [e] at g
      cases r with
      | true => exact g
      | false => exact g.trans (ih g.sep g.ok (fun b hb => grow_row_of (hl b (by simp [hb]))))

theorem guarded_freezeTab {own : Owner} {s : Bool} {w : World} (h : Separated own w) (ok : HeapOK w) (d : Nat) (t : String)
    (hd : own.dat d = s) : Guarded own s w (freezeTab w d t).1 := by
  have refl := Guarded.refl s h ok
  unfold freezeTab
  cases ho : w.dats[d]? with
  | none => exact refl
  | some o =>
    simp only
    cases hg : PyDict.get? o.tabs t with
    | none => exact refl
    | some a =>
      simp only
      have ha : own.tab a = s := (h.tabs d o ho _ (PyDict.get?_mem hg)).trans hd
      cases ht : w.tabs[a]? with
      | none => exact refl
      | some tab =>
        simp only
        have hr : ∀ b ∈ tab.addrs, own.row b = s ∧ b < w.rows.length :=
          fun b hb => ⟨(h.rows a tab ht b hb).trans ha, ok.rows a tab ht b hb⟩
        have g := guarded_freezeRows tab.addrs h ok (fun b hb => (hr b hb).1)
        cases e : freezeRows w tab.addrs with
        | mk w' r =>
          rw [e] at g
          cases r with
          | true => exact g
          | false =>
            have hr' : ∀ b ∈ tab.addrs, (own.grow w s).row b = s ∧ b < w'.rows.length :=
              fun b hb => ⟨grow_row_of (hr b hb).1, Nat.lt_of_lt_of_le (hr b hb).2 g.rlen⟩
            have tuple : ∀ rows : List Nat, rows = tab.addrs →
                Guarded own s w ((w'.newTab (.tuple rows)).putDat d ⟨PyDict.set o.tabs t w'.tabs.length, o.frozen⟩) := by
              rintro rows rfl
              have g2 := Guarded.newTab (s := s) g.sep g.ok (.tuple tab.addrs) (fun b hb => (hr' b hb).1) (fun b hb => (hr' b hb).2)
              have g12 := g.trans g2
              refine g12.trans (Guarded.putDat g12.sep g12.ok d _ (grow_dat_of hd) ?_ ?_)
              · intro p hp
                rcases set_subset _ _ _ p hp with hp | hp
                · exact grow_tab_of ((h.tabs d o ho p hp).trans hd)
                · simp only [Owner.grow]
                  rw [if_pos]
                  rw [hp]
                  exact g.tlen
              · intro p hp
                simp only [World.newTab, List.length_append, List.length_singleton]
                rcases set_subset _ _ _ p hp with hp | hp
                · exact Nat.lt_succ_of_lt (Nat.lt_of_lt_of_le (ok.tabs d o ho p hp) g.tlen)
                · omega
            cases tab with
            | dict cls rows fr => exact g.trans (Guarded.putTab g.sep g.ok a _ (grow_tab_of ha) (fun b hb => (hr' b hb).1) (fun b hb => (hr' b hb).2))
            | list cls rows => exact tuple rows rfl
            | tuple rows => exact tuple rows rfl

theorem guarded_freezeTabs {s : Bool} (ts : List String) : ∀ {own : Owner} {w : World} (_ : Separated own w) (_ : HeapOK w)
    (d : Nat) (_ : own.dat d = s), Guarded own s w (freezeTabs w d ts).1 := by
  induction ts with
  | nil => intro own w h ok d _; exact Guarded.refl s h ok
  | cons t ts ih =>
    intro own w h ok d hd
    have g := guarded_freezeTab h ok d t hd
    simp only [freezeTabs]
    cases e : freezeTab w d t with
    | mk w' r =>
      rw [e] at g
      cases r with
      | true => exact g
      | false => exact g.trans (ih g.sep g.ok d (grow_dat_of hd))

/-- One step of client `s` leaves the objects of the other client alone. -/
theorem guarded_step {own : Owner} {s : Bool} {w : World} (h : Separated own w) (ok : HeapOK w) (op : Op) (hop : OpOf own s op) :
    Guarded own s w (step w op).1 := by
  have refl := Guarded.refl s h ok
  cases op with
  | tab a o => exact guarded_tabOp h ok a o hop.1 hop.2
  | row a f v =>
    simp only [step, rowOp]
    split
    · exact refl
    · split
      · exact refl
      · exact Guarded.putRow h ok a _ hop
  | newPlain fields => exact Guarded.newRow h ok _
  | setAttr d t a =>
    simp only [step]
    split
    · exact refl
    · rename_i o ho
      split
      · exact refl
      · split
        · refine Guarded.putDat h ok d _ hop.1 (fun p hp => ?_) (fun p hp => ?_)
          · rcases set_subset _ _ _ p hp with hp | hp
            · exact (h.tabs d o ho p hp).trans hop.1
            · rw [hp]; exact hop.2
          · rcases set_subset _ _ _ p hp with hp | hp
            · exact ok.tabs d o ho p hp
            · omega
        · exact refl
  | delAttr d t =>
    simp only [step]
    split
    · exact refl
    · rename_i o ho
      split
      · exact refl
      · split
        · exact Guarded.putDat h ok d _ hop (fun p hp => (h.tabs d o ho p (erase_subset _ _ p hp)).trans hop)
            (fun p hp => ok.tabs d o ho p (erase_subset _ _ p hp))
        · exact refl
  | freeze d order =>
    simp only [step]
    rcases freezeDat_cases w d order with he | ⟨o, _, _, ⟨he, _⟩ | ⟨o', _, hd', he⟩⟩
    · rw [he]; exact refl
    · rw [he]; exact guarded_freezeTabs order h ok d hop
    · rw [he]
      have g := guarded_freezeTabs (s := s) order h ok d hop
      refine g.trans (Guarded.putDat g.sep g.ok d _ (grow_dat_of hop) (fun p hp => ?_) (fun p hp => ?_))
      · exact (g.sep.tabs d o' hd' p hp).trans (grow_dat_of hop)
      · exact g.ok.tabs d o' hd' p hp

theorem viewDat_guarded {own : Owner} {s : Bool} {w w' : World} (h : Separated own w) (ok : HeapOK w) (g : Guarded own s w w')
    (ts : List String) (d : Nat) (hd : own.dat d ≠ s) (hl : d < w.dats.length) : viewDat ts w' d = viewDat ts w d := by
  unfold viewDat
  rw [g.dats d hd hl]
  cases ho : w.dats[d]? with
  | none => rfl
  | some o =>
    simp only [Option.map_some, Option.some.injEq]
    apply List.map_congr_left
    intro t _
    cases hg : PyDict.get? o.tabs t with
    | none => rfl
    | some a =>
      have hm := PyDict.get?_mem hg
      have ha : own.tab a ≠ s := fun e => hd ((h.tabs d o ho _ hm).symm.trans e)
      simp only [Option.bind_some, viewTabAt]
      rw [g.tabs a ha (ok.tabs d o ho _ hm)]
      cases ht : w.tabs[a]? with
      | none => rfl
      | some tab =>
        simp only [Option.map_some, Option.some.injEq]
        have hv : ∀ b ∈ tab.addrs, viewRow w' b = viewRow w b := by
          intro b hb
          unfold viewRow
          rw [g.rows b (fun e => ha ((h.rows a tab ht b hb).symm.trans e)) (ok.rows a tab ht b hb)]
        cases tab with
        | dict cls rows fr =>
          simp only [viewTab]
          apply List.map_congr_left
          intro p hp
          rw [hv p.2 (by simp only [TabObj.addrs, List.mem_map]; exact ⟨p, hp, rfl⟩)]
        | list cls rows => exact List.map_congr_left (fun b hb => by rw [hv b hb])
        | tuple rows => exact List.map_congr_left (fun b hb => by rw [hv b hb])

/-- The heap after a history of both clients. -/
theorem sided_run (hist : List (Bool × Op)) : ∀ {own : Owner} {w : World}, Separated own w → HeapOK w → Sided own w hist →
    ∃ own', Separated own' (run w (hist.map Prod.snd)) ∧ HeapOK (run w (hist.map Prod.snd)) ∧
      w.dats.length ≤ (run w (hist.map Prod.snd)).dats.length ∧ (∀ d < w.dats.length, own'.dat d = own.dat d) ∧
      ∀ rest, Sided own w (hist ++ rest) → Sided own' (run w (hist.map Prod.snd)) rest := by
  induction hist with
  | nil => intro own w h ok _; exact ⟨own, h, ok, Nat.le_refl _, fun _ _ => rfl, fun _ hh => hh⟩
  | cons p hist ih =>
    obtain ⟨s, op⟩ := p
    intro own w h ok hs
    have g := guarded_step h ok op hs.1
    obtain ⟨own', h1, h2, h3, h4, h5⟩ := ih g.sep g.ok hs.2
    refine ⟨own', h1, h2, Nat.le_trans g.dlen h3, ?_, ?_⟩
    · intro d hd
      rw [h4 d (Nat.lt_of_lt_of_le hd g.dlen)]
      simp only [Owner.grow]
      rw [if_neg (by omega)]
    · intro rest hr
      exact h5 rest hr.2

/-- **C31, independence.**  In a history of two clients who each use their own objects, no step of one client changes what
the other sees of a data object of theirs. -/
theorem clients_independent (own : Owner) (w : World) (h : Separated own w) (ok : HeapOK w) (before : List (Bool × Op)) (s : Bool)
    (op : Op) (hs : Sided own w (before ++ [(s, op)])) (ts : List String) (d : Nat) (hl : d < w.dats.length) (hd : own.dat d ≠ s) :
    viewDat ts (run w (before.map Prod.snd ++ [op])) d = viewDat ts (run w (before.map Prod.snd)) d := by
  have hb : Sided own w before := by
    clear h ok hd hl
    induction before generalizing own w with
    | nil => trivial
    | cons p before ih => exact ⟨hs.1, ih _ _ hs.2⟩
  obtain ⟨own', h1, h2, h3, h4, h5⟩ := sided_run before h ok hb
  have hop := h5 _ hs
  rw [run_append]
  exact viewDat_guarded h1 h2 (guarded_step h1 h2 op hop.1) ts d (by rw [h4 d hl]; exact hd) (Nat.lt_of_lt_of_le hl h3)

end Ticdat

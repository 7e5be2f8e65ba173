import Verif.Lemmas.Rows
import Verif.Spec.Rows
/-!
# Lemmas about heaps: what steps keep
-/
namespace Ticdat
open Spec
set_option linter.unusedSimpArgs false

/-- `_dataFrozen = True` on a row. -/
def RowObj.freeze : RowObj → RowObj
  | .td dfs data _ => .td dfs data true
  | .opn d _ => .opn d true
  | .plain d => .plain d

@[simp] theorem RowObj.freeze_fields (r : RowObj) : r.freeze.fields = r.fields := by cases r <;> rfl

/-- Everything frozen in `w` is the same object in `w'`. -/
structure Keeps (w w' : World) : Prop where
  rows : ∀ (i : Nat) (r : RowObj), w.rows[i]? = some r → r.frozen = true → w'.rows[i]? = some r
  tabs : ∀ (i : Nat) (t : TabObj), w.tabs[i]? = some t → TabFrozen t → w'.tabs[i]? = some t
  dats : ∀ (i : Nat) (o : DatObj), w.dats[i]? = some o → o.frozen = true → w'.dats[i]? = some o

theorem Keeps.refl (w : World) : Keeps w w := ⟨fun _ _ h _ => h, fun _ _ h _ => h, fun _ _ h _ => h⟩

theorem Keeps.trans {a b c : World} (h1 : Keeps a b) (h2 : Keeps b c) : Keeps a c :=
  ⟨fun i r h hf => h2.rows i r (h1.rows i r h hf) hf, fun i t h hf => h2.tabs i t (h1.tabs i t h hf) hf,
   fun i o h hf => h2.dats i o (h1.dats i o h hf) hf⟩

theorem getElem?_append_some {A : Type} {l m : List A} {i : Nat} {x : A} (h : l[i]? = some x) :
    (l ++ m)[i]? = some x := by
  rw [List.getElem?_append_left (by
    rw [List.getElem?_eq_some_iff] at h
    exact h.1)]
  exact h

theorem getElem?_set_ne_some {A : Type} {l : List A} {i a : Nat} {x y : A} (h : l[i]? = some x)
    (hne : a = i → y = x) : (l.set a y)[i]? = some x := by
  rw [List.getElem?_set]
  have hi : i < l.length := by
    rw [List.getElem?_eq_some_iff] at h
    exact h.1
  by_cases ha : a = i
  · subst ha; simp [hi, hne rfl]
  · simp [ha, h]

theorem Keeps.newRow (w : World) (r : RowObj) : Keeps w (w.newRow r) :=
  ⟨fun _ _ h _ => getElem?_append_some h, fun _ _ h _ => h, fun _ _ h _ => h⟩

theorem Keeps.newTab (w : World) (t : TabObj) : Keeps w (w.newTab t) :=
  ⟨fun _ _ h _ => h, fun _ _ h _ => getElem?_append_some h, fun _ _ h _ => h⟩

theorem Keeps.putRow (w : World) (a : Nat) (r : RowObj)
    (h : ∀ r0, w.rows[a]? = some r0 → r0.frozen = true → r = r0) : Keeps w (w.putRow a r) :=
  ⟨fun i r0 h0 hf => getElem?_set_ne_some h0 (fun e => h r0 (e ▸ h0) hf), fun _ _ h _ => h, fun _ _ h _ => h⟩

theorem Keeps.putTab (w : World) (a : Nat) (t : TabObj)
    (h : ∀ t0, w.tabs[a]? = some t0 → TabFrozen t0 → t = t0) : Keeps w (w.putTab a t) :=
  ⟨fun _ _ h _ => h, fun i t0 h0 hf => getElem?_set_ne_some h0 (fun e => h t0 (e ▸ h0) hf), fun _ _ h _ => h⟩

theorem Keeps.putDat (w : World) (a : Nat) (o : DatObj)
    (h : ∀ o0, w.dats[a]? = some o0 → o0.frozen = true → o = o0) : Keeps w (w.putDat a o) :=
  ⟨fun _ _ h _ => h, fun _ _ h _ => h, fun i o0 h0 hf => getElem?_set_ne_some h0 (fun e => h o0 (e ▸ h0) hf)⟩

/-- An unfrozen table object may be replaced. -/
theorem Keeps.putTab_of (w : World) (a : Nat) (t t0 : TabObj) (h0 : w.tabs[a]? = some t0) (hf : ¬ TabFrozen t0) :
    Keeps w (w.putTab a t) :=
  Keeps.putTab w a t (fun t1 h1 hf1 => absurd (by rw [h0] at h1; exact Option.some.inj h1 ▸ hf1) hf)

theorem tabSetItem_keeps (w : World) (a : Nat) (cls : TabClass) (rows : PyDict KeyArg Nat) (frozen : Bool)
    (k : KeyArg) (x : RowIn) (h : w.tabs[a]? = some (.dict cls rows frozen)) :
    Keeps w (tabSetItem w a cls rows frozen k x).1 := by
  unfold tabSetItem
  split
  · split
    · exact Keeps.refl w
    · split
      · exact Keeps.refl w
      · rename_i r _ hfr
        refine (Keeps.newRow w r).trans (Keeps.putTab_of _ a _ (.dict cls rows frozen) h ?_)
        simpa [TabFrozen] using hfr
  · exact Keeps.refl w

theorem tabOp_keeps (w : World) (a : Nat) (op : TabOp) (hop : op.unguarded = false) : Keeps w (tabOp w a op).1 := by
  unfold tabOp
  cases h : w.tabs[a]? with
  | none => exact Keeps.refl w
  | some tab =>
    cases tab with
    | dict cls rows frozen =>
      have put : ∀ rows', frozen = false → Keeps w (w.putTab a (.dict cls rows' frozen)) := fun rows' hf =>
        Keeps.putTab_of w a _ _ h (by simp [TabFrozen, hf])
      cases op with
      | setItem k x => exact tabSetItem_keeps w a cls rows frozen k x h
      | getItem k =>
        simp only
        split
        · exact Keeps.refl w
        · split
          · exact Keeps.refl w
          · exact tabSetItem_keeps w a cls rows frozen k _ h
      | delItem k =>
        cases frozen
        · simp only [Bool.false_eq_true, if_false]
          split
          · exact put _ rfl
          · exact Keeps.refl w
        · exact Keeps.refl w
      | pop k =>
        cases frozen
        · simp only [Bool.false_eq_true, if_false]
          split
          · exact put _ rfl
          · exact Keeps.refl w
        · exact Keeps.refl w
      | update k b =>
        cases frozen
        · simp only [Bool.false_eq_true, if_false]
          split
          · exact put _ rfl
          · exact Keeps.refl w
        · exact Keeps.refl w
      | setdefault k b => simp [TabOp.unguarded] at hop
      | ior k b => simp [TabOp.unguarded] at hop
      | clear => simp [TabOp.unguarded] at hop
      | popitem => simp [TabOp.unguarded] at hop
      | insert i x => exact Keeps.refl w
      | setAt i x => exact Keeps.refl w
      | delAt i => exact Keeps.refl w
    | list cls rows =>
      have put : ∀ (w1 : World) rows', w1.tabs = w.tabs → Keeps w1 (w1.putTab a (.list cls rows')) :=
        fun w1 rows' hw => Keeps.putTab_of w1 a _ (.list cls rows) (by rw [hw]; exact h) (by simp [TabFrozen])
      cases op with
      | insert i x =>
        simp only
        split
        · exact Keeps.refl w
        · exact (Keeps.newRow w _).trans (put _ _ rfl)
      | setAt i x =>
        simp only
        split
        · exact Keeps.refl w
        · split
          · exact (Keeps.newRow w _).trans (put _ _ rfl)
          · exact Keeps.refl w
      | delAt i =>
        simp only
        split
        · exact put _ _ rfl
        · exact Keeps.refl w
      | _ => exact Keeps.refl w
    | tuple rows => exact Keeps.refl w

theorem setItem_frozen (r : RowObj) (f : String) (v : Cell) (h : r.frozen = true) : r.setItem f v = none := by
  cases r with
  | td dfs data b =>
    simp only [RowObj.frozen] at h
    subst h
    simp [RowObj.setItem]
  | opn d b =>
    simp only [RowObj.frozen] at h
    subst h
    simp [RowObj.setItem]
  | plain d => simp [RowObj.frozen] at h

theorem rowOp_keeps (w : World) (a : Nat) (f : String) (v : Cell) : Keeps w (rowOp w a f v).1 := by
  unfold rowOp
  cases h : w.rows[a]? with
  | none => exact Keeps.refl w
  | some r =>
    simp only
    cases hs : r.setItem f v with
    | none => exact Keeps.refl w
    | some r' =>
      refine Keeps.putRow w a r' (fun r0 h0 hf => ?_)
      rw [h] at h0
      cases h0
      rw [setItem_frozen r f v hf] at hs
      simp at hs

/-- What `freezeRow` does: at most the row at `a` is frozen. -/
theorem freezeRow_spec (w : World) (a : Nat) :
    (freezeRow w a).1 = w ∨ ∃ r, w.rows[a]? = some r ∧ r.frozen = false ∧ (freezeRow w a).1 = w.putRow a r.freeze := by
  unfold freezeRow
  split
  · exact .inr ⟨_, by assumption, rfl, rfl⟩
  · exact .inl rfl
  · exact .inr ⟨_, by assumption, rfl, rfl⟩
  · exact .inl rfl
  · exact .inl rfl

theorem freezeRow_keeps (w : World) (a : Nat) : Keeps w (freezeRow w a).1 := by
  rcases freezeRow_spec w a with h | ⟨r, hr, hf, h⟩
  · rw [h]; exact Keeps.refl w
  · rw [h]
    refine Keeps.putRow w a _ (fun r0 h0 hf0 => ?_)
    rw [hr] at h0
    cases h0
    simp [hf] at hf0

theorem freezeRow_ok (w : World) (a : Nat) (h : (freezeRow w a).2 = false) :
    ∃ r, (freezeRow w a).1.rows[a]? = some r ∧ r.frozen = true := by
  unfold freezeRow at *
  have put : ∀ r0 r, w.rows[a]? = some r0 → (w.putRow a r).rows[a]? = some r := by
    intro r0 r h0
    have : a < w.rows.length := by
      rw [List.getElem?_eq_some_iff] at h0
      exact h0.1
    simp [World.putRow, this]
  split at h
  · rename_i h0
    exact ⟨_, put _ _ h0, rfl⟩
  · rename_i h0
    exact ⟨_, h0, rfl⟩
  · rename_i h0
    exact ⟨_, put _ _ h0, rfl⟩
  · rename_i h0
    exact ⟨_, h0, rfl⟩
  · simp at h

/-- Nothing but rows changes, and the rows only by being frozen. -/
structure RowsFreeze (w w' : World) : Prop where
  tabs : w'.tabs = w.tabs
  dats : w'.dats = w.dats
  view : ∀ b, viewRow w' b = viewRow w b
  len : w'.rows.length = w.rows.length
  kind : ∀ (i : Nat) (r : RowObj), w.rows[i]? = some r → w'.rows[i]? = some r ∨ w'.rows[i]? = some r.freeze

theorem RowObj.freeze_idem (r : RowObj) : r.freeze.freeze = r.freeze := by cases r <;> rfl

theorem RowsFreeze.refl (w : World) : RowsFreeze w w := ⟨rfl, rfl, fun _ => rfl, rfl, fun _ _ h => .inl h⟩

theorem RowsFreeze.trans {a b c : World} (h1 : RowsFreeze a b) (h2 : RowsFreeze b c) : RowsFreeze a c :=
  ⟨h2.tabs.trans h1.tabs, h2.dats.trans h1.dats, fun i => (h2.view i).trans (h1.view i), h2.len.trans h1.len, by
    intro i r h
    rcases h1.kind i r h with h' | h'
    · exact h2.kind i r h'
    · rcases h2.kind i _ h' with h'' | h''
      · exact .inr h''
      · rw [RowObj.freeze_idem] at h''; exact .inr h''⟩

theorem freezeRow_rowsFreeze (w : World) (a : Nat) : RowsFreeze w (freezeRow w a).1 := by
  rcases freezeRow_spec w a with h | ⟨r, hr, hf, h⟩
  · rw [h]; exact RowsFreeze.refl w
  · rw [h]
    have hlt : a < w.rows.length := by
      rw [List.getElem?_eq_some_iff] at hr
      exact hr.1
    refine ⟨rfl, rfl, ?_, by simp [World.putRow], ?_⟩
    · intro b
      unfold viewRow World.putRow
      simp only [List.getElem?_set]
      by_cases hb : a = b
      · subst hb
        rw [if_pos rfl, if_pos hlt, hr]
        simp
      · simp [hb]
    · intro i r0 h0
      unfold World.putRow
      simp only [List.getElem?_set]
      by_cases hb : a = i
      · subst hb
        rw [hr] at h0
        cases h0
        right; simp [hlt]
      · left; simp [hb, h0]

theorem freezeRows_keeps (as : List Nat) : ∀ w, Keeps w (freezeRows w as).1 := by
  induction as with
  | nil => intro w; exact Keeps.refl w
  | cons a rest ih =>
    intro w
    unfold freezeRows
    have hk := freezeRow_keeps w a
    split
    · rename_i w' h
      rw [h] at hk; exact hk
    · rename_i w' h
      rw [h] at hk
      exact hk.trans (ih w')

theorem freezeRows_rowsFreeze (as : List Nat) : ∀ w, RowsFreeze w (freezeRows w as).1 := by
  induction as with
  | nil => intro w; exact RowsFreeze.refl w
  | cons a rest ih =>
    intro w
    unfold freezeRows
    have hk := freezeRow_rowsFreeze w a
    split
    · rename_i w' h
      rw [h] at hk; exact hk
    · rename_i w' h
      rw [h] at hk
      exact hk.trans (ih w')

theorem freezeRows_ok (as : List Nat) : ∀ w, (freezeRows w as).2 = false →
    ∀ b ∈ as, ∃ r, (freezeRows w as).1.rows[b]? = some r ∧ r.frozen = true := by
  induction as with
  | nil => intro w _ b hb; simp at hb
  | cons a rest ih =>
    intro w h b hb
    have ho := freezeRow_ok w a
    unfold freezeRows at h ⊢
    cases hr : freezeRow w a with
    | mk w' raised =>
      rw [hr] at ho h
      cases raised with
      | true => simp at h
      | false =>
        simp only at h ho ⊢
        rcases List.mem_cons.mp hb with hb | hb
        · subst hb
          obtain ⟨r, h1, h2⟩ := ho trivial
          exact ⟨r, (freezeRows_keeps rest w').rows _ _ h1 h2, h2⟩
        · exact ih w' h b hb

/-- All addresses in use are allocated. -/
structure HeapOK (w : World) : Prop where
  rows : ∀ (i : Nat) (t : TabObj), w.tabs[i]? = some t → ∀ b ∈ t.addrs, b < w.rows.length
  tabs : ∀ (i : Nat) (o : DatObj), w.dats[i]? = some o → ∀ p ∈ o.tabs, p.2 < w.tabs.length

/-- What freezing one table does, in one statement. -/
theorem freezeTab_cases (w : World) (d : Nat) (t : String) :
    ∃ w', RowsFreeze w w' ∧ Keeps w w' ∧
      ((freezeTab w d t).1 = w' ∧ (freezeTab w d t).2 = true ∨
       ∃ o a tab, w.dats[d]? = some o ∧ PyDict.get? o.tabs t = some a ∧ w.tabs[a]? = some tab ∧
        (freezeTab w d t).2 = false ∧
        (∀ b ∈ tab.addrs, ∃ r, w'.rows[b]? = some r ∧ r.frozen = true) ∧
        ((∃ cls rows fr, tab = .dict cls rows fr ∧ (freezeTab w d t).1 = w'.putTab a (.dict cls rows true)) ∨
         ((∀ cls rows fr, tab ≠ .dict cls rows fr) ∧
          (freezeTab w d t).1 = (w'.newTab (.tuple tab.addrs)).putDat d
            ⟨PyDict.set o.tabs t w.tabs.length, o.frozen⟩))) := by
  unfold freezeTab
  cases hd : w.dats[d]? with
  | none => exact ⟨w, RowsFreeze.refl w, Keeps.refl w, .inl ⟨rfl, rfl⟩⟩
  | some o =>
    simp only
    cases ha : PyDict.get? o.tabs t with
    | none => exact ⟨w, RowsFreeze.refl w, Keeps.refl w, .inl ⟨rfl, rfl⟩⟩
    | some a =>
      simp only
      cases ht : w.tabs[a]? with
      | none => exact ⟨w, RowsFreeze.refl w, Keeps.refl w, .inl ⟨rfl, rfl⟩⟩
      | some tab =>
        simp only
        have h1 := freezeRows_rowsFreeze tab.addrs w
        have h2 := freezeRows_keeps tab.addrs w
        have h3 := freezeRows_ok tab.addrs w
        cases hr : freezeRows w tab.addrs with
        | mk w' raised =>
          rw [hr] at h1 h2 h3
          refine ⟨w', h1, h2, ?_⟩
          cases raised with
          | true => exact .inl ⟨rfl, rfl⟩
          | false =>
            right
            refine ⟨o, a, tab, rfl, ha, ht, ?_⟩
            cases tab with
            | dict cls rows fr => exact ⟨rfl, h3 rfl, .inl ⟨cls, rows, fr, rfl, rfl⟩⟩
            | list cls rows =>
              refine ⟨rfl, h3 rfl, .inr ⟨by simp, ?_⟩⟩
              have e : w'.tabs = w.tabs := h1.tabs
              simp only [TabObj.addrs, e]
            | tuple rows =>
              refine ⟨rfl, h3 rfl, .inr ⟨by simp, ?_⟩⟩
              have e : w'.tabs = w.tabs := h1.tabs
              simp only [TabObj.addrs, e]

end Ticdat

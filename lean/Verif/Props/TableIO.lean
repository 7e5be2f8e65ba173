import Verif.Props.Init
import Verif.Spec.TableIO
/-!
# Tables as flat rows, and back
-/
namespace Ticdat
open Spec
set_option linter.unusedSimpArgs false

theorem dataCells_eq (c : TabClass) (hn : c.dfs.Nodup) (row : RowVal) (h : PyDict.keys row = c.dfs) :
    dataCells c row = some (row.map Prod.snd) := by
  unfold dataCells
  have hnd : (PyDict.keys row).Nodup := by rw [h]; exact hn
  rw [← h]
  unfold PyDict.keys
  rw [mapM_eq_some_iff, List.map_map, List.map_map]
  apply List.map_congr_left
  intro p hp
  exact PyDict.get?_of_mem hnd hp

theorem zip_keys_values {K V : Type} (row : List (K × V)) : (row.map Prod.fst).zip (row.map Prod.snd) = row := by
  induction row with
  | nil => rfl
  | cons p r ih => simp [ih]

/-- The flat row of an entry. -/
abbrev flatOf (p : KeyArg × RowVal) : List Cell := keyCells p.1 ++ p.2.map Prod.snd

theorem keyCells_length (n : Nat) (k : KeyArg) (h : KeyShape n k) : (keyCells k).length = n := by
  cases k with
  | one v => simp [keyCells]; exact (show n = 1 from h).symm
  | tup vs => simp [keyCells]; exact h.1.symm

theorem splitKey_flat (n : Nat) (k : KeyArg) (vs : List Cell) (h : KeyShape n k) :
    splitKey n (.seq (keyCells k ++ vs)) = k := by
  cases k with
  | one v =>
    have : n = 1 := h
    simp [splitKey, keyCells, this]
  | tup ws =>
    obtain ⟨h1, h2⟩ := h
    rw [splitKey, if_neg h2]
    simp [keyCells, h1]

theorem initRow_flat (c : TabClass) (row : RowVal) (h : PyDict.keys row = c.dfs) (hn : c.dfs.Nodup) :
    initRow c (.seq (row.map Prod.snd)) = some row := by
  rw [initRow_iff c hn _ (show DictRow (.seq _) from trivial)]
  refine ⟨by rw [← h]; simp [PyDict.keys], ?_⟩
  rw [← h]
  exact (zip_keys_values row).symm

theorem flatRows_eq (c : TabClass) (hn : c.dfs.Nodup) (tab : TabVal) (h : WellShaped c tab) :
    flatRows c tab = some (tabRows tab) := by
  cases tab with
  | keyed d =>
    unfold flatRows tabRows
    apply mapM_eq_map
    intro p hp
    rw [dataCells_eq c hn p.2 (h.2.2 p hp).2]
    rfl
  | plain rows =>
    unfold flatRows tabRows
    apply mapM_eq_map
    intro r hr
    exact dataCells_eq c hn r (h.2 r hr)

theorem tabRows_length (c : TabClass) (tab : TabVal) (h : WellShaped c tab) (r : List Cell) (hr : r ∈ tabRows tab) :
    r.length = c.fields.length := by
  cases tab with
  | keyed d =>
    obtain ⟨p, hp, rfl⟩ := List.mem_map.mp hr
    obtain ⟨h1, h2⟩ := h.2.2 p hp
    have : p.2.length = c.dfs.length := by rw [← h2]; simp [PyDict.keys]
    simp [flatOf, TabClass.fields, keyCells_length _ _ h1, this]
  | plain rows =>
    obtain ⟨row, hp, rfl⟩ := List.mem_map.mp hr
    have : row.length = c.dfs.length := by rw [← h.2 row hp]; simp [PyDict.keys]
    simp [TabClass.fields, h.1, this]

/-- The cells of the flat rows are the cells of the table. -/
theorem tabRows_cell (c : TabClass) (hn : c.fields.Nodup) (tab : TabVal) (h : WellShaped c tab) (r : List Cell)
    (hr : r ∈ tabRows tab) (p : String × Cell) (hp : p ∈ c.fields.zip r) : HasCell c tab p.1 p.2 := by
  have hdn : c.dfs.Nodup := (List.nodup_append.mp hn).2.1
  cases tab with
  | keyed d =>
    obtain ⟨q, hq, rfl⟩ := List.mem_map.mp hr
    obtain ⟨h1, h2⟩ := h.2.2 q hq
    refine ⟨q, hq, ?_⟩
    unfold TabClass.fields at hp
    rw [List.zip_append (keyCells_length _ _ h1).symm] at hp
    rcases List.mem_append.mp hp with hp | hp
    · left
      obtain ⟨i, hi⟩ := List.mem_iff_getElem?.mp hp
      rw [List.getElem?_zip_eq_some] at hi
      exact ⟨i, hi.1, hi.2⟩
    · right
      rw [← h2] at hp
      have := zip_keys_values q.2
      unfold PyDict.keys at hp
      rw [this] at hp
      exact PyDict.get?_of_mem (by rw [h2]; exact hdn) hp
  | plain rows =>
    obtain ⟨row, hrow, rfl⟩ := List.mem_map.mp hr
    refine ⟨row, hrow, ?_⟩
    unfold TabClass.fields at hp
    rw [h.1, List.nil_append, ← h.2 row hrow] at hp
    have := zip_keys_values row
    unfold PyDict.keys at hp
    rw [this] at hp
    exact PyDict.get?_of_mem (by rw [h.2 row hrow]; exact hdn) hp

/-- A row that stands for the cells `flat` in the fields: the list itself, or a dictionary of them. -/
def RowOf (fields : List String) (flat : List Cell) : RowIn → Prop
  | .seq vs => vs = flat
  | .dict d => List.Perm d (fields.zip flat)
  | .scalar _ => False

theorem handle_rowOf (fields : List String) (hn : fields.Nodup) (flat : List Cell) (hl : flat.length = fields.length)
    (x : RowIn) (h : RowOf fields flat x) : handleRowDict fields x = .seq flat := by
  cases x with
  | seq vs => exact congrArg RowIn.seq h
  | scalar v => exact absurd h id
  | dict d =>
    simp only [handleRowDict, RowIn.seq.injEq]
    have hk : (PyDict.keys d).Nodup := by
      have := (h.map Prod.fst).nodup_iff.mpr (by rw [List.map_fst_zip (by omega)]; exact hn)
      exact this
    apply List.ext_getElem
    · simp [hl]
    · intro i h1 h2
      rw [List.getElem_map]
      have hi : i < fields.length := by simpa using h1
      have hm : (fields[i], flat[i]) ∈ d := by
        rw [h.mem_iff]
        rw [List.mem_iff_getElem?]
        exact ⟨i, by rw [List.getElem?_zip_eq_some]; simp [hi, h2]⟩
      rw [PyDict.get?_of_mem hk hm]
      rfl

theorem goodRow_rowOf (fields : List String) (flat : List Cell) (hl : flat.length = fields.length) (x : RowIn)
    (h : RowOf fields flat x) : goodRow fields x = true := by
  cases x with
  | seq vs => have : vs = flat := h; simp [goodRow, this, hl]
  | scalar v => exact absurd h id
  | dict d =>
    simp only [goodRow, List.all_eq_true]
    intro f hf
    obtain ⟨p, hp, rfl⟩ := List.mem_map.mp hf
    have := h.mem_iff.mp hp
    exact decide_eq_true (List.of_mem_zip this).1

theorem pairwise2_mapM {A B C : Type} {R : A → B → Prop} {g : B → Option C} {k : A → C}
    (h : ∀ a b, R a b → g b = some (k a)) {l : List A} {l' : List B} (hl : Pairwise2 R l l') :
    l'.mapM g = some (l.map k) := by
  induction hl with
  | nil => rfl
  | cons hr _ ih => rw [List.mapM_cons, h _ _ hr, ih]; rfl

theorem pairwise2_mem {A B : Type} {R : A → B → Prop} {l : List A} {l' : List B} (hl : Pairwise2 R l l') (b : B)
    (hb : b ∈ l') : ∃ a ∈ l, R a b := by
  induction hl with
  | nil => cases hb
  | cons hr _ ih =>
    rcases List.mem_cons.mp hb with rfl | hb
    · exact ⟨_, List.mem_cons_self, hr⟩
    · obtain ⟨a, ha, hr'⟩ := ih hb
      exact ⟨a, List.mem_cons_of_mem _ ha, hr'⟩

theorem pairwise2_strengthen {A B : Type} {R S : A → B → Prop} {l : List A} {l' : List B} (hl : Pairwise2 R l l')
    (h : ∀ a ∈ l, ∀ b, R a b → S a b) : Pairwise2 S l l' := by
  induction hl with
  | nil => exact .nil
  | cons hr _ ih =>
    exact .cons (h _ List.mem_cons_self _ hr) (ih (fun a ha => h a (List.mem_cons_of_mem _ ha)))

theorem pairwise2_refl_map {A B : Type} {R : A → B → Prop} {g : A → B} (l : List A) (h : ∀ a ∈ l, R a (g a)) :
    Pairwise2 R l (l.map g) := by
  induction l with
  | nil => exact .nil
  | cons a l ih => exact .cons (h a List.mem_cons_self) (ih (fun b hb => h b (List.mem_cons_of_mem _ hb)))

theorem pairwise2_map_left {A B C : Type} {R : A → B → Prop} {g : C → A} {l : List C} {l' : List B} :
    Pairwise2 R (l.map g) l' ↔ Pairwise2 (fun c b => R (g c) b) l l' := by
  constructor
  · intro h
    induction l generalizing l' with
    | nil => cases h; exact .nil
    | cons a l ih => cases h with | cons hr hl => exact .cons hr (ih hl)
  · intro h
    induction h with
    | nil => exact .nil
    | cons hr _ ih => exact .cons hr ih

theorem initRow_rowOf (c : TabClass) (hpk : c.pks = []) (hn : c.dfs.Nodup) (row : RowVal) (h : PyDict.keys row = c.dfs)
    (x : RowIn) (hx : RowOf c.fields (row.map Prod.snd) x) : initRow c x = some row := by
  cases x with
  | seq vs =>
    have : vs = row.map Prod.snd := hx
    rw [this]
    exact initRow_flat c row h hn
  | scalar v => exact absurd hx id
  | dict d =>
    have hperm : List.Perm d row := by
      have h1 : List.Perm d (c.fields.zip (row.map Prod.snd)) := hx
      rw [show c.fields = row.map Prod.fst from by rw [TabClass.fields, hpk, ← h]; rfl, zip_keys_values] at h1
      exact h1
    have hrn : (PyDict.keys row).Nodup := by rw [h]; exact hn
    have hk : (PyDict.keys d).Nodup := (hperm.map Prod.fst).nodup_iff.mpr hrn
    rw [initRow_iff c hn _ (show DictRow (.dict d) from hk)]
    constructor
    · intro f hf
      obtain ⟨p, hp, rfl⟩ := List.mem_map.mp hf
      rw [← h]
      exact List.mem_map.mpr ⟨p, hperm.mem_iff.mp hp, rfl⟩
    · unfold filledRow
      rw [← h]
      unfold PyDict.keys
      rw [List.map_map]
      conv => lhs; rw [← List.map_id row]
      apply List.map_congr_left
      intro p hp
      simp only [Function.comp_apply, PyDict.get?_of_mem hk (hperm.mem_iff.mpr hp), id]

/-- Constructing from rows that stand for the flat rows of a table gives that table. -/
theorem init_of_flat (c : TabClass) (hn : c.fields.Nodup) (tab : TabVal) (h : WellShaped c tab) (xs : List RowIn)
    (hx : Pairwise2 (RowOf c.fields) (tabRows tab) xs) :
    initTable c (.seq xs) = some tab := by
  have hdn : c.dfs.Nodup := (List.nodup_append.mp hn).2.1
  unfold initTable
  have hgood : goodTableForInit c (.seq xs) = true := by
    unfold goodTableForInit
    have : ∀ x ∈ xs, goodRow (c.pks ++ c.dfs) x = true := by
      intro x hx'
      obtain ⟨flat, hm, hr⟩ := pairwise2_mem hx x hx'
      exact goodRow_rowOf _ flat (tabRows_length c tab h flat hm) x hr
    by_cases hpk : c.pks = []
    · simp only [hpk, ne_eq, not_true_eq_false, if_false]
      simp only [hpk, List.nil_append] at this
      exact List.all_eq_true.mpr this
    · simp only [hpk, ne_eq, not_false_eq_true, if_true]
      exact List.all_eq_true.mpr this
  rw [if_pos hgood]
  cases tab with
  | keyed d =>
    rw [if_pos h.1]
    simp only
    have : xs.mapM (initListRow c) = some (d.map id) := by
      refine pairwise2_mapM (R := fun p x => p ∈ d ∧ RowOf c.fields (flatOf p) x) ?_ ?_
      · rintro p x ⟨hpd, hr⟩
        obtain ⟨h1, h2⟩ := h.2.2 p hpd
        unfold initListRow
        rw [show c.pks ++ c.dfs = c.fields from rfl, handle_rowOf c.fields hn (flatOf p)
          (tabRows_length c (.keyed d) h _ (List.mem_map.mpr ⟨p, hpd, rfl⟩)) x hr]
        have hdrop : (flatOf p).drop c.pks.length = p.2.map Prod.snd := by
          unfold flatOf
          rw [List.drop_left' (keyCells_length _ _ h1)]
        rw [splitData, hdrop, initRow_flat c p.2 h2 hdn]
        unfold flatOf
        rw [splitKey_flat _ _ _ h1]
        rfl
      · exact pairwise2_strengthen (pairwise2_map_left.mp hx) (fun p hp x hr => ⟨hp, hr⟩)
    rw [this, List.map_id, Option.map_some, PyDict.ofList_of_nodup d h.2.1]
  | plain rows =>
    have hpk : c.pks = [] := h.1
    rw [if_neg (by simp [hpk])]
    simp only
    have : xs.mapM (initRow c) = some (rows.map id) := by
      refine pairwise2_mapM (R := fun row x => row ∈ rows ∧ RowOf c.fields (row.map Prod.snd) x) ?_ ?_
      · rintro row x ⟨hr, hx'⟩
        exact initRow_rowOf c hpk hdn row (h.2 row hr) x hx'
      · exact pairwise2_strengthen (pairwise2_map_left.mp hx) (fun p hp x hr => ⟨hp, hr⟩)
    rw [this, List.map_id]
    rfl

/-- Constructing from what the csv and SQLite readers make of the flat rows of a table gives that table. -/
theorem init_of_reader (c : TabClass) (hn : c.fields.Nodup) (tab : TabVal) (h : WellShaped c tab) :
    initTable c (readerTable c (tabRows tab)) = some tab := by
  have hdn : c.dfs.Nodup := (List.nodup_append.mp hn).2.1
  cases tab with
  | plain rows =>
    have hpk : c.pks = [] := h.1
    unfold readerTable
    rw [if_neg (by simp [hpk])]
    apply init_of_flat c hn (.plain rows) h
    exact pairwise2_refl_map _ (fun _ _ => rfl)
  | keyed d =>
    have hpk : c.pks ≠ [] := h.1
    have hd : (tabRows (.keyed d)).map (fun r => (splitKey c.pks.length (.seq r), RowIn.seq (r.drop c.pks.length))) =
        d.map (fun p => (p.1, RowIn.seq (p.2.map Prod.snd))) := by
      unfold tabRows
      rw [List.map_map]
      apply List.map_congr_left
      intro p hp
      have h1 := (h.2.2 p hp).1
      simp only [Function.comp_apply, flatOf, splitKey_flat _ _ _ h1, List.drop_left' (keyCells_length _ _ h1)]
    unfold readerTable
    rw [if_pos hpk, hd, PyDict.ofList_of_nodup]
    · have hkeys : PyDict.keys (d.map (fun p => (p.1, RowIn.seq (p.2.map Prod.snd)))) = PyDict.keys d := by
        simp [PyDict.keys, Function.comp_def]
      have hnd : (PyDict.keys (d.map (fun p => (p.1, RowIn.seq (p.2.map Prod.snd))))).Nodup := by
        rw [hkeys]; exact h.2.1
      rw [init_from_dict c hpk hdn _ hnd]
      · refine ⟨?_, d, rfl, hkeys.symm, ?_⟩
        · intro k hk
          rw [hkeys] at hk
          obtain ⟨p, hp, rfl⟩ := List.mem_map.mp hk
          have h1 := (h.2.2 p hp).1
          have h2 := keyCells_length _ _ h1
          cases hk : p.1 with
          | one v => rw [hk] at h1; exact (show c.pks.length = 1 from h1).symm
          | tup vs => rw [hk] at h1; exact h1.1.symm
        · intro k x hx
          obtain ⟨p, hp, he⟩ := List.mem_map.mp (PyDict.get?_mem hx)
          cases he
          refine ⟨p.2, PyDict.get?_of_mem h.2.1 hp, ?_⟩
          have h2 := (h.2.2 p hp).2
          refine ⟨by rw [← h2]; simp [PyDict.keys], ?_⟩
          rw [← h2]
          exact (zip_keys_values p.2).symm
      · intro p hp
        obtain ⟨q, _, rfl⟩ := List.mem_map.mp hp
        exact trivial
    · unfold PyDict.keys
      rw [List.map_map]
      exact h.2.1

/-! ### Cells of a row -/

/-- Writing a row cell by cell and reading it back. -/
theorem mapCells_round (wr rd : String → Cell → Option Cell) (ok : Cell → Prop) (fields : List String) (r r' : List Cell)
    (h : RowRel fields (fun f x y => ∃ w, wr f x = some w ∧ ok w ∧ rd f w = some y) r r') :
    ∃ ws, mapCells wr fields r = some ws ∧ (∀ w ∈ ws, ok w) ∧ mapCells rd fields ws = some r' := by
  induction fields generalizing r r' with
  | nil =>
    obtain ⟨h1, h2, _⟩ := h
    have h1 : r = [] := List.length_eq_zero_iff.mp h1
    have h2 : r' = [] := List.length_eq_zero_iff.mp h2
    subst h1 h2
    exact ⟨[], rfl, by simp, rfl⟩
  | cons f fs ih =>
    obtain ⟨hl, hl', hc⟩ := h
    cases r with
    | nil => simp at hl
    | cons x xs =>
      cases r' with
      | nil => simp at hl'
      | cons y ys =>
        obtain ⟨w, h1, hok, h2⟩ := hc 0 f x y rfl rfl rfl
        obtain ⟨ws, h3, h4, h5⟩ := ih xs ys ⟨by simpa using hl, by simpa using hl', fun i f' x' y' a b c =>
          hc (i + 1) f' x' y' (by simpa using a) (by simpa using b) (by simpa using c)⟩
        refine ⟨w :: ws, ?_, ?_, ?_⟩
        · unfold mapCells at h3 ⊢
          rw [List.zip_cons_cons, List.mapM_cons, h1, h3]
          rfl
        · intro v hv
          rcases List.mem_cons.mp hv with e | hv
          · rw [e]; exact hok
          · exact h4 v hv
        · unfold mapCells at h5 ⊢
          rw [List.zip_cons_cons, List.mapM_cons, h2, h5]
          rfl

/-- A table is related to itself by a relation that relates each of its cells to itself. -/
theorem tabRel_refl (c : TabClass) (hn : c.fields.Nodup) (tab : TabVal) (h : WellShaped c tab)
    (R : String → Cell → Cell → Prop) (hR : ∀ f x, HasCell c tab f x → R f x x) : TabRel c R tab tab := by
  have key : ∀ r ∈ tabRows tab, RowRel c.fields R r r := by
    intro r hr
    have hl := tabRows_length c tab h r hr
    refine ⟨hl, hl, fun i f x y hf hx hy => ?_⟩
    rw [hx] at hy
    cases hy
    exact hR f x (tabRows_cell c hn tab h r hr (f, x)
      (List.mem_iff_getElem?.mpr ⟨i, by rw [List.getElem?_zip_eq_some]; exact ⟨hf, hx⟩⟩))
  have := pairwise2_refl_map (R := RowRel c.fields R) (g := id) (tabRows tab) key
  rw [List.map_id] at this
  exact this

theorem mapCells_length (g : String → Cell → Option Cell) (fields : List String) (row ws : List Cell)
    (hl : row.length = fields.length) (h : mapCells g fields row = some ws) : ws.length = fields.length := by
  unfold mapCells at h
  rw [mapM_eq_some_iff] at h
  have := congrArg List.length h
  simp at this
  omega

end Ticdat

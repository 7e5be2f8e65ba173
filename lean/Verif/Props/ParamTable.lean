import Verif.Props.TableIO
import Verif.Props.Params
/-!
# The parameters table among the tables of a file

The parameters table is stored as text or otherwise changed, and adjusted after reading.  `params_view` turns statements
about single cells into one about the object before that adjustment.
-/
namespace Ticdat
open Spec
set_option linter.unusedSimpArgs false

namespace Spec

/-- The table is the parameters table of a factory with declared parameters. -/
def IsParams (params : Params) (t : String) : Prop := params ≠ [] ∧ t = "parameters"

/-- Every entry of a parameters table has one key cell and one value, and these satisfy `P`. -/
def ParamEntries (P : Cell → Cell → Prop) : TabVal → Prop
  | .keyed d => ∀ p ∈ d, ∃ k f v, p = (KeyArg.one k, [(f, v)]) ∧ P k v
  | .plain _ => False

end Spec

theorem fixParam_asIs (env : TextEnv) (params : Params) (k v : Cell) (h : ParamAsIs env params k v) :
    fixParam env params k v = v := by
  unfold ParamAsIs at h
  unfold fixParam
  rw [paramType_eq]
  have hfloat : ((∀ b, v ≠ .bool b) ∧ ∀ s, v = .str s → env.float s = none) → (toFloat env v).getD v = v := by
    rintro ⟨hb, hs⟩
    cases v with
    | bool b => exact absurd rfl (hb b)
    | str s => simp [toFloat, hs s rfl]
    | _ => simp [toFloat]
  cases htd : paramType params k with
  | none =>
    rw [htd] at h
    simp [hfloat h]
  | some td =>
    rw [htd] at h
    obtain ⟨h1, h2, h3⟩ := h
    have h4 : (td.nullable && decide (v = .str "") && !td.validData env.parses v) = false := by
      by_cases hv : v = .str ""
      · rw [(valid_data_iff _ _ _).2 (h2 hv)]
        simp
      · simp [hv]
    simp only [Option.map_some, Option.getD_some, h4, h1, Bool.false_eq_true, if_false]
    split
    · rename_i hn; exact hfloat (h3 hn)
    · rfl

/-- Change the data cells of a table. -/
def mapVals (g : Cell → Cell) : TabVal → TabVal
  | .keyed d => .keyed (d.map (fun p => (p.1, p.2.map (fun q => (q.1, g q.2)))))
  | .plain rows => .plain (rows.map (fun row => row.map (fun q => (q.1, g q.2))))

/-- One table of the object as it is before the adjustment. -/
def viewEntry (params : Params) (g : Cell → Cell) (p : String × TabVal) : String × TabVal :=
  (p.1, if params ≠ [] ∧ p.1 = "parameters" then mapVals g p.2 else p.2)

theorem get?_map_entry {V W : Type} (h : String → V → W) (d : PyDict String V) (k : String) :
    PyDict.get? (d.map (fun p => (p.1, h p.1 p.2))) k = (PyDict.get? d k).map (h k) := by
  induction d with
  | nil => rfl
  | cons p d ih =>
    obtain ⟨a, b⟩ := p
    by_cases e : a = k
    · simp [PyDict.get?, e]
    · simpa [PyDict.get?, e] using ih

theorem mapVals_shape (c : TabClass) (g : Cell → Cell) (tab : TabVal) (h : WellShaped c tab) :
    WellShaped c (mapVals g tab) := by
  cases tab with
  | keyed d =>
    refine ⟨h.1, ?_, ?_⟩
    · have : PyDict.keys (d.map (fun p => (p.1, p.2.map (fun q : String × Cell => (q.1, g q.2))))) = PyDict.keys d := by
        simp [PyDict.keys, Function.comp_def]
      rw [this]
      exact h.2.1
    · intro p hp
      obtain ⟨q, hq, rfl⟩ := List.mem_map.mp hp
      obtain ⟨h1, h2⟩ := h.2.2 q hq
      refine ⟨h1, ?_⟩
      rw [← h2]
      simp [PyDict.keys, Function.comp_def]
  | plain rows =>
    refine ⟨h.1, fun r hr => ?_⟩
    obtain ⟨q, hq, rfl⟩ := List.mem_map.mp hr
    rw [← h.2 q hq]
    simp [PyDict.keys, Function.comp_def]

/-- Given that single cells are read as themselves outside the parameters table, keys of the parameters table as
themselves, and values of parameters as `g` of them, the object is read as some `dat'` that the adjustment makes `dat`. -/
theorem params_view (env : TextEnv) (params : Params) (g : Cell → Cell) (schema : List (String × TabClass))
    (hs : (schema.map Prod.fst).Nodup) (hf : ∀ tc ∈ schema, tc.2.fields.Nodup) (dat : PyDict String TabVal)
    (hk : PyDict.keys dat = schema.map Prod.fst)
    (hw : ∀ tc ∈ schema, ∀ tab, PyDict.get? dat tc.1 = some tab → WellShaped tc.2 tab)
    (C : String → String → Cell → Cell → Prop)
    (hc : ∀ tc ∈ schema, ∀ tab, PyDict.get? dat tc.1 = some tab → ¬ IsParams params tc.1 → ∀ f x,
      HasCell tc.2 tab f x → C tc.1 f x x)
    (P : Cell → Cell → Prop)
    (hp : ∀ tab, PyDict.get? dat "parameters" = some tab → params ≠ [] → ParamEntries P tab)
    (hP : params ≠ [] → ∀ f f' k v, P k v → C "parameters" f k k ∧ C "parameters" f' v (g v) ∧
      fixParam env params k (g v) = v) :
    ∃ dat', PyDict.keys dat' = schema.map Prod.fst ∧ postRead env params dat' = dat ∧
      ∀ tc ∈ schema, ∃ tab tab', PyDict.get? dat tc.1 = some tab ∧ PyDict.get? dat' tc.1 = some tab' ∧
        WellShaped tc.2 tab ∧ WellShaped tc.2 tab' ∧ TabRel tc.2 (C tc.1) tab tab' := by
  have hdn : (PyDict.keys dat).Nodup := by rw [hk]; exact hs
  refine ⟨dat.map (viewEntry params g), ?_, ?_, ?_⟩
  · rw [← hk]
    simp [PyDict.keys, viewEntry, Function.comp_def]
  · unfold postRead
    split
    · rename_i he
      conv => rhs; rw [← List.map_id dat]
      apply List.map_congr_left
      intro p _
      simp [viewEntry, he]
    · rename_i he
      rw [List.map_map]
      conv => rhs; rw [← List.map_id dat]
      apply List.map_congr_left
      rintro ⟨t, tab⟩ hm
      simp only [Function.comp_apply, viewEntry, id]
      by_cases ht : t = "parameters"
      · subst ht
        have hent := hp tab (PyDict.get?_of_mem hdn hm) he
        cases tab with
        | plain rows => exact absurd hent id
        | keyed d =>
          simp only [he, ne_eq, not_false_eq_true, and_self, if_true, mapVals, List.map_map, Prod.mk.injEq,
            TabVal.keyed.injEq, true_and]
          conv => rhs; rw [← List.map_id d]
          apply List.map_congr_left
          intro p hpd
          obtain ⟨k, f, v, rfl, hkv⟩ := hent p hpd
          simp [postReadEntry, (hP he f f k v hkv).2.2]
      · simp [ht]
  · intro tc htc
    have hmem : tc.1 ∈ PyDict.keys dat := by rw [hk]; exact List.mem_map.mpr ⟨tc, htc, rfl⟩
    cases hget : PyDict.get? dat tc.1 with
    | none => exact absurd hmem ((PyDict.get?_eq_none dat tc.1).mp hget)
    | some tab =>
      have hsh := hw tc htc tab hget
      have hget' : PyDict.get? (dat.map (viewEntry params g)) tc.1 =
          some (if params ≠ [] ∧ tc.1 = "parameters" then mapVals g tab else tab) := by
        unfold viewEntry
        rw [get?_map_entry (fun t tab => if params ≠ [] ∧ t = "parameters" then mapVals g tab else tab), hget]
        rfl
      by_cases hpar : params ≠ [] ∧ tc.1 = "parameters"
      · rw [if_pos hpar] at hget'
        refine ⟨tab, mapVals g tab, rfl, hget', hsh, mapVals_shape tc.2 g tab hsh, ?_⟩
        have hent := hp tab (by rw [← hpar.2]; exact hget) hpar.1
        cases tab with
        | plain rows => exact absurd hent id
        | keyed d =>
          unfold TabRel tabRows
          simp only [mapVals, List.map_map]
          rw [pairwise2_map_left]
          apply pairwise2_refl_map
          intro p hpd
          obtain ⟨h1, h2⟩ := hsh.2.2 p hpd
          obtain ⟨k, f, v, rfl, hkv⟩ := hent p hpd
          have hlp : tc.2.pks.length = 1 := h1
          obtain ⟨pk, hpk⟩ := List.length_eq_one_iff.mp hlp
          have hdf : tc.2.dfs = [f] := by rw [← h2]; rfl
          obtain ⟨h3, h4, _⟩ := hP hpar.1 pk f k v hkv
          rw [hpar.2]
          refine ⟨by simp [TabClass.fields, hpk, hdf, keyCells], by simp [TabClass.fields, hpk, hdf, keyCells], ?_⟩
          intro i f' x y ha hb hc'
          simp only [TabClass.fields, hpk, hdf, keyCells, List.cons_append, List.nil_append, List.map_cons, List.map_nil,
            Function.comp_apply] at ha hb hc'
          rcases i with _ | _ | i
          · simp at ha hb hc'
            subst ha hb hc'
            exact h3
          · simp at ha hb hc'
            subst ha hb hc'
            exact h4
          · simp at ha
      · rw [if_neg hpar] at hget'
        exact ⟨tab, tab, rfl, hget', hsh, hsh, tabRel_refl tc.2 (hf tc htc) tab hsh _
          (fun f x hx => hc tc htc tab hget hpar f x hx)⟩

end Ticdat

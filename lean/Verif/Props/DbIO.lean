import Verif.Spec.DbIO
import Verif.Props.SqliteTable
/-!
# What Access and PostgreSQL have in common
-/
set_option linter.unusedSectionVars false
set_option linter.unusedSimpArgs false
namespace Ticdat
open Spec

/-! ### One table -/

/-- The rows stored for `tab` are read as `tab'`, and have distinct keys. -/
theorem db_table (W R : String → Cell → Option Cell) (c : TabClass) (tab tab' : TabVal) (h' : WellShaped c tab')
    (hr : TabRel c (fun f x y => ∃ w, W f x = some w ∧ R f w = some y) tab tab') :
    ∃ rows, (tabRows tab).mapM (mapCells W c.fields) = some rows ∧
      rows.mapM (mapCells R c.fields) = some (tabRows tab') ∧
      (c.pks ≠ [] → (rows.map (List.take c.pks.length)).Nodup) := by
  have hround : ∀ r r', RowRel c.fields (fun f x y => ∃ w, W f x = some w ∧ R f w = some y) r r' →
      ∃ ws, mapCells W c.fields r = some ws ∧ mapCells R c.fields ws = some r' := by
    intro r r' hrr
    obtain ⟨ws, h1, _, h3⟩ := mapCells_round W R (fun _ => True) c.fields r r' (by
        refine ⟨hrr.1, hrr.2.1, fun i f x y a b c => ?_⟩
        obtain ⟨w, h4, h5⟩ := hrr.2.2 i f x y a b c
        exact ⟨w, h4, trivial, h5⟩)
    exact ⟨ws, h1, h3⟩
  obtain ⟨rows, hrows⟩ := pairwise2_exists (g := mapCells W c.fields) hr
    (fun r r' hrr => by
      obtain ⟨l, h1, _⟩ := hround r r' hrr
      exact ⟨l, h1⟩)
  have hread : rows.mapM (mapCells R c.fields) = some (tabRows tab') := by
    rw [mapM_eq_some_iff] at hrows ⊢
    unfold TabRel at hr
    revert hrows
    generalize tabRows tab = l at hr
    generalize tabRows tab' = l' at hr
    intro hrows
    induction hr generalizing rows with
    | nil => cases rows with
      | nil => rfl
      | cons a b => simp at hrows
    | cons hrr _ ih => cases rows with
      | nil => simp at hrows
      | cons a b =>
        simp only [List.map_cons, List.cons.injEq] at hrows
        obtain ⟨ws, h1, h3⟩ := hround _ _ hrr
        rw [h1] at hrows
        have hwa : ws = a := Option.some.inj hrows.1
        rw [List.map_cons, List.map_cons, ih b hrows.2, ← hwa, h3]
  refine ⟨rows, hrows, hread, fun hk => ?_⟩
  refine nodup_of_read _ (mapCells R (c.fields.take c.pks.length)) _ ?_ (tabRows_keys_nodup c tab' h' hk)
  rw [List.map_map, List.map_map]
  rw [mapM_eq_some_iff] at hread
  have h2 : ∀ (rows l' : List (List Cell)), rows.map (mapCells R c.fields) = l'.map some →
      rows.map (mapCells R (c.fields.take c.pks.length) ∘ List.take c.pks.length) =
        l'.map (some ∘ List.take c.pks.length) := by
    intro rows
    induction rows with
    | nil => intro l' e; cases l' with
      | nil => rfl
      | cons a b => simp at e
    | cons r rows ih => intro l' e; cases l' with
      | nil => simp at e
      | cons a b =>
        simp only [List.map_cons, List.cons.injEq] at e
        rw [List.map_cons, List.map_cons, ih b e.2]
        simp only [Function.comp_apply]
        rw [mapCells_take _ _ _ _ _ e.1]
  exact h2 rows _ hread

/-! ### Reading -/

/-- A reader that finds, for each table, the rows of `dat'` in some order returns `dat'` adjusted and reordered. -/
theorem db_read (env : TextEnv) (params : Params) (R : String → String → Cell → Option Cell) (policy : DupPolicy)
    (schema : List (String × TabClass)) (hnames : (schema.map Prod.fst).Nodup) (hf : ∀ tc ∈ schema, tc.2.fields.Nodup)
    (dat' : PyDict String TabVal) (hk' : PyDict.keys dat' = schema.map Prod.fst)
    (find : String × TabClass → Option (Option TableIn))
    (hfind : ∀ tc ∈ schema, ∃ rows'' rows tab', find tc = (rows''.mapM (mapCells (R tc.1) tc.2.fields)).map
        (fun rows => some (readerTable tc.2 rows)) ∧ List.Perm rows'' rows ∧ PyDict.get? dat' tc.1 = some tab' ∧
      WellShaped tc.2 tab' ∧ rows.mapM (mapCells (R tc.1) tc.2.fields) = some (tabRows tab')) :
    ∃ dat2, ((gatherTables find schema).bind (initDat policy schema)).map (postRead env params) = some dat2 ∧
      SameUpToOrder (postRead env params dat') dat2 := by
  have hpick : ∀ tc ∈ schema, ∃ tab2, (∃ tab', PyDict.get? dat' tc.1 = some tab' ∧ TabPerm tab' tab2) ∧
      WellShaped tc.2 tab2 ∧ find tc = some (some (readerTable tc.2 (tabRows tab2))) := by
    intro tc htc
    obtain ⟨rows'', rows, tab', h5, h10, h6, h7, h8⟩ := hfind tc htc
    obtain ⟨l, hl1, hl2⟩ : ∃ l, rows''.mapM (mapCells (R tc.1) tc.2.fields) = some l ∧ List.Perm l (tabRows tab') := by
      have hs := mapM_eq_some_iff _ _ _ |>.mp h8
      have hp : List.Perm (rows''.map (mapCells (R tc.1) tc.2.fields)) ((tabRows tab').map some) := by
        rw [← hs]
        exact h10.map _
      obtain ⟨l, hl1, hl2⟩ := perm_map_lift some hp (tabRows tab') rfl
      exact ⟨l, (mapM_eq_some_iff _ _ _).mpr hl2.symm, hl1⟩
    obtain ⟨tab2, ht1, ht2, ht3, _⟩ := tabRows_perm_lift tc.2 tab' h7 l hl2
    exact ⟨tab2, ⟨tab', h6, ht1⟩, ht3, by rw [h5, hl1, ht2]; rfl⟩
  obtain ⟨dat2, hk2, hd2⟩ := dict_of_choice _ schema hnames hpick
  obtain ⟨input, h5, h6, h7, h8⟩ := gather_tables find dat2 schema hnames (by
    intro tc htc
    obtain ⟨tab2, h9, h10, h11, h12⟩ := hd2 tc htc
    exact ⟨_, tab2, h12, h9, .inr ⟨_, rfl, init_of_reader tc.2 (hf tc htc) tab2 h11,
      readerTable_size tc.2 (hf tc htc) tab2 h11⟩⟩)
  refine ⟨postRead env params dat2, ?_, ?_⟩
  · rw [h5, Option.bind_some, initDat_of policy schema hnames input dat2 h7 h6 hk2 h8]
    rfl
  · apply postRead_same
    refine ⟨by rw [hk2, hk'], fun t tab' hget => ?_⟩
    have hmem : t ∈ schema.map Prod.fst := by
      rw [← hk']
      refine Classical.byContradiction (fun hno => ?_)
      rw [(PyDict.get?_eq_none _ _).mpr hno] at hget
      cases hget
    obtain ⟨tc, htc, e⟩ := List.mem_map.mp hmem
    obtain ⟨tab2, h9, ⟨tab3, h10, h11⟩, _⟩ := hd2 tc htc
    rw [e] at h9 h10
    rw [hget] at h10
    cases h10
    exact ⟨tab2, h9, h11⟩

/-! ### Cells -/

theorem infBias_some_iff {env : TextEnv} {cf : IOConf} {t f : String} (hf : cf.flag = .none) (pos : Bool) :
    infBias env cf t f = some (some pos) ↔ NoneMeans env cf t f (infOf pos) := by
  unfold infBias NoneMeans
  rw [hf, at_eq_typeOf]
  simp only [ne_eq, not_true_eq_false, if_false]
  cases hty : typeOf cf.types t f with
  | none => simp
  | some td =>
    have hv : ∀ x, td.validData env.parses x = true ↔ Valid env.parses td x := fun x => valid_data_iff _ _ _
    have hvf : ∀ x, td.validData env.parses x = false ↔ ¬ Valid env.parses td x := fun x => by
      rw [← hv]; simp
    cases pos <;> cases hn : td.numberAllowed <;> cases h0 : td.validData env.parses .none <;>
      cases h1 : td.validData env.parses (.num .pinf) <;> cases h2 : td.validData env.parses (.num .ninf) <;>
      simp [infOf, hn, ← hv, ← hvf, h0, h1, h2]

/-- What `_infinity_flag_write_cell` hands over. -/
theorem writeCell_handed {env : TextEnv} {cf : IOConf} {t f : String} (hnp : ¬ IsParams cf.params t) (x w : Cell)
    (hj : JsonSafe env cf t f x) (h : writeCell env cf t f x = some w) : Handed env cf true t f x w := by
  unfold writeCell at h
  rw [if_neg (fun hh => hnp ⟨hh.2, hh.1⟩)] at h
  unfold Handed
  cases hf : cf.flag with
  | na =>
    rw [hf] at h
    exact (Option.some.inj h).symm
  | num q =>
    rw [hf] at h
    have ht : t ≠ "parameters" := by
      intro e
      have := hj.2
      rw [if_pos e] at this
      rw [hf] at this
      cases this.2
    have hfs := hj.2
    rw [if_neg ht] at hfs
    have hfs := hfs.2
    unfold FlagSafe at hfs
    rw [hf] at hfs
    obtain ⟨hq, hfs⟩ := hfs
    have hqq : ¬ q < -q := by grind
    cases x with
    | num y =>
      simp only [Option.some.injEq] at h
      subst h
      refine ⟨?_, ?_, ?_⟩
      · intro e; cases e
        simp [clamp, XNum.lt, hqq]
      · intro e; cases e
        simp [clamp, XNum.lt]
      · intro h1 h2
        rcases hfs y rfl with rfl | rfl | ⟨h3, h4⟩
        · exact absurd rfl h1
        · exact absurd rfl h2
        · cases h3 with
          | above => cases h4
          | fin h3 =>
            cases h4 with
            | fin h4 =>
              have h5 := Rat.not_lt.mpr (Rat.le_of_lt h4)
              have h6 := Rat.not_lt.mpr (Rat.le_of_lt h3)
              simp [clamp, XNum.lt, h5, h6]
    | _ => simp only [Option.some.injEq] at h; subst h; simp
  | none =>
    rw [hf] at h
    simp only [Option.map_eq_some_iff] at h
    obtain ⟨b, hb, h⟩ := h
    cases b with
    | none =>
      refine .inr ⟨?_, h.symm⟩
      rintro ⟨_, y, _, hm⟩
      have : ∃ pos, y = infOf pos := by
        obtain ⟨td, _, _, _, h⟩ := hm
        rcases h with ⟨h, _⟩ | ⟨h, _⟩
        · exact ⟨true, h⟩
        · exact ⟨false, h⟩
      obtain ⟨pos, rfl⟩ := this
      rw [← infBias_some_iff hf, hb] at hm
      cases hm
    | some pos =>
      have hm := (infBias_some_iff hf pos).mp hb
      simp only at h
      split at h
      · rename_i hx
        exact .inl ⟨rfl, _, hx, hm, h.symm⟩
      · rename_i hx
        refine .inr ⟨?_, h.symm⟩
        rintro ⟨_, y, e, hm2⟩
        have : ∃ pos, y = infOf pos := by
          obtain ⟨td, _, _, _, h⟩ := hm2
          rcases h with ⟨h, _⟩ | ⟨h, _⟩
          · exact ⟨true, h⟩
          · exact ⟨false, h⟩
        obtain ⟨pos2, rfl⟩ := this
        rw [← infBias_some_iff hf, hb] at hm2
        cases hm2
        exact hx e

/-- A datetime in a field that keeps it is read as itself. -/
theorem read_kept_dt {env : TextEnv} {cf : IOConf} {t f : String} (d : Nat) (hj : JsonSafe env cf t f (.dt d)) (w : Cell)
    (hw : w = .dt d ∨ ∃ s, w = .str s ∧ env.date w = some d) : readCell env cf t f w = some (.dt d) := by
  have hj2 := hj.2
  have ht : t ≠ "parameters" := by
    intro e
    rw [if_pos e] at hj2
    exact hj2.1 d rfl
  rw [if_neg ht] at hj2
  have hread := hj2.1
  have htd : ∃ td, typeOf cf.types t f = some td ∧ td.datetime = true := by
    unfold ReadAsIs at hread
    cases hty : typeOf cf.types t f with
    | none => rw [hty] at hread; exact absurd rfl (hread d)
    | some td =>
      rw [hty] at hread
      simp only at hread
      cases hd : td.datetime with
      | true => exact ⟨td, rfl, hd⟩
      | false =>
        rw [hd] at hread
        simp only [Bool.false_eq_true, if_false] at hread
        exact absurd rfl (hread.1 d)
  obtain ⟨td, h1, h2⟩ := htd
  unfold readCell
  rcases hw with rfl | ⟨s, rfl, h3⟩
  · simp [ht, at_eq_typeOf, h1, h2, Cell.isNull, dateAdjust]
  · simp [ht, at_eq_typeOf, h1, h2, Cell.isNull, dateAdjust, h3]

/-- A safe cell survives. -/
theorem db_cell_survives {env : TextEnv} (hT : ∀ d, env.date (.str (env.text (.dt d))) = some d) (cf : IOConf)
    (store : Store) (t f : String) (x : Cell) (hnp : ¬ IsParams cf.params t) (h : DbSafe env cf store true t f x) :
    ∃ w, (writeCell env cf t f x).bind (store t f) = some w ∧ readCell env cf t f w = some x := by
  obtain ⟨hj, hk⟩ := h
  obtain ⟨w, h1, _, h3⟩ := json_cell_survives hT cf t f x hnp hj
  by_cases hdt : ∃ d, x = .dt d
  · obtain ⟨d, rfl⟩ := hdt
    have hw := writeCell_dt hnp d hj
    rcases hk _ (writeCell_handed hnp _ _ hj hw) with h4 | ⟨d', w', e, h4, h5⟩
    · exact ⟨.dt d, by rw [hw, Option.bind_some, h4], read_kept_dt d hj _ (.inl rfl)⟩
    · cases e
      exact ⟨w', by rw [hw, Option.bind_some, h4], read_kept_dt d hj _ h5⟩
  · have hw : writeCell env cf t f x = some w := by
      cases x with
      | dt d => exact absurd ⟨d, rfl⟩ hdt
      | _ => exact h1
    rcases hk _ (writeCell_handed hnp _ _ hj hw) with h4 | ⟨d', w', e, h4, h5⟩
    · exact ⟨w, by rw [hw, Option.bind_some, h4], h3⟩
    · exact absurd ⟨d', e⟩ hdt

/-! ### Parameters -/

/-- What is stored for the value of a parameter. -/
def dbParamCell (store : Store) (v : Cell) : Cell := (store "parameters" "" v).getD v

theorem db_param_survives {env : TextEnv} (hT : TextOK env) (params : Params) (store : Store)
    (k v : Cell) (h : DbParam env params store k v) :
    v ≠ .nan ∧ (∀ f, store "parameters" f v = some (dbParamCell store v)) ∧
      fixParam env params k (dbParamCell store v) = v := by
  obtain ⟨_, _, w, hs, h⟩ := h
  have hw : dbParamCell store v = w := by simp [dbParamCell, hs ""]
  rw [hw]
  rcases h with ⟨rfl, h1, h2⟩ | ⟨⟨x, rfl⟩, rfl, h2⟩ | ⟨d, td, rfl, h1, h2, h3⟩
  · exact ⟨h1, hs, fixParam_asIs env params k _ h2⟩
  · refine ⟨by simp, hs, ?_⟩
    have := text_param_survives hT params k _ h2
    exact this
  · refine ⟨by simp, hs, ?_⟩
    unfold fixParam
    rw [paramType_eq, h1]
    rcases h3 with rfl | ⟨s, rfl, h3⟩
    · simp [h2, dateAdjust]
    · have h7 : td.validData env.parses (.str s) = true := by
        rw [valid_data_iff]
        refine Or.inr (Or.inl ⟨?_, h2, Or.inr ?_⟩)
        · rintro (h | h) <;> cases h
        · simp [TextEnv.parses, dateAdjust, h3]
      simp [h7, h2, dateAdjust, h3]

theorem writeCell_param {env : TextEnv} {cf : IOConf} (hp : cf.params ≠ []) (f : String) (v : Cell) (hv : v ≠ .nan) :
    writeCell env cf "parameters" f v = some v := by
  unfold writeCell
  rw [if_pos ⟨rfl, hp⟩]
  cases v with
  | nan => exact absurd rfl hv
  | _ => rfl

end Ticdat

import Verif.Props.AmplData
import Verif.Props.PanInit
import Verif.Props.ObfusTotal
import Verif.Lemmas.PgSchema
/-!
# C70: copying a data object to AMPL, and AMPL variables into a `PanDat`
-/
set_option linter.unusedSectionVars false
set_option linter.unusedSimpArgs false
namespace Ticdat
open Spec PyDict

/-! ### The tables -/

theorem amplTables_none {schema : List (String × Option TabClass)} (excluded : List String) (h : ∃ tc ∈ schema, tc.2 = none) :
    amplTables schema excluded = none := by
  obtain ⟨tc, h1, h2⟩ := h
  unfold amplTables
  rw [mapM_none_of h1 (by rw [h2]; rfl)]
  rfl

theorem amplTables_some {schema : List (String × Option TabClass)} (excluded : List String) (h : ∀ tc ∈ schema, tc.2 ≠ none) :
    ∃ tables, amplTables schema excluded = some tables ∧ (∀ t c, (t, c) ∈ tables ↔ Sent schema excluded t c) ∧
      ((schema.map Prod.fst).Nodup → (tables.map Prod.fst).Nodup) := by
  obtain ⟨l, hl⟩ := mapM_some_of_forall (fun (tc : String × Option TabClass) => tc.2.map (fun c => (tc.1, c))) schema (by
    intro tc htc
    cases h2 : tc.2 with
    | none => exact absurd h2 (h tc htc)
    | some c => rfl)
  have hmem : ∀ t c, (t, c) ∈ l ↔ (t, some c) ∈ schema := by
    intro t c
    constructor
    · intro hm
      obtain ⟨tc, h1, h2⟩ := mem_of_mapM hl hm
      obtain ⟨c', h3, h4⟩ := Option.map_eq_some_iff.1 h2
      rw [Prod.mk.injEq] at h4
      rw [← h4.1, ← h4.2, ← h3]
      exact h1
    · intro hm
      obtain ⟨b, h1, h2⟩ := mem_of_mapM' hl hm
      simp only [Option.map_some, Option.some.injEq] at h2
      rw [h2]
      exact h1
  refine ⟨_, by unfold amplTables; rw [hl]; rfl, ?_, ?_⟩
  · intro t c
    rw [List.mem_filter, hmem]
    unfold Sent
    simp
  · intro hn
    have : l.map Prod.fst = schema.map Prod.fst := map_of_mapM Prod.fst Prod.fst hl (by
      intro a b h
      obtain ⟨c', h3, h4⟩ := Option.map_eq_some_iff.1 h
      rw [← h4])
    exact List.Nodup.sublist (List.Sublist.map _ List.filter_sublist) (this ▸ hn)

theorem goodRenaming_iff {schema : List (String × Option TabClass)} {excluded : List String} {tables : List (String × TabClass)}
    (hm : ∀ t c, (t, c) ∈ tables ↔ Sent schema excluded t c) (hn : (tables.map Prod.fst).Nodup) (p : (String × String) × String) :
    goodRenaming tables p = true ↔ RenamingOK schema excluded p := by
  have hg : ∀ c, get? tables p.1.1 = some c ↔ Sent schema excluded p.1.1 c := by
    intro c
    rw [get?_iff_mem hn, hm]
  unfold goodRenaming RenamingOK
  cases h : get? tables p.1.1 with
  | none =>
    simp only [Bool.false_eq_true, false_iff, not_exists, not_and]
    intro c hc
    rw [← hg, h] at hc
    cases hc
  | some c =>
    simp only [Bool.and_eq_true, Bool.or_eq_true, decide_eq_true_eq]
    have hs := (hg c).1 h
    constructor
    · rintro ⟨h1, h2⟩
      exact ⟨c, hs, h1, fun e => h2.resolve_left (fun h => h e)⟩
    · rintro ⟨c', h0, h1, h2⟩
      have := (hg c').2 h0
      rw [h, Option.some.injEq] at this
      subst this
      refine ⟨h1, ?_⟩
      by_cases e : p.2 = ""
      · exact .inr (h2 e)
      · exact .inl e

theorem goodPanRenaming_iff {schema : List (String × Option TabClass)} {excluded : List String} {tables : List (String × TabClass)}
    (dat : String → Frame) (hm : ∀ t c, (t, c) ∈ tables ↔ Sent schema excluded t c) (hn : (tables.map Prod.fst).Nodup)
    (p : (String × String) × String) : goodPanRenaming tables dat p = true ↔ PanRenamingOK schema excluded dat p := by
  have hg : ∀ c, get? tables p.1.1 = some c ↔ Sent schema excluded p.1.1 c := by
    intro c
    rw [get?_iff_mem hn, hm]
  unfold goodPanRenaming PanRenamingOK
  cases h : get? tables p.1.1 with
  | none =>
    simp only [Bool.false_eq_true, false_iff, not_exists, not_and]
    intro c hc
    rw [← hg, h] at hc
    cases hc
  | some c =>
    simp only [Bool.and_eq_true, Bool.or_eq_true, decide_eq_true_eq, Bool.not_eq_true', decide_eq_false_iff_not, Frame.has]
    have hs := (hg c).1 h
    constructor
    · rintro ⟨h1, h2⟩
      exact ⟨c, hs, h1, fun e => h2.resolve_left (fun h => h e)⟩
    · rintro ⟨c', h0, h1, h2⟩
      have := (hg c').2 h0
      rw [h, Option.some.injEq] at this
      subst this
      refine ⟨h1, ?_⟩
      by_cases e : p.2 = ""
      · exact .inr (h2 e)
      · exact .inl e

/-! ### The columns -/

theorem column_eq {v : Frame} (hv : FrameOK v) {f : String} (hf : Label.name f ∈ v.cols) :
    v.column f = some (v.rows.map (fun r => colCell v r (.name f))) := by
  unfold Frame.column
  exact mapM_eq_map (fun r hr => by rw [FrameOK.cell_eq hv hr, if_pos hf])

theorem amplTableOut_spec (ren : Renamings) (t : String) (pks adds : List String) {v : Frame} (hv : FrameOK v)
    (hp : ∀ f ∈ pks, Label.name f ∈ v.cols) (ha : ∀ f ∈ adds, Label.name f ∈ v.cols) :
    ∃ a, amplTableOut ren t pks adds v = some a ∧
      SentTable pks adds (newName ren t) (fun f xs => xs = v.rows.map (fun r => colCell v r (.name f))) a := by
  have hcols : ∀ fs : List String, (∀ f ∈ fs, Label.name f ∈ v.cols) →
      amplColumns ren t v fs = some (fs.map (fun f => (newName ren t f, v.rows.map (fun r => colCell v r (.name f))))) := by
    intro fs hfs
    unfold amplColumns
    exact mapM_eq_map (fun f hf => by rw [column_eq hv (hfs f hf)]; rfl)
  unfold amplTableOut
  rw [hcols pks hp, hcols _ (fun f hf => ha f (List.mem_filter.1 hf).1)]
  exact ⟨_, rfl, rfl, pairwise2_refl_map _ (fun f _ => ⟨rfl, rfl⟩), pairwise2_refl_map _ (fun f _ => ⟨rfl, rfl⟩)⟩

theorem SentTable.mono {pks adds : List String} {name : String → String} {col col' : String → List Cell → Prop} {a : AmplFrame}
    (h : SentTable pks adds name col a) (hc : ∀ f ∈ pks ++ adds, ∀ xs, col f xs → col' f xs) : SentTable pks adds name col' a :=
  ⟨h.index, pairwise2_strengthen h.keyCols (fun f hf _ hx => ⟨hx.1, hc f (List.mem_append_left _ hf) _ hx.2⟩),
    pairwise2_strengthen h.dataCols (fun f hf _ hx => ⟨hx.1, hc f (List.mem_append_right _ (List.mem_filter.1 hf).1) _ hx.2⟩)⟩

/-- `copy_to_pandas` with `drop_pk_columns=False`: all fields are columns, and the rows are those of the table. -/
theorem to_pandas_columns (penv : PandasEnv) (henv : KeepsRows penv) (c : TabClass) (hn : c.fields.Nodup) (tab : TabVal)
    (hw : WellShaped c tab) :
    ∃ v, copyToPandas penv c (some false) false tab = some v ∧ FrameOK v ∧ v.cols = c.fields.map .name ∧
      Pairwise2 (Pairwise2 Stored) (tabRows tab) (v.rows.map Prod.snd) := by
  have hdn : c.dfs.Nodup := (List.nodup_append.mp hn).2.1
  have hpn : c.pks.Nodup := (List.nodup_append.mp hn).1
  have hst := henv (tabRows tab)
  have hlen : ∀ s ∈ penv.store (tabRows tab), s.length = c.fields.length := by
    intro s hs
    obtain ⟨r, hr, hrs⟩ := pairwise2_right hst hs
    rw [pairwise2_length hrs]
    exact tabRows_length c tab hw r hr
  unfold copyToPandas
  by_cases h0 : tab.size = 0
  · rw [if_pos h0]
    refine ⟨_, rfl, ⟨names_nodup hn, List.nodup_nil, fun r hr => absurd hr List.not_mem_nil⟩, rfl, ?_⟩
    rw [← tabRows_size, List.length_eq_zero_iff] at h0
    rw [h0]
    exact .nil
  · rw [if_neg h0, flatRows_eq c hdn tab hw, Option.map_some]
    refine ⟨_, rfl, ?_⟩
    cases tab with
    | keyed d =>
      refine ⟨⟨names_nodup hn, hpn, ?_⟩, rfl, ?_⟩
      · intro r hr
        obtain ⟨s, hs, rfl⟩ := List.mem_map.1 hr
        have := hlen s hs
        refine ⟨?_, by simpa [keyedFrame] using this⟩
        simp only [keyedFrame, Bool.false_eq_true, if_false, Option.getD_some, List.length_take]
        have e : c.fields.length = c.pks.length + c.dfs.length := by simp [TabClass.fields]
        omega
      · have e : (keyedFrame c (some false) false (penv.store (tabRows (.keyed d)))).rows.map Prod.snd = penv.store (tabRows (.keyed d)) := by
          simp [keyedFrame, List.map_map, Function.comp_def]
        rw [e]
        exact hst
    | plain rows =>
      have hpk : c.fields = c.dfs := by unfold TabClass.fields; rw [hw.1]; rfl
      refine ⟨⟨names_nodup hdn, List.nodup_nil, ?_⟩, by rw [hpk], ?_⟩
      · intro r hr
        obtain ⟨s, hs, rfl⟩ := List.mem_map.1 hr
        exact ⟨rfl, by rw [hlen s hs, hpk, List.length_map]⟩
      · simp only [List.map_map, Function.comp_def, List.map_id']
        exact hst

theorem pairwise2_map_right {A B C : Type} {R : A → C → Prop} {g : B → C} {l : List A} {l' : List B}
    (h : Pairwise2 R l (l'.map g)) : Pairwise2 (fun a b => R a (g b)) l l' := by
  induction l' generalizing l with
  | nil => cases h; exact .nil
  | cons b l' ih =>
    cases h with
    | cons h1 h2 => exact .cons h1 (ih h2)

theorem pairwise2_to_map {A B C : Type} {R : A → B → Prop} {S : A → C → Prop} {g : B → C} {l : List A} {l' : List B}
    (h : Pairwise2 R l l') (hs : ∀ a ∈ l, ∀ b, R a b → S a (g b)) : Pairwise2 S l (l'.map g) := by
  induction h with
  | nil => exact .nil
  | cons h1 _ ih => exact .cons (hs _ List.mem_cons_self _ h1) (ih (fun a ha => hs a (List.mem_cons_of_mem _ ha)))

theorem to_pandas_column {c : TabClass} {tab : TabVal} (hw : WellShaped c tab) {v : Frame} (hcols : v.cols = c.fields.map .name)
    (hrows : Pairwise2 (Pairwise2 Stored) (tabRows tab) (v.rows.map Prod.snd)) {f : String} (hf : f ∈ c.fields) :
    Pairwise2 (fun r x => Stored (rowField c.fields r f) x) (tabRows tab) (v.rows.map (fun r => colCell v r (.name f))) := by
  refine pairwise2_to_map (pairwise2_map_right hrows) ?_
  intro r hr b hb
  have hl := tabRows_length c tab hw r hr
  have hi : c.fields.idxOf f < c.fields.length := List.idxOf_lt_length_of_mem hf
  have hl2 := pairwise2_length hb
  unfold colCell rowField
  rw [hcols, idxOf_map_name, List.getElem?_eq_getElem (by omega), List.getElem?_eq_getElem (by omega)]
  exact pairwise2_get hb (List.getElem?_eq_getElem (by omega)) (List.getElem?_eq_getElem (by omega))

/-! ### The theorems -/

theorem sent_mapM {α : Type} (tables : List (String × TabClass)) (hn : (tables.map Prod.fst).Nodup)
    (g : String × TabClass → Option (String × α)) (P : String → TabClass → α → Prop)
    (hg : ∀ tc ∈ tables, ∃ a, g tc = some (tc.1, a) ∧ P tc.1 tc.2 a) :
    ∃ out, tables.mapM g = some out ∧ keys out = tables.map Prod.fst ∧
      ∀ tc ∈ tables, ∃ a, get? out tc.1 = some a ∧ P tc.1 tc.2 a := by
  obtain ⟨out, ho⟩ := mapM_some_of_forall g tables (fun tc htc => by
    obtain ⟨a, h1, _⟩ := hg tc htc
    rw [h1]; rfl)
  have hk : keys out = tables.map Prod.fst := by
    unfold keys
    have : tables.map g = out.map some := (mapM_eq_some_iff _ _ _).1 ho
    apply List.ext_getElem?
    intro i
    have h2 := congrArg (fun l => l[i]?) this
    simp only [List.getElem?_map] at h2 ⊢
    cases h3 : tables[i]? with
    | none =>
      rw [h3] at h2
      cases h4 : out[i]? with
      | none => rfl
      | some b => rw [h4] at h2; cases h2
    | some tc =>
      rw [h3] at h2
      obtain ⟨a, h5, _⟩ := hg tc (List.mem_of_getElem? h3)
      cases h4 : out[i]? with
      | none => rw [h4] at h2; cases h2
      | some b =>
        rw [h4] at h2
        simp only [Option.map_some, Option.some.injEq] at h2 ⊢
        rw [h5, Option.some.injEq] at h2
        rw [← h2]
  refine ⟨out, ho, hk, fun tc htc => ?_⟩
  obtain ⟨a, h1, h2⟩ := hg tc htc
  obtain ⟨b, h3, h4⟩ := mem_of_mapM' ho htc
  rw [h1, Option.some.injEq] at h4
  subst h4
  exact ⟨a, get?_of_mem (by rw [hk]; exact hn) h3, h2⟩

/-- **C70.**  `copy_to_ampl` of a good data object works exactly if the excluded tables are tables, no table of the schema
is generic, and the renamings are possible.  It copies the tables with primary key that are not excluded, each with one
column for each field that is not left out, under its new name, with the values of the rows in order. -/
theorem copy_to_ampl (penv : PandasEnv) (henv : KeepsRows penv) (schema : List (String × Option TabClass))
    (hs : (schema.map Prod.fst).Nodup) (hf : ∀ t c, (t, some c) ∈ schema → c.fields.Nodup) (dat : String → TabVal)
    (hw : ∀ t c, (t, some c) ∈ schema → WellShaped c (dat t)) (ren : Renamings) (excluded : List String) :
    (copyToAmpl penv schema dat ren excluded ≠ none ↔
      (∀ t ∈ excluded, t ∈ schema.map Prod.fst) ∧ (∀ tc ∈ schema, tc.2 ≠ none) ∧ ∀ p ∈ ren, RenamingOK schema excluded p) ∧
    ∀ out, copyToAmpl penv schema dat ren excluded = some out →
      (keys out).Nodup ∧ (∀ t, t ∈ keys out ↔ ∃ c, Sent schema excluded t c) ∧
      ∀ t c, Sent schema excluded t c → ∃ a, get? out t = some a ∧
        SentTable c.pks c.dfs (newName ren t)
          (fun f xs => Pairwise2 (fun r x => Stored (rowField c.fields r f) x) (tabRows (dat t)) xs) a := by
  unfold copyToAmpl
  by_cases h1 : ∀ t ∈ excluded, t ∈ schema.map Prod.fst
  · rw [if_pos (by rw [List.all_eq_true]; exact fun t ht => decide_eq_true (h1 t ht))]
    by_cases h2 : ∀ tc ∈ schema, tc.2 ≠ none
    · obtain ⟨tables, e1, hm, hn'⟩ := amplTables_some excluded h2
      have hn := hn' hs
      rw [e1]
      simp only [Option.bind_eq_bind, Option.bind_some]
      by_cases h3 : ∀ p ∈ ren, RenamingOK schema excluded p
      · rw [if_pos (by rw [List.all_eq_true]; exact fun p hp => (goodRenaming_iff hm hn p).2 (h3 p hp))]
        obtain ⟨out, ho, hk, hP⟩ := sent_mapM tables hn
          (fun tc => (copyToPandas penv tc.2 (some false) false (dat tc.1)).bind (fun v =>
            (amplTableOut ren tc.1 tc.2.pks tc.2.dfs v).bind (fun a => pure (tc.1, a))))
          (fun t c a => SentTable c.pks c.dfs (newName ren t)
            (fun f xs => Pairwise2 (fun r x => Stored (rowField c.fields r f) x) (tabRows (dat t)) xs) a)
          (by
            intro tc htc
            have hsent := (hm tc.1 tc.2).1 htc
            obtain ⟨v, hv1, hv2, hv3, hv4⟩ := to_pandas_columns penv henv tc.2 (hf _ _ hsent.1) (dat tc.1) (hw _ _ hsent.1)
            have hin : ∀ f ∈ tc.2.fields, Label.name f ∈ v.cols := fun f hf => by
              rw [hv3]; exact List.mem_map.2 ⟨f, hf, rfl⟩
            obtain ⟨a, ha, hsa⟩ := amplTableOut_spec ren tc.1 tc.2.pks tc.2.dfs hv2
              (fun f hf => hin f (List.mem_append_left _ hf)) (fun f hf => hin f (List.mem_append_right _ hf))
            refine ⟨a, by rw [hv1, Option.bind_some, ha]; rfl, SentTable.mono hsa ?_⟩
            rintro f hf xs rfl
            exact to_pandas_column (hw _ _ hsent.1) hv3 hv4 hf)
        rw [ho]
        refine ⟨⟨fun _ => ⟨h1, h2, h3⟩, fun _ => by simp⟩, ?_⟩
        rintro _ ⟨rfl⟩
        refine ⟨by rw [hk]; exact hn, fun t => ?_, fun t c hsent => hP _ ((hm t c).2 hsent)⟩
        rw [hk, List.mem_map]
        constructor
        · rintro ⟨tc, htc, rfl⟩
          exact ⟨tc.2, (hm _ _).1 htc⟩
        · rintro ⟨c, hc⟩
          exact ⟨(t, c), (hm _ _).2 hc, rfl⟩
      · rw [if_neg (by
          rw [List.all_eq_true]
          exact fun h => h3 (fun p hp => (goodRenaming_iff hm hn p).1 (h p hp)))]
        exact ⟨⟨fun h => absurd rfl h, fun h => absurd h.2.2 h3⟩, fun out h => by cases h⟩
    · have : ∃ tc ∈ schema, tc.2 = none := by
        apply Classical.byContradiction
        intro hno
        exact h2 (fun tc htc e => hno ⟨tc, htc, e⟩)
      rw [amplTables_none excluded this]
      exact ⟨⟨fun h => absurd rfl h, fun h => absurd h.2.1 h2⟩, fun out h => by cases h⟩
  · rw [if_neg (by
      rw [List.all_eq_true]
      exact fun h => h1 (fun t ht => of_decide_eq_true (h t ht)))]
    exact ⟨⟨fun h => absurd rfl h, fun h => absurd h.1 h1⟩, fun out h => by cases h⟩

/-- **C70.**  The same for a `PanDat`.  Besides the data fields, every column that is renamed is copied. -/
theorem pan_copy_to_ampl (schema : List (String × Option TabClass)) (hs : (schema.map Prod.fst).Nodup) (dat : String → Frame)
    (hok : ∀ t c, (t, some c) ∈ schema → FrameOK (dat t)) (hw : ∀ t c, (t, some c) ∈ schema → goodPanTable c (dat t) = true)
    (ren : Renamings) (excluded : List String) :
    (panCopyToAmpl schema dat ren excluded ≠ none ↔
      (∀ t ∈ excluded, t ∈ schema.map Prod.fst) ∧ (∀ tc ∈ schema, tc.2 ≠ none) ∧ ∀ p ∈ ren, PanRenamingOK schema excluded dat p) ∧
    ∀ out, panCopyToAmpl schema dat ren excluded = some out →
      (keys out).Nodup ∧ (∀ t, t ∈ keys out ↔ ∃ c, Sent schema excluded t c) ∧
      ∀ t c, Sent schema excluded t c → ∃ a others, get? out t = some a ∧
        (∀ f, f ∈ others ↔ f ∈ c.dfs ∨ (t, f) ∈ keys ren) ∧ ((keys ren).Nodup → c.dfs.Nodup → others.Nodup) ∧
        SentTable c.pks others (newName ren t) (fun f xs => xs = (dat t).rows.map (fun r => colCell (dat t) r (.name f))) a := by
  unfold panCopyToAmpl
  by_cases h1 : ∀ t ∈ excluded, t ∈ schema.map Prod.fst
  · rw [if_pos (by rw [List.all_eq_true]; exact fun t ht => decide_eq_true (h1 t ht))]
    by_cases h2 : ∀ tc ∈ schema, tc.2 ≠ none
    · obtain ⟨tables, e1, hm, hn'⟩ := amplTables_some excluded h2
      have hn := hn' hs
      rw [e1]
      simp only [Option.bind_eq_bind, Option.bind_some]
      by_cases h3 : ∀ p ∈ ren, PanRenamingOK schema excluded dat p
      · rw [if_pos (by rw [List.all_eq_true]; exact fun p hp => (goodPanRenaming_iff dat hm hn p).2 (h3 p hp))]
        have hmemf : ∀ t c f, f ∈ panAmplFields ren t c ↔ f ∈ c.dfs ∨ (t, f) ∈ keys ren := by
          intro t c f
          unfold panAmplFields keys
          rw [List.mem_append, List.mem_filter, List.mem_map]
          simp only [List.mem_filter, decide_eq_true_eq, Bool.not_eq_true', decide_eq_false_iff_not, List.mem_map]
          constructor
          · rintro (h | ⟨⟨p, ⟨hp, rfl⟩, rfl⟩, _⟩)
            · exact .inl h
            · exact .inr ⟨p, hp, rfl⟩
          · rintro (h | ⟨p, hp, e⟩)
            · exact .inl h
            · by_cases hd : f ∈ c.dfs
              · exact .inl hd
              · have e := And.intro (congrArg Prod.fst e) (congrArg Prod.snd e)
                exact .inr ⟨⟨p, ⟨hp, e.1⟩, e.2⟩, hd⟩
        have hnodf : ∀ t c, (keys ren).Nodup → c.dfs.Nodup → (panAmplFields ren t c).Nodup := by
          intro t c hk hd
          unfold panAmplFields
          refine List.nodup_append.mpr ⟨hd, ?_, ?_⟩
          · refine List.Nodup.sublist List.filter_sublist ?_
            unfold List.Nodup keys at *
            rw [List.pairwise_map] at hk ⊢
            refine List.Pairwise.imp_of_mem ?_ (List.Pairwise.sublist List.filter_sublist hk)
            intro a b ha hb hab e
            have h1 := of_decide_eq_true (List.mem_filter.1 ha).2
            have h2 := of_decide_eq_true (List.mem_filter.1 hb).2
            exact hab (Prod.ext (h1.trans h2.symm) e)
          · intro a ha b hb e
            subst e
            have := (List.mem_filter.1 hb).2
            simp [ha] at this
        obtain ⟨out, ho, hk, hP⟩ := sent_mapM tables hn
          (fun tc => (amplTableOut ren tc.1 tc.2.pks (panAmplFields ren tc.1 tc.2) (dat tc.1)).bind (fun a => pure (tc.1, a)))
          (fun t c a => SentTable c.pks (panAmplFields ren t c) (newName ren t)
            (fun f xs => xs = (dat t).rows.map (fun r => colCell (dat t) r (.name f))) a)
          (by
            intro tc htc
            have hsent := (hm tc.1 tc.2).1 htc
            have hgood := List.all_eq_true.1 (hw _ _ hsent.1)
            have hin : ∀ f ∈ tc.2.fields, Label.name f ∈ (dat tc.1).cols := fun f hf => of_decide_eq_true (hgood f hf)
            obtain ⟨a, ha, hsa⟩ := amplTableOut_spec ren tc.1 tc.2.pks (panAmplFields ren tc.1 tc.2) (hok _ _ hsent.1)
              (fun f hf => hin f (List.mem_append_left _ hf)) (fun f hf => by
                rcases (hmemf _ _ _).1 hf with h | h
                · exact hin f (List.mem_append_right _ h)
                · obtain ⟨p, hp, e⟩ := List.mem_map.1 h
                  have e := And.intro (congrArg Prod.fst e) (congrArg Prod.snd e)
                  obtain ⟨_, _, h4, _⟩ := h3 p hp
                  rw [e.1, e.2] at h4
                  exact h4)
            exact ⟨a, by rw [ha]; rfl, hsa⟩)
        rw [ho]
        refine ⟨⟨fun _ => ⟨h1, h2, h3⟩, fun _ => by simp⟩, ?_⟩
        rintro _ ⟨rfl⟩
        refine ⟨by rw [hk]; exact hn, fun t => ?_, fun t c hsent => ?_⟩
        · rw [hk, List.mem_map]
          constructor
          · rintro ⟨tc, htc, rfl⟩
            exact ⟨tc.2, (hm _ _).1 htc⟩
          · rintro ⟨c, hc⟩
            exact ⟨(t, c), (hm _ _).2 hc, rfl⟩
        · obtain ⟨a, h4, h5⟩ := hP _ ((hm t c).2 hsent)
          exact ⟨a, _, h4, hmemf t c, hnodf t c, h5⟩
      · rw [if_neg (by
          rw [List.all_eq_true]
          exact fun h => h3 (fun p hp => (goodPanRenaming_iff dat hm hn p).1 (h p hp)))]
        exact ⟨⟨fun h => absurd rfl h, fun h => absurd h.2.2 h3⟩, fun out h => by cases h⟩
    · have : ∃ tc ∈ schema, tc.2 = none := by
        apply Classical.byContradiction
        intro hno
        exact h2 (fun tc htc e => hno ⟨tc, htc, e⟩)
      rw [amplTables_none excluded this]
      exact ⟨⟨fun h => absurd rfl h, fun h => absurd h.2.1 h2⟩, fun out h => by cases h⟩
  · rw [if_neg (by
      rw [List.all_eq_true]
      exact fun h => h1 (fun t ht => of_decide_eq_true (h t ht)))]
    exact ⟨⟨fun h => absurd rfl h, fun h => absurd h.1 h1⟩, fun out h => by cases h⟩

/-- A primary key field of a `PanDat` that is renamed is given to AMPL twice: as an index column and as a data column. -/
theorem pan_renamed_key_twice (schema : List (String × Option TabClass)) (hs : (schema.map Prod.fst).Nodup) (dat : String → Frame)
    (hok : ∀ t c, (t, some c) ∈ schema → FrameOK (dat t)) (hw : ∀ t c, (t, some c) ∈ schema → goodPanTable c (dat t) = true)
    (ren : Renamings) (excluded : List String) (out : PyDict String AmplFrame)
    (hout : panCopyToAmpl schema dat ren excluded = some out) (t : String) (c : TabClass) (hsent : Sent schema excluded t c)
    (f n : String) (hf : f ∈ c.pks) (hren : get? ren (t, f) = some n) :
    ∃ a, get? out t = some a ∧ n ∈ a.setCols.map Prod.fst ∧ n ∈ a.addCols.map Prod.fst := by
  obtain ⟨hiff, hout'⟩ := pan_copy_to_ampl schema hs dat hok hw ren excluded
  obtain ⟨_, _, h3⟩ := hout' out hout
  obtain ⟨a, others, h4, h5, _, h6⟩ := h3 t c hsent
  have hnn : newName ren t f = n := by unfold newName; rw [hren]; rfl
  have hne : n ≠ "" := by
    intro e
    obtain ⟨c', h7, _, h8⟩ := (hiff.1 (by rw [hout]; simp)).2.2 ((t, f), n) (get?_mem hren)
    have h9 := get?_of_mem (d := schema) hs h7.1
    rw [get?_of_mem (d := schema) hs hsent.1] at h9
    simp only [Option.some.injEq] at h9
    rw [← h9] at h8
    exact h8 e hf
  have hfo : f ∈ others.filter (fun g => decide (newName ren t g ≠ "")) := by
    rw [List.mem_filter]
    exact ⟨(h5 f).2 (.inr (List.mem_map.2 ⟨_, get?_mem hren, rfl⟩)), by rw [hnn]; simpa using hne⟩
  obtain ⟨p, hp, hp1, _⟩ := pairwise2_left h6.keyCols hf
  obtain ⟨q, hq, hq1, _⟩ := pairwise2_left h6.dataCols hfo
  exact ⟨a, h4, List.mem_map.2 ⟨p, hp, hp1.trans hnn⟩, List.mem_map.2 ⟨q, hq, hq1.trans hnn⟩⟩

end Ticdat

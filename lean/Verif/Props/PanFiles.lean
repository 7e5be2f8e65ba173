import Verif.Spec.PanFiles
import Verif.Props.PgPan
import Verif.Props.PanXls
import Verif.Props.FoundNames
import Verif.Props.ObfusTotal
/-!
# Whole `PanDat` objects in files (C72)
-/
set_option linter.unusedSectionVars false
set_option linter.unusedSimpArgs false
namespace Ticdat
open Spec

/-! ### One table -/

theorem fieldRows_length (c : TabClass) (v : Frame) : ∀ r ∈ fieldRows c v, r.length = c.fields.length := by
  intro r hr
  obtain ⟨x, _, e⟩ := List.mem_map.1 hr
  subst e
  simp

/-- The rows of a frame whose columns are the fields. -/
theorem fieldRows_self {c : TabClass} (hn : c.fields.Nodup) {w : Frame} (hw : FrameOK w) (hc : w.cols = c.fields.map .name) :
    fieldRows c w = w.rows.map Prod.snd := by
  have h := rows_of_columns (R := List Cell × List Cell) hn hw hc w.rows rfl (fun r f => colCell w r (.name f))
    (fun f _ => rfl)
  exact h.symm

theorem pairwise2_compose {A B C D : Type} {R : A → B → Prop} {S : B → C → Prop} {T : A → D → Prop} {g : C → D} {l : List A}
    {l' : List B} {l'' : List C} (h1 : Pairwise2 R l l') (h2 : Pairwise2 S l' l'') (h : ∀ a b c, R a b → S b c → T a (g c)) :
    Pairwise2 T l (l''.map g) := by
  induction h1 generalizing l'' with
  | nil => cases h2; exact .nil
  | cons hr _ ih =>
    cases h2 with
    | cons hs hs' => exact .cons (h _ _ _ hr hs) (ih hs')

theorem bias_of_safe {env : TextEnv} {cf : IOConf} {store : Store} {t : String} {c : TabClass} {v : Frame}
    (hs : PgPanSafe env cf store t c v) :
    (t ≠ "parameters" → ∀ f ∈ c.fields, ∃ b, infBias env cf t f = some b) ∧
    (t = "parameters" → cf.params ≠ [] → ∃ k f, c.pks = [k] ∧ c.dfs = [f]) ∧
    (t ≠ "parameters" → cf.flag = .none → ∀ f ∈ c.fields, ¬ NoneFlagAmbiguous env cf t f) := by
  refine ⟨fun ht f hf => (survives_cells (hs.1 ht f hf).1).2.1, ?_, fun ht hfl f hf => ((hs.1 ht f hf).1.2.1 hfl).1⟩
  intro ht hp
  obtain ⟨k, f, e1, e2, _⟩ := hs.2.2 ht hp
  exact ⟨k, f, e1, e2⟩

/-- The rows that a format keeps of a table are read back. -/
theorem kept_back {env : TextEnv} (hT : TextOK env) (lower : String → String) (json : Bool) {cf : IOConf}
    (hq : ∀ q, cf.flag = .num q → 0 < q) {store : Store} {t : String} {c : TabClass} (hn : c.fields.Nodup) (hne : c.fields ≠ [])
    {v : Frame} (hv : FrameOK v) (hall : ∀ f ∈ c.fields, Label.name f ∈ v.cols) (hs : PgPanSafe env cf store t c v)
    (hj : json = true → PanNoNone env lower cf t c v) {w : Frame} (hw : panPreAny env cf t c v = some w)
    {rows : List (List Cell)}
    (hst : ∃ stored, StoredRows (store t) c.fields (fieldRows c w) stored ∧ Pairwise2 (Pairwise2 SameOrNull) stored rows) :
    ∃ rs, panPostAny env lower cf true json t c (plainFrame c.fields rows) = some (plainFrame c.fields rs) ∧
      Pairwise2 (Pairwise2 SameOrNull) (fieldRows c v) rs := by
  obtain ⟨hb, hp, _⟩ := bias_of_safe hs
  obtain ⟨stored, h1, h2⟩ := pg_pan_safe_rows hT lower json hq hn hs hj
  obtain ⟨stored', h3, h4⟩ := hst
  have hpar1 : t = "parameters" → cf.params ≠ [] → c.dfs.length = 1 := by
    intro a b
    obtain ⟨_, _, _, e⟩ := hp a b
    rw [e]; rfl
  obtain ⟨p1, p2, h, p3, p4⟩ := pre_any_rows hq store hn hpar1 hv hall hw
  have e : stored' = stored := by
    have e1 := (storedRows_iff _ _ _ _ (fieldRows_length c v)).mpr h1
    have e2 := (storedRows_iff _ _ _ _ (fieldRows_length c w)).mpr h3
    rw [fieldRows_self hn p1 p2, p3] at e2
    unfold fieldRows at e1
    rw [List.mapM_map] at e1 e2
    have : v.rows.mapM (mapCells (store t) c.fields ∘ fun r => c.fields.map (fun f => h f (colCell v r (.name f)))) =
        v.rows.mapM (mapCells (panPgCell env cf store t c) c.fields ∘ fun r => c.fields.map (fun f => colCell v r (.name f))) := by
      apply mapM_congr
      intro r _
      simp only [Function.comp_apply]
      rw [mapCells_fields, mapCells_fields]
      apply mapM_congr
      intro f hf
      rw [p4 f hf]
    rw [this] at e2
    exact Option.some.inj (e2.symm.trans e1)
  subst e
  have hlen : ∀ r ∈ rows, r.length = c.fields.length := by
    intro r hr
    obtain ⟨a, ha, hra⟩ := pairwise2_mem h4 r hr
    rw [pairwise2_length hra]
    obtain ⟨_, _, _, hl, _⟩ := pairwise2_mem h1 a ha
    exact hl
  refine ⟨rows.map (panPostRow env lower cf json t c), post_any_rows hn hne hp hb rows hlen, ?_⟩
  exact pairwise2_compose h2 h4 (fun a b d hab hbd => hab d hbd)

theorem prune_same {u : Frame} (h : ∀ r, u.rows.getLast? = some r → ¬ EmptyRow r.2) : u.prune = some u := by
  obtain ⟨k, h1, h2, h3, _⟩ := prune_exact u
  rw [h1]
  have : k = u.rows.length := by
    apply Classical.byContradiction
    intro hk
    have hlt : u.rows.length - 1 < u.rows.length := by omega
    have hl : u.rows.getLast? = some (u.rows[u.rows.length - 1]) := by
      rw [List.getLast?_eq_getElem?, List.getElem?_eq_getElem hlt]
    apply h _ hl
    apply h3
    rw [List.mem_drop_iff_getElem]
    refine ⟨u.rows.length - 1 - k, by omega, ?_⟩
    congr 1
    omega
  rw [this, List.take_length]

theorem pairwise2_getLast {A B : Type} {R : A → B → Prop} {l : List A} {l' : List B} (h : Pairwise2 R l l') {b : B}
    (hb : l'.getLast? = some b) : ∃ a, l.getLast? = some a ∧ R a b := by
  have hlen := pairwise2_length h
  rw [List.getLast?_eq_getElem?] at hb
  obtain ⟨hlt, _⟩ := List.getElem?_eq_some_iff.1 hb
  have hlt' : l'.length - 1 < l.length := by omega
  refine ⟨l[l'.length - 1], ?_, pairwise2_get h (List.getElem?_eq_getElem hlt') hb⟩
  rw [List.getLast?_eq_getElem?, ← hlen, List.getElem?_eq_getElem hlt']

/-- One table, from what was handed to pandas. -/
theorem file_table_back {env : TextEnv} (hT : TextOK env) (lower : String → String) (json prune fill : Bool) {cf : IOConf}
    (hq : ∀ q, cf.flag = .num q → 0 < q) {store : Store} {t : String} {c : TabClass} (hn : c.fields.Nodup) (hne : c.fields ≠ [])
    (hd : (PyDict.keys c.defaults).Nodup) (hsub : ∀ f ∈ PyDict.keys c.defaults, f ∈ c.fields)
    {v : Frame} (hv : FrameOK v) (hall : ∀ f ∈ c.fields, Label.name f ∈ v.cols) (hs : PgPanSafe env cf store t c v)
    (hj : json = true → PanNoNone env lower cf t c v) (hend : prune = true → EndsWithValue c v)
    {missing : TabClass → Frame → List String} (hm : ListsMissing missing) {pandas : String → Frame → Option Frame}
    {w u : Frame} (hw : panPreAny env cf t c v = some w) (hu : pandas t w = some u) (hk : PanKept store t c w u) :
    ∃ rs, panFileTable env lower cf json prune fill missing pandas t c (some w) = some (plainFrame c.fields rs) ∧
      Pairwise2 (Pairwise2 SameOrNull) (fieldRows c v) rs := by
  obtain ⟨rs, h1, h2⟩ := kept_back hT lower json hq hn hne hv hall hs hj hw hk.rows
  refine ⟨rs, ?_, h2⟩
  have hr := (pan_read_table c hn hne hd hsub fill u hk.ok hk.index (missing c u) (hm c u hn)).2 (fun f hf => .inl (hk.cols f hf))
  have e : u.rows.map (fun r => c.fields.map (fileCell c u r)) = fieldRows c u := by
    unfold fieldRows
    apply List.map_congr_left
    intro r _
    apply List.map_congr_left
    intro f hf
    unfold fileCell
    rw [if_pos (hk.cols f hf)]
  rw [e] at hr
  unfold panFileTable
  simp only [hu, Option.bind_some, hr, h1]
  by_cases hp : prune = true
  · rw [if_pos hp]
    apply prune_same
    intro r hr' hempty
    have hl : rs.getLast? = some r.2 := by
      have := congrArg (Option.map Prod.snd) hr'
      rw [plainFrame] at this
      rw [← List.getLast?_map, List.map_map] at this
      simpa [Function.comp_def] using this
    obtain ⟨a, ha, hra⟩ := pairwise2_getLast h2 hl
    obtain ⟨x, hx, hxn⟩ := hend hp a ha
    obtain ⟨y, hy, hxy⟩ := pairwise2_left hra hx
    rw [sameOrNull_not_null hxy hxn] at hy
    rcases hempty _ hy with h | h
    · exact hxn (.inl h)
    · exact hxn (.inr h)
  · rw [if_neg hp]

/-! ### All tables -/

theorem handed_ok {env : TextEnv} {lower : String → String} {json : Bool} {cf : IOConf} {cenv : CaseEnv} {store : Store}
    {schema : List (String × TabClass)} (hsch : PanSchemaOK cenv cf schema) {dat : PyDict String Frame}
    (hs : PanSafe env lower json cf store schema dat) :
    ∃ ws, panHanded env cf schema dat = some ws ∧ ws.map Prod.fst = schema.map Prod.fst ∧
      ∀ tc ∈ schema, ∃ v w, PyDict.get? dat tc.1 = some v ∧ panPreAny env cf tc.1 tc.2 v = some w ∧ (tc.1, w) ∈ ws := by
  have hpre : ∀ tc ∈ schema, ∃ v w, PyDict.get? dat tc.1 = some v ∧ panPreAny env cf tc.1 tc.2 v = some w := by
    intro tc htc
    obtain ⟨v, hv, hok, hvc, hsafe, _⟩ := hs tc htc
    obtain ⟨w, hw⟩ := pre_any_some hsch.flag (hsch.fields tc htc).1 hok hvc (bias_of_safe hsafe).2.2
    exact ⟨v, w, hv, hw⟩
  have hm := mapM_eq_map (l := schema)
    (g := fun tc => (PyDict.get? dat tc.1).bind (fun v => (panPreAny env cf tc.1 tc.2 v).map (fun w => (tc.1, w))))
    (k := fun tc => (tc.1, ((PyDict.get? dat tc.1).bind (fun v => panPreAny env cf tc.1 tc.2 v)).getD ⟨[], [], []⟩)) (by
      intro tc htc
      obtain ⟨v, w, hv, hw⟩ := hpre tc htc
      simp [hv, hw])
  refine ⟨schema.map (fun tc => (tc.1, ((PyDict.get? dat tc.1).bind (fun v => panPreAny env cf tc.1 tc.2 v)).getD ⟨[], [], []⟩)),
    ?_, ?_, ?_⟩
  · unfold panHanded
    rw [if_pos]
    · exact hm
    · rw [List.all_eq_true]
      intro tc htc
      obtain ⟨v, hv, _, hvc, _⟩ := hs tc htc
      rw [hv, Option.map_some, Option.getD_some]
      unfold goodPanTable
      rw [List.all_eq_true]
      intro f hf
      simpa [Frame.has] using hvc f hf
  · simp [Function.comp_def]
  · intro tc htc
    obtain ⟨v, w, hv, hw⟩ := hpre tc htc
    refine ⟨v, w, hv, hw, List.mem_map.2 ⟨tc, htc, ?_⟩⟩
    simp [hv, hw]

theorem handed_names {env : TextEnv} {cf : IOConf} {schema : List (String × TabClass)} {dat : PyDict String Frame}
    {ws : List (String × Frame)} (hp : panHanded env cf schema dat = some ws) : ws.map Prod.fst = schema.map Prod.fst := by
  unfold panHanded at hp
  split at hp
  · rw [mapM_eq_some_iff] at hp
    have := congrArg (List.map (Option.map Prod.fst)) hp
    rw [List.map_map, List.map_map] at this
    have h2 : schema.map (fun tc => some tc.1) = ws.map (fun p => some p.1) := by
      rw [show ws.map (fun p => some p.1) = ws.map (Option.map Prod.fst ∘ some) from rfl, ← this]
      apply List.map_congr_left
      intro a ha
      have hsome : ((PyDict.get? dat a.1).bind fun v => (panPreAny env cf a.1 a.2 v).map fun w => (a.1, w)) ∈ ws.map some := by
        rw [← hp]
        exact List.mem_map.2 ⟨a, ha, rfl⟩
      obtain ⟨q, _, e⟩ := List.mem_map.1 hsome
      simp only [Function.comp_apply]
      rw [← e, Option.map_some]
      cases hg : PyDict.get? dat a.1 with
      | none => rw [hg] at e; cases e
      | some v =>
        rw [hg, Option.bind_some] at e
        cases hz : panPreAny env cf a.1 a.2 v with
        | none => rw [hz] at e; cases e
        | some w => rw [hz] at e; cases e; rfl
    have h3 := congrArg (List.map (fun o : Option String => o.getD "")) h2
    simp only [List.map_map, Function.comp_def, Option.getD_some] at h3
    exact h3.symm
  · cases hp

/-- Tables that are read one by one make an object. -/
theorem assemble {schema : List (String × TabClass)} {dat : PyDict String Frame} (hn : (schema.map Prod.fst).Nodup)
    {g : String × TabClass → Option (String × Frame)} (h : ∀ tc ∈ schema, ∃ v rs, PyDict.get? dat tc.1 = some v ∧
      Pairwise2 (Pairwise2 SameOrNull) (fieldRows tc.2 v) rs ∧ g tc = some (tc.1, plainFrame tc.2.fields rs)) :
    ∃ dat2, schema.mapM g = some dat2 ∧ SamePan schema dat dat2 := by
  have hval := mapM_eq_map (l := schema) (g := g) (k := fun tc => (tc.1, ((g tc).map Prod.snd).getD ⟨[], [], []⟩)) (by
      intro tc htc
      obtain ⟨v, rs, _, _, h⟩ := h tc htc
      simp [h])
  refine ⟨_, hval, ?_, ?_⟩
  · simp [PyDict.keys, Function.comp_def]
  · intro tc htc
    obtain ⟨v, rs, h1, h2, h3⟩ := h tc htc
    refine ⟨v, rs, h1, h2, ?_⟩
    apply PyDict.get?_of_mem
    · simp only [List.map_map, Function.comp_def, PyDict.keys]
      exact hn
    · exact List.mem_map.2 ⟨tc, htc, by simp [h3]⟩

/-- Reading, if each table finds what was handed to pandas. -/
theorem file_read_back {env : TextEnv} (hT : TextOK env) (lower : String → String) (json prune fill : Bool) {cf : IOConf}
    {cenv : CaseEnv} {store : Store} {schema : List (String × TabClass)} (hsch : PanSchemaOK cenv cf schema)
    {dat : PyDict String Frame} (hs : PanSafe env lower json cf store schema dat)
    {pandas : String → Frame → Option Frame} (hk : PandasKeeps env cf store pandas schema dat)
    (hend : prune = true → ∀ tc ∈ schema, ∀ v, PyDict.get? dat tc.1 = some v → EndsWithValue tc.2 v)
    {missing : TabClass → Frame → List String} (hm : ListsMissing missing) {find : String → Option (Option Frame)}
    (hfind : ∀ tc ∈ schema, ∀ v w, PyDict.get? dat tc.1 = some v → panPreAny env cf tc.1 tc.2 v = some w →
      find tc.1 = some (some w)) :
    ∃ dat2, panFileRead env lower cf json prune fill missing pandas find schema = some dat2 ∧ SamePan schema dat dat2 := by
  have hn : (schema.map Prod.fst).Nodup := by
    have h := ((goodTableNames_iff _ _).mp hsch.names).2.2
    rw [List.map_map] at h
    have := nodup_of_map (fun s : String => cenv.lower s.toList) (l := schema.map Prod.fst) (by rw [List.map_map]; exact h)
    exact this
  have htable : ∀ tc ∈ schema, ∃ v rs, PyDict.get? dat tc.1 = some v ∧ Pairwise2 (Pairwise2 SameOrNull) (fieldRows tc.2 v) rs ∧
      (find tc.1).bind (fun o => (panFileTable env lower cf json prune fill missing pandas tc.1 tc.2 o).map (fun w => (tc.1, w))) =
        some (tc.1, plainFrame tc.2.fields rs) := by
    intro tc htc
    obtain ⟨v, hv, hok, hvc, hsafe, hj⟩ := hs tc htc
    obtain ⟨f1, f2, f3, f4⟩ := hsch.fields tc htc
    obtain ⟨w, hw⟩ := pre_any_some hsch.flag f1 hok hvc (bias_of_safe hsafe).2.2
    obtain ⟨u, hu, hku⟩ := hk tc htc v w hv hw
    obtain ⟨rs, h1, h2⟩ := file_table_back hT lower json prune fill hsch.flag f1 f2 f3 f4 hok hvc hsafe hj
      (fun h => hend h tc htc v hv) hm hw hu hku
    refine ⟨v, rs, hv, h2, ?_⟩
    rw [hfind tc htc v w hv hw, Option.bind_some, h1, Option.map_some]
  exact assemble hn htable

/-! ### Names -/

/-- All entries are put into a dictionary. -/
theorem put_all {V : Type} (ws : List (String × V)) (d : PyDict String V) (hn : (ws.map Prod.fst).Nodup) :
    ((PyDict.keys d).Nodup → (PyDict.keys (ws.foldl (fun d p => PyDict.set d p.1 p.2) d)).Nodup) ∧
    (∀ p ∈ ws, PyDict.get? (ws.foldl (fun d p => PyDict.set d p.1 p.2) d) p.1 = some p.2) ∧
    (∀ k, k ∉ ws.map Prod.fst → PyDict.get? (ws.foldl (fun d p => PyDict.set d p.1 p.2) d) k = PyDict.get? d k) ∧
    (∀ k, k ∈ PyDict.keys (ws.foldl (fun d p => PyDict.set d p.1 p.2) d) ↔ k ∈ PyDict.keys d ∨ k ∈ ws.map Prod.fst) := by
  induction ws generalizing d with
  | nil => simp
  | cons p ws ih =>
    rw [List.map_cons, List.nodup_cons] at hn
    obtain ⟨h1, h2, h3, h4⟩ := ih (PyDict.set d p.1 p.2) hn.2
    simp only [List.foldl_cons]
    refine ⟨fun hd => h1 (PyDict.keys_set_nodup _ _ _ hd), ?_, ?_, ?_⟩
    · intro q hq
      rcases List.mem_cons.1 hq with e | hq
      · subst e
        rw [h3 _ hn.1, PyDict.get?_set, if_pos rfl]
      · exact h2 q hq
    · intro k hk
      rw [List.map_cons, List.mem_cons, not_or] at hk
      rw [h3 k hk.2, PyDict.get?_set, if_neg (Ne.symm hk.1)]
    · intro k
      rw [h4, PyDict.keys_set_mem, List.map_cons, List.mem_cons]
      constructor
      · rintro ((h | h) | h)
        · exact .inr (.inl h)
        · exact .inl h
        · exact .inr (.inr h)
      · rintro (h | h | h)
        · exact .inl (.inr h)
        · exact .inl (.inl h)
        · exact .inr h

/-- The only name that matches is found. -/
theorem onlyName_one {st : PanStore} (hn : (PyDict.keys st).Nodup) {p : List Char → Bool} {n : String} {w : Frame}
    (hw : PyDict.get? st n = some w) (hp : p n.toList = true) (hu : ∀ k ∈ PyDict.keys st, p k.toList = true → k = n) :
    onlyName st p = some (some w) := by
  have hm : n ∈ PyDict.keys st := List.mem_map.2 ⟨(n, w), PyDict.get?_mem hw, rfl⟩
  have := (filter_eq_singleton (PyDict.keys st) hn (fun n => p n.toList) n).mpr ⟨hm, hp, hu⟩
  simp only [onlyName, this, hw]

/-- Two names that match are refused. -/
theorem onlyName_two {st : PanStore} {p : List Char → Bool} {n m : String} (hn : n ∈ PyDict.keys st) (hm : m ∈ PyDict.keys st)
    (hpn : p n.toList = true) (hpm : p m.toList = true) (hne : n ≠ m) : onlyName st p = none := by
  have h1 : n ∈ (PyDict.keys st).filter (fun n => p n.toList) := List.mem_filter.2 ⟨hn, hpn⟩
  have h2 : m ∈ (PyDict.keys st).filter (fun n => p n.toList) := List.mem_filter.2 ⟨hm, hpm⟩
  unfold onlyName
  split
  · rename_i h; rw [h] at h1; cases h1
  · rename_i h
    rw [h, List.mem_singleton] at h1 h2
    exact absurd (h1.trans h2.symm) hne
  · rfl

/-- The name under which a table is written is the name of the table, up to case and blanks. -/
theorem norm_out {cenv : CaseEnv} (laws : CaseLaws cenv) {cf : IOConf} {schema : List (String × TabClass)}
    (hsch : PanSchemaOK cenv cf schema) {cs : Bool} (hcs : cs = true → ∀ tc ∈ schema, CaseRoundTrip cenv tc.1.toList)
    {t : String} (ht : t ∈ schema.map Prod.fst) :
    unblank (cenv.lower (panNameOut cenv schema cs t)) = cenv.lower t.toList := by
  obtain ⟨tc, htc, e⟩ := List.mem_map.1 ht
  subst e
  have hb := ((goodTableNames_iff _ _).mp hsch.names).2.1 tc.1.toList (List.mem_map.2 ⟨tc, htc, rfl⟩)
  unfold panNameOut
  cases cs with
  | true => exact norm_tableNameOut laws _ _ _ hb (hcs rfl tc htc)
  | false => exact unblank_of_no_blank _ (lower_no_blank laws _ hb)

theorem schema_lower_inj {cenv : CaseEnv} {cf : IOConf} {schema : List (String × TabClass)}
    (hsch : PanSchemaOK cenv cf schema) {t t' : String} (ht : t ∈ schema.map Prod.fst) (ht' : t' ∈ schema.map Prod.fst)
    (e : cenv.lower t.toList = cenv.lower t'.toList) : t = t' := by
  obtain ⟨tc, htc, e1⟩ := List.mem_map.1 ht
  obtain ⟨tc', htc', e2⟩ := List.mem_map.1 ht'
  have := lower_inj_of_nodup ((goodTableNames_iff _ _).mp hsch.names).2.2 (a := tc.1.toList) (b := tc'.1.toList)
    (List.mem_map.2 ⟨tc, htc, rfl⟩) (List.mem_map.2 ⟨tc', htc', rfl⟩) (by rw [e1, e2]; exact e)
  rw [← e1, ← e2]
  exact String.toList_inj.mp this

theorem schema_names_nodup {cenv : CaseEnv} {cf : IOConf} {schema : List (String × TabClass)}
    (hsch : PanSchemaOK cenv cf schema) : (schema.map Prod.fst).Nodup := by
  have h := ((goodTableNames_iff _ _).mp hsch.names).2.2
  rw [List.map_map] at h
  exact nodup_of_map (fun s : String => cenv.lower s.toList) (l := schema.map Prod.fst) (by rw [List.map_map]; exact h)

theorem nodup_map_of_inj_mem {A B : Type} (f : A → B) {l : List A} (hn : l.Nodup) (h : ∀ a ∈ l, ∀ b ∈ l, f a = f b → a = b) :
    (l.map f).Nodup := by
  rw [List.Nodup, List.pairwise_map]
  exact List.Pairwise.imp_of_mem (fun ha hb hne e => hne (h _ ha _ hb e)) hn

/-! ### csv -/

/-- The name of the csv file that is written for a table. -/
def csvFileOut (cenv : CaseEnv) (schema : List (String × TabClass)) (cs : Bool) (t : String) : String :=
  String.ofList (panNameOut cenv schema cs t ++ ".csv".toList)

theorem csv_norm {cenv : CaseEnv} (laws : CaseLaws cenv) {cf : IOConf} {schema : List (String × TabClass)}
    (hsch : PanSchemaOK cenv cf schema) {cs : Bool} (hcs : cs = true → ∀ tc ∈ schema, CaseRoundTrip cenv tc.1.toList)
    {t : String} (ht : t ∈ schema.map Prod.fst) : SpellsCsv cenv t (csvFileOut cenv schema cs t) := by
  unfold SpellsCsv csvFileOut
  rw [String.toList_ofList, lower_append, unblank_append, norm_out laws hsch hcs ht, laws.lo_csv]
  rfl

theorem csv_spells_one {cenv : CaseEnv} {cf : IOConf} {schema : List (String × TabClass)} (hsch : PanSchemaOK cenv cf schema)
    {t t' f : String} (ht : t ∈ schema.map Prod.fst) (ht' : t' ∈ schema.map Prod.fst) (h : SpellsCsv cenv t f)
    (h' : SpellsCsv cenv t' f) : t = t' := by
  apply schema_lower_inj hsch ht ht'
  unfold SpellsCsv at h h'
  exact List.append_cancel_right (h.symm.trans h')

theorem csv_write_eq (env : TextEnv) (cenv : CaseEnv) (cf : IOConf) (schema : List (String × TabClass)) (cs : Bool)
    (dat : PyDict String Frame) (dir : PanStore) {ws : List (String × Frame)} (hw : panHanded env cf schema dat = some ws) :
    csvPanWrite env cenv cf schema cs dat dir = some ((ws.map (fun p => (csvFileOut cenv schema cs p.1, p.2))).foldl
      (fun d p => PyDict.set d p.1 p.2) dir) := by
  unfold csvPanWrite
  rw [hw, Option.map_some, List.foldl_map]
  rfl

theorem csv_names_nodup {cenv : CaseEnv} (laws : CaseLaws cenv) {cf : IOConf} {schema : List (String × TabClass)}
    (hsch : PanSchemaOK cenv cf schema) {cs : Bool} (hcs : cs = true → ∀ tc ∈ schema, CaseRoundTrip cenv tc.1.toList)
    {ws : List (String × Frame)} (hws : ws.map Prod.fst = schema.map Prod.fst) :
    ((ws.map (fun p => (csvFileOut cenv schema cs p.1, p.2))).map Prod.fst).Nodup := by
  have e : (ws.map (fun p => (csvFileOut cenv schema cs p.1, p.2))).map Prod.fst =
      (ws.map Prod.fst).map (csvFileOut cenv schema cs) := by simp [Function.comp_def]
  rw [e, hws]
  apply nodup_map_of_inj_mem _ (schema_names_nodup hsch)
  intro a ha b hb hab
  exact csv_spells_one hsch ha hb (csv_norm laws hsch hcs ha) (by rw [hab]; exact csv_norm laws hsch hcs hb)

/-- **C72 (csv).**  `write_directory` into a directory that may have other files writes one file for each table and leaves
the others alone.  If no other file spells the name of a table, `create_pan_dat` then gives the same object back. -/
theorem pan_csv_round_trip {env : TextEnv} (hT : TextOK env) {cenv : CaseEnv} (laws : CaseLaws cenv) (lower : String → String)
    {cf : IOConf} {store : Store} {schema : List (String × TabClass)} (hsch : PanSchemaOK cenv cf schema)
    {dat : PyDict String Frame} (hs : PanSafe env lower false cf store schema dat)
    {pandas : String → Frame → Option Frame} (hk : PandasKeeps env cf store pandas schema dat)
    {missing : TabClass → Frame → List String} (hm : ListsMissing missing) (fill : Bool) {cs : Bool}
    (hcs : cs = true → ∀ tc ∈ schema, CaseRoundTrip cenv tc.1.toList) {dir : PanStore} (hd : (PyDict.keys dir).Nodup)
    (hold : ∀ tc ∈ schema, ∀ f ∈ PyDict.keys dir, SpellsCsv cenv tc.1 f → f = csvFileOut cenv schema cs tc.1) :
    ∃ dir', csvPanWrite env cenv cf schema cs dat dir = some dir' ∧
      (∀ f, (∀ tc ∈ schema, f ≠ csvFileOut cenv schema cs tc.1) → PyDict.get? dir' f = PyDict.get? dir f) ∧
      ∃ dat2, csvPanRead env cenv lower cf fill missing pandas schema dir' = some dat2 ∧ SamePan schema dat dat2 := by
  obtain ⟨ws, hw, hws, hall⟩ := handed_ok hsch hs
  have hnd := csv_names_nodup laws hsch hcs hws
  obtain ⟨p1, p2, p3, p4⟩ := put_all _ dir hnd
  have hnames : ∀ f, f ∈ (ws.map (fun p => (csvFileOut cenv schema cs p.1, p.2))).map Prod.fst ↔
      ∃ tc ∈ schema, f = csvFileOut cenv schema cs tc.1 := by
    intro f
    have e : (ws.map (fun p => (csvFileOut cenv schema cs p.1, p.2))).map Prod.fst =
        (ws.map Prod.fst).map (csvFileOut cenv schema cs) := by simp [Function.comp_def]
    rw [e, hws, List.map_map, List.mem_map]
    exact ⟨fun ⟨tc, h, e⟩ => ⟨tc, h, e.symm⟩, fun ⟨tc, h, e⟩ => ⟨tc, h, e.symm⟩⟩
  refine ⟨_, csv_write_eq env cenv cf schema cs dat dir hw, ?_, ?_⟩
  · intro f hf
    apply p3
    rw [hnames]
    rintro ⟨tc, htc, e⟩
    exact hf tc htc e
  · unfold csvPanRead
    apply file_read_back hT lower false false fill hsch hs hk (by simp) hm
    intro tc htc v w hv hpre
    obtain ⟨v', w', hv', hw', hmem⟩ := hall tc htc
    rw [hv] at hv'
    cases hv'
    rw [hpre] at hw'
    cases hw'
    have hin : tc.1 ∈ schema.map Prod.fst := List.mem_map.2 ⟨tc, htc, rfl⟩
    unfold csvPanFind
    apply onlyName_one (n := csvFileOut cenv schema cs tc.1) (p1 hd)
    · exact p2 (csvFileOut cenv schema cs tc.1, w) (List.mem_map.2 ⟨(tc.1, w), hmem, rfl⟩)
    · exact decide_eq_true (csv_norm laws hsch hcs hin)
    · intro k hk' hp
      have hp : SpellsCsv cenv tc.1 k := by simpa [csvMatches, SpellsCsv] using hp
      rcases (p4 k).1 hk' with h | h
      · exact hold tc htc k h hp
      · obtain ⟨tc', htc', e⟩ := (hnames k).1 h
        have hin' : tc'.1 ∈ schema.map Prod.fst := List.mem_map.2 ⟨tc', htc', rfl⟩
        have := csv_spells_one hsch hin hin' hp (by rw [e]; exact csv_norm laws hsch hcs hin')
        rw [this]
        exact e

/-- **C72 (csv, stale spellings).**  A file that spells the name of a table differently from the file that is written stays
there, and the directory can no longer be read, whatever the data. -/
theorem pan_csv_stale {env : TextEnv} {cenv : CaseEnv} (laws : CaseLaws cenv) (lower : String → String)
    {cf : IOConf} {schema : List (String × TabClass)} (hsch : PanSchemaOK cenv cf schema)
    {dat : PyDict String Frame} {pandas : String → Frame → Option Frame}
    {missing : TabClass → Frame → List String} {fill : Bool} {cs : Bool}
    (hcs : cs = true → ∀ tc ∈ schema, CaseRoundTrip cenv tc.1.toList) {dir dir' : PanStore}
    (hw : csvPanWrite env cenv cf schema cs dat dir = some dir') {tc : String × TabClass} (htc : tc ∈ schema) {f : String}
    (hf : f ∈ PyDict.keys dir) (hsp : SpellsCsv cenv tc.1 f) (hne : f ≠ csvFileOut cenv schema cs tc.1) :
    csvPanRead env cenv lower cf fill missing pandas schema dir' = none := by
  cases hp : panHanded env cf schema dat with
  | none => simp [csvPanWrite, hp] at hw
  | some ws =>
    have hws := handed_names hp
    rw [csv_write_eq env cenv cf schema cs dat dir hp] at hw
    cases hw
    obtain ⟨_, _, _, p4⟩ := put_all _ dir (csv_names_nodup laws hsch hcs hws)
    have hin : tc.1 ∈ schema.map Prod.fst := List.mem_map.2 ⟨tc, htc, rfl⟩
    unfold csvPanRead panFileRead
    apply mapM_none_of htc
    unfold csvPanFind
    rw [onlyName_two (n := f) (m := csvFileOut cenv schema cs tc.1), Option.bind_none]
    · exact (p4 f).2 (.inl hf)
    · apply (p4 _).2 ∘ .inr
      have : tc.1 ∈ ws.map Prod.fst := by rw [hws]; exact hin
      obtain ⟨q, hq, e⟩ := List.mem_map.1 this
      exact List.mem_map.2 ⟨(csvFileOut cenv schema cs q.1, q.2), List.mem_map.2 ⟨q, hq, rfl⟩, by rw [e]⟩
    · exact decide_eq_true hsp
    · exact decide_eq_true (csv_norm laws hsch hcs hin)
    · exact hne

/-! ### Excel -/

theorem sheet_norm {cenv : CaseEnv} (laws : CaseLaws cenv) (hsc : SimpleCase cenv) {cf : IOConf}
    {schema : List (String × TabClass)} (hsch : PanSchemaOK cenv cf schema) {cs : Bool}
    (hcs : cs = true → ∀ tc ∈ schema, CaseRoundTrip cenv tc.1.toList) {t : String} (ht : t ∈ schema.map Prod.fst) :
    (unblank (cenv.lower ((panNameOut cenv schema cs t).take longestSheet))).take longestSheet =
      (cenv.lower t.toList).take longestSheet := by
  obtain ⟨g, hgm⟩ := lower_eq_map hsc
  have : cenv.lower ((panNameOut cenv schema cs t).take longestSheet) =
      (cenv.lower (panNameOut cenv schema cs t)).take longestSheet := by
    rw [hgm, hgm, List.map_take]
  rw [this, unblank_take, norm_out laws hsch hcs ht, List.take_take, Nat.min_self]

theorem sheet_lower_inj {cenv : CaseEnv} {schema : List (String × TabClass)}
    (hlow : (schema.map (fun tc => (cenv.lower tc.1.toList).take longestSheet)).Nodup)
    {t t' : String} (ht : t ∈ schema.map Prod.fst) (ht' : t' ∈ schema.map Prod.fst)
    (e : (cenv.lower t.toList).take longestSheet = (cenv.lower t'.toList).take longestSheet) : t = t' := by
  obtain ⟨tc, htc, e1⟩ := List.mem_map.1 ht
  obtain ⟨tc', htc', e2⟩ := List.mem_map.1 ht'
  have := inj_of_nodup_map (fun tc : String × TabClass => (cenv.lower tc.1.toList).take longestSheet) hlow htc htc'
    (by simp only [e1, e2]; exact e)
  rw [← e1, ← e2, this]

theorem sheet_check {cenv : CaseEnv} (hsc : SimpleCase cenv) {schema : List (String × TabClass)}
    (hlow : (schema.map (fun tc => (cenv.lower tc.1.toList).take longestSheet)).Nodup) :
    sheetNamesDiffer (schema.map (fun tc => tc.1.toList)) = true := by
  obtain ⟨g, hgm⟩ := lower_eq_map hsc
  unfold sheetNamesDiffer
  apply decide_eq_true
  apply nodup_of_map (List.map g)
  rw [List.map_map, List.map_map]
  have : (List.map g ∘ List.take longestSheet) ∘ (fun tc : String × TabClass => tc.1.toList) =
      fun tc : String × TabClass => (cenv.lower tc.1.toList).take longestSheet := by
    funext tc
    simp only [Function.comp_apply]
    rw [hgm, List.map_take]
  rw [this]
  exact hlow

/-- **C72 (Excel).**  `write_file` makes a book with one sheet for each table and `create_pan_dat` gives the same object
back, if the table names differ in their first 30 characters up to case; if trailing rows without values are dropped, the last
row of each table must have a value. -/
theorem pan_xls_round_trip {env : TextEnv} (hT : TextOK env) {cenv : CaseEnv} (laws : CaseLaws cenv) (hsc : SimpleCase cenv)
    (lower : String → String)
    {cf : IOConf} {store : Store} {schema : List (String × TabClass)} (hsch : PanSchemaOK cenv cf schema)
    (hlow : (schema.map (fun tc => (cenv.lower tc.1.toList).take longestSheet)).Nodup)
    {dat : PyDict String Frame} (hs : PanSafe env lower false cf store schema dat)
    {pandas : String → Frame → Option Frame} (hk : PandasKeeps env cf store pandas schema dat)
    {missing : TabClass → Frame → List String} (hm : ListsMissing missing) (prune fill : Bool) {cs : Bool}
    (hend : prune = true → ∀ tc ∈ schema, ∀ v, PyDict.get? dat tc.1 = some v → EndsWithValue tc.2 v)
    (hcs : cs = true → ∀ tc ∈ schema, CaseRoundTrip cenv tc.1.toList) :
    ∃ book, xlsPanWrite env cenv cf schema cs dat = some book ∧
      ∃ dat2, xlsPanRead env cenv lower cf prune fill missing pandas schema book = some dat2 ∧ SamePan schema dat dat2 := by
  obtain ⟨ws, hw, hws, hall⟩ := handed_ok hsch hs
  have hchk := sheet_check hsc hlow
  let nm : String → String := fun t => String.ofList ((panNameOut cenv schema cs t).take longestSheet)
  have hnm : ∀ t, (nm t).toList = (panNameOut cenv schema cs t).take longestSheet := fun t => String.toList_ofList
  have he : (ws.map (fun p => (nm p.1, p.2))).map Prod.fst = (schema.map Prod.fst).map nm := by
    rw [← hws]; simp [Function.comp_def]
  have hnd : ((ws.map (fun p => (nm p.1, p.2))).map Prod.fst).Nodup := by
    rw [he]
    apply nodup_map_of_inj_mem _ (schema_names_nodup hsch)
    intro a ha b hb hab
    apply sheet_lower_inj hlow ha hb
    rw [← sheet_norm laws hsc hsch hcs ha, ← sheet_norm laws hsc hsch hcs hb, ← hnm, ← hnm, hab]
  obtain ⟨p1, p2, p3, p4⟩ := put_all _ [] hnd
  refine ⟨(ws.map (fun p => (nm p.1, p.2))).foldl (fun d p => PyDict.set d p.1 p.2) [], ?_, ?_⟩
  · unfold xlsPanWrite
    rw [if_pos hchk, hw, Option.map_some, List.foldl_map]
  · unfold xlsPanRead
    rw [if_pos hchk]
    apply file_read_back hT lower false prune fill hsch hs hk hend hm
    intro tc htc v w hv hpre
    obtain ⟨v', w', hv', hw', hmem⟩ := hall tc htc
    rw [hv] at hv'
    cases hv'
    rw [hpre] at hw'
    cases hw'
    have hin : tc.1 ∈ schema.map Prod.fst := List.mem_map.2 ⟨tc, htc, rfl⟩
    unfold xlsPanFind
    apply onlyName_one (n := nm tc.1) (p1 (by simp [PyDict.keys]))
    · exact p2 (nm tc.1, w) (List.mem_map.2 ⟨(tc.1, w), hmem, rfl⟩)
    · unfold sheetMatches
      rw [hnm]
      exact decide_eq_true (sheet_norm laws hsc hsch hcs hin).symm
    · intro k hk' hp
      unfold sheetMatches at hp
      have hp := of_decide_eq_true hp
      rcases (p4 k).1 hk' with h | h
      · simp [PyDict.keys] at h
      · rw [he] at h
        obtain ⟨t', ht', e⟩ := List.mem_map.1 h
        rw [← e, hnm, sheet_norm laws hsc hsch hcs ht'] at hp
        rw [sheet_lower_inj hlow hin ht' hp]
        exact e.symm

/-! ### SQLite -/

/-- All underscores are blanks. -/
def allBlank (s : List Char) : List Char := s.map (fun c => if c = '_' then ' ' else c)

theorem allBlank_variant (s : List Char) : BlankedVariant s (allBlank s) := by
  induction s with
  | nil => exact .nil
  | cons c s ih =>
    unfold allBlank
    rw [List.map_cons]
    by_cases h : c = '_'
    · rw [if_pos h, h]; exact .blank ih
    · rw [if_neg h]; exact .same _ ih

theorem self_variant (s : List Char) : BlankedVariant s s := by
  induction s with
  | nil => exact .nil
  | cons c s ih => exact .same _ ih

theorem lower_prettyGo {env : CaseEnv} (laws : CaseLaws env) (s : List Char) :
    ∀ b, CaseRoundTrip env s → env.lower (prettyGo env b s) = env.lower (allBlank s) := by
  induction s with
  | nil => intro b _; rfl
  | cons c cs ih =>
    intro b h
    have hcs : CaseRoundTrip env cs := fun d hd => h d (by simp [hd])
    simp only [prettyGo, allBlank, List.map_cons]
    by_cases e : c = '_'
    · subst e
      rw [if_pos rfl, if_pos rfl, lower_cons, lower_cons, ih true hcs]
      rfl
    · rw [if_neg e, if_neg e, lower_append, lower_cons, ih false hcs]
      congr 1
      split
      · exact h c (by simp)
      · simp [CaseEnv.lower]

theorem lower_pretty {env : CaseEnv} (laws : CaseLaws env) (s : List Char) (h : CaseRoundTrip env s) (hh : s.head? ≠ some '_') :
    env.lower (pretty env s) = env.lower (allBlank s) := by
  cases s with
  | nil => rfl
  | cons c cs =>
    have hcs : CaseRoundTrip env cs := fun d hd => h d (by simp [hd])
    have hc : c ≠ '_' := fun e => hh (by rw [e]; rfl)
    simp only [pretty]
    rw [prettyGo_append env _ _ (fun hu => hc (laws.up_no_under c hu)), lower_append, lower_prettyGo laws cs false hcs]
    simp only [allBlank, List.map_cons]
    rw [if_neg hc, lower_cons]
    congr 1
    exact h c (by simp)

/-- The name of the SQLite table that is written for a table. -/
def sqlNameOut (cenv : CaseEnv) (schema : List (String × TabClass)) (cs : Bool) (t : String) : String :=
  String.ofList (panNameOut cenv schema cs t)

/-- The name that is written spells the name of the table. -/
theorem sql_spells {cenv : CaseEnv} (laws : CaseLaws cenv) {cf : IOConf} {schema : List (String × TabClass)}
    (hsch : PanSchemaOK cenv cf schema) {cs : Bool} (hcs : cs = true → ∀ tc ∈ schema, CaseRoundTrip cenv tc.1.toList)
    {t : String} (ht : t ∈ schema.map Prod.fst) : SpellsTable cenv t (sqlNameOut cenv schema cs t) := by
  obtain ⟨tc, htc, e⟩ := List.mem_map.1 ht
  subst e
  have hh := ((goodTableNames_iff _ _).mp hsch.names).1 tc.1.toList (List.mem_map.2 ⟨tc, htc, rfl⟩)
  unfold SpellsTable sqlNameOut panNameOut tableNameOut
  rw [String.toList_ofList]
  split
  · rename_i h
    have hc : cs = true := by
      rw [Bool.and_eq_true] at h
      exact h.1
    exact ⟨_, allBlank_variant _, lower_pretty laws _ (hcs hc tc htc) hh⟩
  · exact ⟨_, self_variant _, rfl⟩

theorem variant_norm {cenv : CaseEnv} (laws : CaseLaws cenv) {s n : List Char} (h : BlankedVariant s n) :
    unblank (cenv.lower n) = unblank (cenv.lower s) := by
  induction h with
  | nil => rfl
  | same c _ ih => rw [lower_cons, lower_cons, unblank_append, unblank_append, ih]
  | blank _ ih => rw [lower_cons, lower_cons, unblank_append, unblank_append, ih, laws.lo_blank, laws.lo_under]; rfl

theorem spells_one {cenv : CaseEnv} (laws : CaseLaws cenv) {cf : IOConf} {schema : List (String × TabClass)}
    (hsch : PanSchemaOK cenv cf schema) {t t' k : String} (ht : t ∈ schema.map Prod.fst) (ht' : t' ∈ schema.map Prod.fst)
    (h : SpellsTable cenv t k) (h' : SpellsTable cenv t' k) : t = t' := by
  apply schema_lower_inj hsch ht ht'
  obtain ⟨n, hn, e⟩ := h
  obtain ⟨n', hn', e'⟩ := h'
  have h1 := variant_norm laws hn
  have h2 := variant_norm laws hn'
  rw [← e] at h1
  rw [← e'] at h2
  have hb : ∀ x ∈ schema.map Prod.fst, unblank (cenv.lower x.toList) = cenv.lower x.toList := by
    intro x hx
    obtain ⟨tc, htc, e⟩ := List.mem_map.1 hx
    subst e
    have hb := ((goodTableNames_iff _ _).mp hsch.names).2.1 tc.1.toList (List.mem_map.2 ⟨tc, htc, rfl⟩)
    exact unblank_of_no_blank _ (lower_no_blank laws _ hb)
  rw [← hb t ht, ← hb t' ht', ← h1, ← h2]

/-- The only spelling is found. -/
theorem sqlPanFind_one {cenv : CaseEnv} (laws : CaseLaws cenv) {db : PanStore} {t n : String} {w : Frame}
    (hw : PyDict.get? db n = some w) (hsp : SpellsTable cenv t n)
    (hu : ∀ k ∈ PyDict.keys db, SpellsTable cenv t k → k = n) (hkn : (PyDict.keys db).Nodup) :
    sqlPanFind cenv db t = some (some w) := by
  have hmem := PyDict.get?_mem hw
  obtain ⟨m, hm, he⟩ := hsp
  have hf : (underscoreReplacements t.toList).filter (fun n =>
      db.any (fun p => decide (cenv.lower p.1.toList = cenv.lower n))) = [m] := by
    rw [filter_eq_singleton _ (underscoreReplacements_nodup _)]
    refine ⟨(mem_underscoreReplacements _ _).mpr hm, ?_, ?_⟩
    · rw [List.any_eq_true]; exact ⟨(n, w), hmem, decide_eq_true he⟩
    · intro m' hm' hany
      have hv := (mem_underscoreReplacements _ _).mp hm'
      rw [List.any_eq_true] at hany
      obtain ⟨q, hq, e⟩ := hany
      have e := of_decide_eq_true e
      have := hu q.1 (List.mem_map.2 ⟨q, hq, rfl⟩) ⟨m', hv, e⟩
      rw [this] at e
      exact lower_variant_inj cenv laws _ _ _ hv hm (e.symm.trans he)
  unfold sqlPanFind
  rw [hf]
  simp only
  cases hd : db.find? (fun p => decide (cenv.lower p.1.toList = cenv.lower m)) with
  | none =>
    rw [List.find?_eq_none] at hd
    exact absurd (by simpa using he) (hd (n, w) hmem)
  | some q =>
    have e := List.find?_some hd
    have e := of_decide_eq_true e
    have hq := List.mem_of_find?_eq_some hd
    have hqn := hu q.1 (List.mem_map.2 ⟨q, hq, rfl⟩) ⟨m, hm, e⟩
    have := PyDict.get?_of_mem (k := q.1) (v := q.2) hkn hq
    rw [hqn, hw] at this
    rw [Option.map_some, ← Option.some.inj this]

/-- Spellings that differ in more than case are refused. -/
theorem sqlPanFind_two {cenv : CaseEnv} {db : PanStore} {t a b : String} (ha : a ∈ PyDict.keys db)
    (hb : b ∈ PyDict.keys db) (hsa : SpellsTable cenv t a) (hsb : SpellsTable cenv t b)
    (hne : cenv.lower a.toList ≠ cenv.lower b.toList) : sqlPanFind cenv db t = none := by
  obtain ⟨n, hn, he⟩ := hsa
  obtain ⟨m, hm, he'⟩ := hsb
  have hin : ∀ x ∈ PyDict.keys db, ∀ n, BlankedVariant t.toList n → cenv.lower x.toList = cenv.lower n →
      n ∈ (underscoreReplacements t.toList).filter (fun n => db.any (fun p => decide (cenv.lower p.1.toList = cenv.lower n))) := by
    intro x hx n hn he
    obtain ⟨q, hq, e⟩ := List.mem_map.1 hx
    rw [List.mem_filter, mem_underscoreReplacements, List.any_eq_true]
    exact ⟨hn, q, hq, decide_eq_true (by rw [e]; exact he)⟩
  have h1 := hin a ha n hn he
  have h2 := hin b hb m hm he'
  have hnm : n ≠ m := fun e => hne (by rw [he, he', e])
  unfold sqlPanFind
  split
  · rename_i h; rw [h] at h1; cases h1
  · rename_i h
    rw [h, List.mem_singleton] at h1 h2
    exact absurd (h1.trans h2.symm) hnm
  · rfl

/-- All tables are written. -/
theorem toSql_all {cenv : CaseEnv} {mode : IfExists} (ws : List (String × Frame)) (db : PanStore)
    (hn : (ws.map (fun p => cenv.lower p.1.toList)).Nodup)
    (h : ∀ p ∈ ws, ∀ k ∈ PyDict.keys db, cenv.lower k.toList = cenv.lower p.1.toList → k = p.1 ∧ mode = .replace) :
    runSteps (toSql cenv mode) ws db = (ws.foldl (fun d p => PyDict.set d p.1 p.2) db, false) := by
  induction ws generalizing db with
  | nil => rfl
  | cons p ws ih =>
    rw [List.map_cons, List.nodup_cons] at hn
    have hstep : toSql cenv mode p db = some (PyDict.set db p.1 p.2) := by
      unfold toSql
      cases hg : PyDict.get? db p.1 with
      | some old =>
        have := (h p (by simp) p.1 (List.mem_map.2 ⟨(p.1, old), PyDict.get?_mem hg, rfl⟩) rfl).2
        simp only [this]
      | none =>
        simp only
        rw [if_neg]
        intro hany
        rw [List.any_eq_true] at hany
        obtain ⟨q, hq, e⟩ := hany
        have hk : q.1 ∈ PyDict.keys db := List.mem_map.2 ⟨q, hq, rfl⟩
        have := (h p (by simp) q.1 hk (of_decide_eq_true e)).1
        rw [this] at hk
        exact (PyDict.get?_eq_none _ _).1 hg hk
    rw [runSteps, hstep]
    simp only [List.foldl_cons]
    apply ih _ hn.2
    intro q hq k hk e
    rcases (PyDict.keys_set_mem _ _ _ _).1 hk with hk | hk
    · subst hk
      exact absurd (List.mem_map.2 ⟨q, hq, e.symm⟩) hn.1
    · exact h q (by simp [hq]) k hk e

/-- The names that are written differ up to case. -/
theorem sql_names_nodup {cenv : CaseEnv} (laws : CaseLaws cenv) {cf : IOConf} {schema : List (String × TabClass)}
    (hsch : PanSchemaOK cenv cf schema) {cs : Bool} (hcs : cs = true → ∀ tc ∈ schema, CaseRoundTrip cenv tc.1.toList) :
    ((schema.map Prod.fst).map (fun t => cenv.lower (sqlNameOut cenv schema cs t).toList)).Nodup := by
  apply nodup_map_of_inj_mem _ (schema_names_nodup hsch)
  intro a ha b hb hab
  obtain ⟨n, hn, e⟩ := sql_spells laws hsch hcs ha
  exact spells_one laws hsch ha hb (k := sqlNameOut cenv schema cs b) ⟨n, hn, hab.symm.trans e⟩
    (sql_spells laws hsch hcs hb)

/-- What is written to SQLite. -/
theorem sql_written {cenv : CaseEnv} (laws : CaseLaws cenv) {cf : IOConf} {schema : List (String × TabClass)}
    (hsch : PanSchemaOK cenv cf schema) {cs : Bool} (mode : IfExists)
    (hcs : cs = true → ∀ tc ∈ schema, CaseRoundTrip cenv tc.1.toList) {db : PanStore} (hd : (PyDict.keys db).Nodup)
    (hold : ∀ tc ∈ schema, ∀ k ∈ PyDict.keys db, SpellsTable cenv tc.1 k →
      k = sqlNameOut cenv schema cs tc.1 ∧ mode = .replace) {ws : List (String × Frame)}
    (hws : ws.map Prod.fst = schema.map Prod.fst) :
    ∃ db', runSteps (toSql cenv mode) (ws.map (fun p => (sqlNameOut cenv schema cs p.1, p.2))) db = (db', false) ∧
      (PyDict.keys db').Nodup ∧ (∀ p ∈ ws, PyDict.get? db' (sqlNameOut cenv schema cs p.1) = some p.2) ∧
      (∀ k, (∀ tc ∈ schema, k ≠ sqlNameOut cenv schema cs tc.1) → PyDict.get? db' k = PyDict.get? db k) ∧
      (∀ k, k ∈ PyDict.keys db' ↔ k ∈ PyDict.keys db ∨ ∃ tc ∈ schema, k = sqlNameOut cenv schema cs tc.1) := by
  have he : (ws.map (fun p => (sqlNameOut cenv schema cs p.1, p.2))).map Prod.fst =
      (schema.map Prod.fst).map (sqlNameOut cenv schema cs) := by
    rw [← hws]; simp [Function.comp_def]
  have hmem : ∀ k, k ∈ (ws.map (fun p => (sqlNameOut cenv schema cs p.1, p.2))).map Prod.fst ↔
      ∃ tc ∈ schema, k = sqlNameOut cenv schema cs tc.1 := by
    intro k
    rw [he, List.map_map, List.mem_map]
    exact ⟨fun ⟨tc, h, e⟩ => ⟨tc, h, e.symm⟩, fun ⟨tc, h, e⟩ => ⟨tc, h, e.symm⟩⟩
  have hlow : ((ws.map (fun p => (sqlNameOut cenv schema cs p.1, p.2))).map (fun p => cenv.lower p.1.toList)).Nodup := by
    have e2 : (ws.map (fun p => (sqlNameOut cenv schema cs p.1, p.2))).map (fun p => cenv.lower p.1.toList) =
        (schema.map Prod.fst).map (fun t => cenv.lower (sqlNameOut cenv schema cs t).toList) := by
      rw [← hws]; simp [Function.comp_def]
    rw [e2]
    exact sql_names_nodup laws hsch hcs
  have hnd : ((ws.map (fun p => (sqlNameOut cenv schema cs p.1, p.2))).map Prod.fst).Nodup := by
    apply nodup_of_map (fun n : String => cenv.lower n.toList)
    rw [List.map_map]
    exact hlow
  obtain ⟨p1, p2, p3, p4⟩ := put_all _ db hnd
  refine ⟨_, toSql_all _ db hlow ?_, p1 hd, ?_, ?_, ?_⟩
  · intro p hp k hk' e
    obtain ⟨tc, htc, e'⟩ := (hmem p.1).1 (List.mem_map.2 ⟨p, hp, rfl⟩)
    obtain ⟨n, hn, e3⟩ := sql_spells laws hsch hcs (List.mem_map.2 ⟨tc, htc, rfl⟩)
    rw [← e'] at e3
    have := hold tc htc k hk' ⟨n, hn, e.trans e3⟩
    rw [← e'] at this
    exact this
  · intro p hp
    exact p2 (sqlNameOut cenv schema cs p.1, p.2) (List.mem_map.2 ⟨p, hp, rfl⟩)
  · intro k hk'
    apply p3
    rw [hmem]
    rintro ⟨tc, htc, e⟩
    exact hk' tc htc e
  · intro k
    rw [p4, hmem]

/-- **C72 (SQLite).**  `write_file` into a database that may have tables, with any `if_exists`: if no table there spells a
table of the schema, except, with `"replace"`, under the very name that is written, then nothing is raised, all other tables
stay as they are, and `create_pan_dat` gives the same object back. -/
theorem pan_sql_round_trip {env : TextEnv} (hT : TextOK env) {cenv : CaseEnv} (laws : CaseLaws cenv) (lower : String → String)
    {cf : IOConf} {store : Store} {schema : List (String × TabClass)} (hsch : PanSchemaOK cenv cf schema)
    {dat : PyDict String Frame} (hs : PanSafe env lower false cf store schema dat)
    {pandas : String → Frame → Option Frame} (hk : PandasKeeps env cf store pandas schema dat)
    {missing : TabClass → Frame → List String} (hm : ListsMissing missing) (fill : Bool) {cs : Bool} (mode : IfExists)
    (hcs : cs = true → ∀ tc ∈ schema, CaseRoundTrip cenv tc.1.toList) {db : PanStore} (hd : (PyDict.keys db).Nodup)
    (hold : ∀ tc ∈ schema, ∀ k ∈ PyDict.keys db, SpellsTable cenv tc.1 k →
      k = sqlNameOut cenv schema cs tc.1 ∧ mode = .replace) :
    ∃ db', sqlPanWrite env cenv cf schema cs mode dat db = (db', false) ∧
      (∀ k, (∀ tc ∈ schema, k ≠ sqlNameOut cenv schema cs tc.1) → PyDict.get? db' k = PyDict.get? db k) ∧
      ∃ dat2, sqlPanRead env cenv lower cf fill missing pandas schema db' = some dat2 ∧ SamePan schema dat dat2 := by
  obtain ⟨ws, hw, hws, hall⟩ := handed_ok hsch hs
  obtain ⟨db', h1, h2, h3, h4, h5⟩ := sql_written laws hsch mode hcs hd hold hws
  refine ⟨db', ?_, h4, ?_⟩
  · unfold sqlPanWrite
    rw [hw]
    exact h1
  · unfold sqlPanRead
    apply file_read_back hT lower false false fill hsch hs hk (by simp) hm
    intro tc htc v w hv hpre
    obtain ⟨v', w', hv', hw', hmem⟩ := hall tc htc
    rw [hv] at hv'
    cases hv'
    rw [hpre] at hw'
    cases hw'
    have hin : tc.1 ∈ schema.map Prod.fst := List.mem_map.2 ⟨tc, htc, rfl⟩
    apply sqlPanFind_one laws (h3 (tc.1, w) hmem) (sql_spells laws hsch hcs hin) _ h2
    intro k hk' hsp
    rcases (h5 k).1 hk' with h | ⟨tc', htc', e⟩
    · exact (hold tc htc k h hsp).1
    · rw [e] at hsp
      have hin' : tc'.1 ∈ schema.map Prod.fst := List.mem_map.2 ⟨tc', htc', rfl⟩
      have := spells_one laws hsch hin hin' hsp (sql_spells laws hsch hcs hin')
      rw [this]
      exact e

theorem toSql_keys {cenv : CaseEnv} {mode : IfExists} {p : String × Frame} {db db' : PanStore}
    (h : toSql cenv mode p db = some db') : ∀ k, k ∈ PyDict.keys db' ↔ k = p.1 ∨ k ∈ PyDict.keys db := by
  unfold toSql at h
  cases hg : PyDict.get? db p.1 with
  | some old =>
    rw [hg] at h
    cases mode with
    | fail => cases h
    | replace => cases h; exact fun k => PyDict.keys_set_mem _ _ _ _
    | append =>
      simp only at h
      cases ha : old.append p.2 with
      | none => rw [ha] at h; cases h
      | some u => rw [ha] at h; cases h; exact fun k => PyDict.keys_set_mem _ _ _ _
  | none =>
    rw [hg] at h
    simp only at h
    split at h
    · cases h
    · cases h; exact fun k => PyDict.keys_set_mem _ _ _ _

theorem runSql_keys {cenv : CaseEnv} {mode : IfExists} {ws : List (String × Frame)} {db db' : PanStore}
    (h : runSteps (toSql cenv mode) ws db = (db', false)) :
    ∀ k, k ∈ PyDict.keys db' ↔ k ∈ ws.map Prod.fst ∨ k ∈ PyDict.keys db := by
  induction ws generalizing db with
  | nil => cases h; simp
  | cons p ws ih =>
    rw [runSteps] at h
    cases hs : toSql cenv mode p db with
    | none => rw [hs] at h; cases h
    | some d =>
      rw [hs] at h
      intro k
      rw [ih h k, toSql_keys hs k, List.map_cons, List.mem_cons]
      constructor
      · rintro (h | h | h)
        · exact .inl (.inr h)
        · exact .inl (.inl h)
        · exact .inr h
      · rintro ((h | h) | h)
        · exact .inr (.inl h)
        · exact .inl h
        · exact .inr (.inr h)

theorem runSql_case {cenv : CaseEnv} {mode : IfExists} {ws : List (String × Frame)} {db : PanStore}
    (hn : (ws.map Prod.fst).Nodup) {p : String × Frame} (hp : p ∈ ws) {k : String} (hk : k ∈ PyDict.keys db)
    (he : cenv.lower k.toList = cenv.lower p.1.toList) (hne : p.1 ∉ PyDict.keys db) :
    (runSteps (toSql cenv mode) ws db).2 = true := by
  induction ws generalizing db with
  | nil => cases hp
  | cons q ws ih =>
    rw [List.map_cons, List.nodup_cons] at hn
    rw [runSteps]
    rcases List.mem_cons.1 hp with e | hp
    · subst e
      have : toSql cenv mode p db = none := by
        unfold toSql
        rw [(PyDict.get?_eq_none _ _).2 hne]
        simp only
        rw [if_pos]
        rw [List.any_eq_true]
        obtain ⟨q, hq, e⟩ := List.mem_map.1 hk
        exact ⟨q, hq, decide_eq_true (by rw [e]; exact he)⟩
      rw [this]
    · cases hs : toSql cenv mode q db with
      | none => rfl
      | some d =>
        simp only
        apply ih hn.2 hp
        · exact (toSql_keys hs k).2 (.inr hk)
        · intro hin
          rcases (toSql_keys hs p.1).1 hin with h | h
          · exact hn.1 (List.mem_map.2 ⟨p, hp, h⟩)
          · exact hne h

theorem sql_ws_names {cenv : CaseEnv} {schema : List (String × TabClass)} {cs : Bool} {ws : List (String × Frame)}
    (hws : ws.map Prod.fst = schema.map Prod.fst) : (ws.map (fun p => (sqlNameOut cenv schema cs p.1, p.2))).map Prod.fst =
      (schema.map Prod.fst).map (sqlNameOut cenv schema cs) := by
  rw [← hws]; simp [Function.comp_def]

/-- **C72 (SQLite, stale spellings).**  A table that spells the name of a table of the schema differently: if the names agree
up to case, writing raises, whatever `if_exists`; otherwise, if writing does not raise, the database can no longer be
read. -/
theorem pan_sql_stale {env : TextEnv} {cenv : CaseEnv} (laws : CaseLaws cenv) (lower : String → String)
    {cf : IOConf} {schema : List (String × TabClass)} (hsch : PanSchemaOK cenv cf schema)
    {dat : PyDict String Frame} {pandas : String → Frame → Option Frame}
    {missing : TabClass → Frame → List String} {fill : Bool} {cs : Bool} (mode : IfExists)
    (hcs : cs = true → ∀ tc ∈ schema, CaseRoundTrip cenv tc.1.toList) {db : PanStore} {tc : String × TabClass} (htc : tc ∈ schema)
    {k : String} (hk : k ∈ PyDict.keys db) :
    (cenv.lower k.toList = cenv.lower (sqlNameOut cenv schema cs tc.1).toList → sqlNameOut cenv schema cs tc.1 ∉ PyDict.keys db →
      (sqlPanWrite env cenv cf schema cs mode dat db).2 = true) ∧
    (SpellsTable cenv tc.1 k → cenv.lower k.toList ≠ cenv.lower (sqlNameOut cenv schema cs tc.1).toList →
      ∀ db', sqlPanWrite env cenv cf schema cs mode dat db = (db', false) →
        sqlPanRead env cenv lower cf fill missing pandas schema db' = none) := by
  have hin : tc.1 ∈ schema.map Prod.fst := List.mem_map.2 ⟨tc, htc, rfl⟩
  cases hp : panHanded env cf schema dat with
  | none => simp [sqlPanWrite, hp]
  | some ws =>
    have hws := handed_names hp
    have hmem : ∃ w, (tc.1, w) ∈ ws := by
      rw [← hws] at hin
      obtain ⟨q, hq, e⟩ := List.mem_map.1 hin
      exact ⟨q.2, by rw [← e]; exact hq⟩
    obtain ⟨w, hmem⟩ := hmem
    have hmem' : (sqlNameOut cenv schema cs tc.1, w) ∈ ws.map (fun p => (sqlNameOut cenv schema cs p.1, p.2)) :=
      List.mem_map.2 ⟨(tc.1, w), hmem, rfl⟩
    constructor
    · intro he hne
      unfold sqlPanWrite
      rw [hp]
      refine runSql_case ?_ hmem' hk he hne
      have := sql_ws_names (cenv := cenv) (cs := cs) hws
      simp only [sqlNameOut] at this
      rw [this]
      have := sql_names_nodup laws hsch hcs
      apply nodup_of_map (fun n : String => cenv.lower n.toList)
      rw [List.map_map]
      exact this
    · intro hsp hne db' hw
      unfold sqlPanWrite at hw
      rw [hp] at hw
      have hkeys := runSql_keys hw
      unfold sqlPanRead panFileRead
      apply mapM_none_of htc
      rw [sqlPanFind_two (a := k) (b := sqlNameOut cenv schema cs tc.1), Option.bind_none]
      · exact (hkeys k).2 (.inr hk)
      · exact (hkeys _).2 (.inl (List.mem_map.2 ⟨_, hmem', rfl⟩))
      · exact hsp
      · exact sql_spells laws hsch hcs hin
      · exact hne

/-- Appending keeps the rows and adds the new ones, by the names of the columns. -/
theorem append_rows {c : TabClass} {old w : Frame} (hw : FrameOK w) (hcols : w.cols = c.fields.map .name)
    (ho : FrameOK old) (hall : ∀ f ∈ c.fields, Label.name f ∈ old.cols) (hi : old.index = []) :
    ∃ u, old.append w = some u ∧ FrameOK u ∧ u.cols = old.cols ∧ u.index = [] ∧
      fieldRows c u = fieldRows c old ++ fieldRows c w := by
  unfold Frame.append
  rw [if_pos]
  · refine ⟨_, rfl, ?_, rfl, hi, ?_⟩
    · refine ⟨ho.cols, ho.index, ?_⟩
      intro r hr
      rcases List.mem_append.1 hr with h | h
      · exact ho.rows r h
      · obtain ⟨x, _, e⟩ := List.mem_map.1 h
        subst e
        simp [hi]
    · unfold fieldRows
      simp only [List.map_append, List.map_map]
      congr 1
      apply List.map_congr_left
      intro r hr
      apply List.map_congr_left
      intro f hf
      have h1 := FrameOK.cell_eq hw hr (.name f)
      rw [if_pos (by rw [hcols]; exact List.mem_map.2 ⟨f, hf, rfl⟩)] at h1
      simp only [Function.comp_apply, colCell]
      have hlt : old.cols.idxOf (Label.name f) < old.cols.length := List.idxOf_lt_length_of_mem (hall f hf)
      rw [List.getElem?_map, List.getElem?_eq_getElem hlt, Option.map_some, Option.getD_some, List.getElem_idxOf]
      rw [h1]
      rfl
  · rw [List.all_eq_true, hcols]
    intro l hl
    obtain ⟨f, hf, e⟩ := List.mem_map.1 hl
    subst e
    simpa using hall f hf

theorem runSql_append {cenv : CaseEnv} (ws : List (String × Frame)) (db : PanStore) (hn : (ws.map Prod.fst).Nodup)
    (h : ∀ p ∈ ws, ∃ old u, PyDict.get? db p.1 = some old ∧ old.append p.2 = some u) :
    ∃ db', runSteps (toSql cenv .append) ws db = (db', false) ∧
      (∀ p ∈ ws, ∀ old, PyDict.get? db p.1 = some old → PyDict.get? db' p.1 = old.append p.2) ∧
      (∀ k, k ∉ ws.map Prod.fst → PyDict.get? db' k = PyDict.get? db k) := by
  induction ws generalizing db with
  | nil => exact ⟨db, rfl, by simp, by simp⟩
  | cons p ws ih =>
    rw [List.map_cons, List.nodup_cons] at hn
    obtain ⟨old, u, ho, hu⟩ := h p (by simp)
    have hother : ∀ q ∈ ws, PyDict.get? (PyDict.set db p.1 u) q.1 = PyDict.get? db q.1 := by
      intro q hq
      rw [PyDict.get?_set, if_neg]
      intro e
      exact hn.1 (List.mem_map.2 ⟨q, hq, e.symm⟩)
    obtain ⟨db', h1, h2, h3⟩ := ih (PyDict.set db p.1 u) hn.2 (by
      intro q hq
      rw [hother q hq]
      exact h q (by simp [hq]))
    refine ⟨db', ?_, ?_, ?_⟩
    · rw [runSteps]
      simp only [toSql, ho, hu, Option.map_some]
      exact h1
    · intro q hq old' ho'
      rcases List.mem_cons.1 hq with e | hq
      · subst e
        rw [h3 _ hn.1, PyDict.get?_set, if_pos rfl]
        rw [ho] at ho'
        cases ho'
        exact hu.symm
      · exact h2 q hq old' (by rw [hother q hq]; exact ho')
    · intro k hk
      rw [List.map_cons, List.mem_cons, not_or] at hk
      rw [h3 k hk.2, PyDict.get?_set, if_neg (Ne.symm hk.1)]

/-- **C72 (SQLite, append).**  `if_exists="append"` on tables that are there under the names that are written: the old rows
stay, in order, and what is handed to pandas follows, field by field. -/
theorem pan_sql_append {env : TextEnv} {cenv : CaseEnv} (laws : CaseLaws cenv) {lower : String → String} {json : Bool}
    {cf : IOConf} {store : Store} {schema : List (String × TabClass)} (hsch : PanSchemaOK cenv cf schema)
    {dat : PyDict String Frame} (hs : PanSafe env lower json cf store schema dat) {cs : Bool}
    (hcs : cs = true → ∀ tc ∈ schema, CaseRoundTrip cenv tc.1.toList) {db : PanStore}
    (hold : ∀ tc ∈ schema, ∃ old, PyDict.get? db (sqlNameOut cenv schema cs tc.1) = some old ∧ FrameOK old ∧ old.index = [] ∧
      ∀ f ∈ tc.2.fields, Label.name f ∈ old.cols) :
    ∃ db', sqlPanWrite env cenv cf schema cs .append dat db = (db', false) ∧
      (∀ k, (∀ tc ∈ schema, k ≠ sqlNameOut cenv schema cs tc.1) → PyDict.get? db' k = PyDict.get? db k) ∧
      ∀ tc ∈ schema, ∃ v w old u, PyDict.get? dat tc.1 = some v ∧ panPreAny env cf tc.1 tc.2 v = some w ∧
        PyDict.get? db (sqlNameOut cenv schema cs tc.1) = some old ∧ PyDict.get? db' (sqlNameOut cenv schema cs tc.1) = some u ∧
        u.cols = old.cols ∧ fieldRows tc.2 u = fieldRows tc.2 old ++ fieldRows tc.2 w := by
  obtain ⟨ws, hw, hws, hall⟩ := handed_ok hsch hs
  have he := sql_ws_names (cenv := cenv) (cs := cs) hws
  have hnd : ((ws.map (fun p => (sqlNameOut cenv schema cs p.1, p.2))).map Prod.fst).Nodup := by
    rw [he]
    apply nodup_of_map (fun n : String => cenv.lower n.toList)
    rw [List.map_map]
    exact sql_names_nodup laws hsch hcs
  have happ : ∀ tc ∈ schema, ∃ v w old u, PyDict.get? dat tc.1 = some v ∧ panPreAny env cf tc.1 tc.2 v = some w ∧ (tc.1, w) ∈ ws ∧
      PyDict.get? db (sqlNameOut cenv schema cs tc.1) = some old ∧ old.append w = some u ∧
      u.cols = old.cols ∧ fieldRows tc.2 u = fieldRows tc.2 old ++ fieldRows tc.2 w := by
    intro tc htc
    obtain ⟨v, w, hv, hpre, hmem⟩ := hall tc htc
    obtain ⟨old, ho, ho1, ho2, ho3⟩ := hold tc htc
    obtain ⟨v', hv', hok, hvc, hsafe, _⟩ := hs tc htc
    rw [hv] at hv'
    cases hv'
    have hpar1 : tc.1 = "parameters" → cf.params ≠ [] → tc.2.dfs.length = 1 := by
      intro a b
      obtain ⟨_, _, _, e⟩ := (bias_of_safe hsafe).2.1 a b
      rw [e]; rfl
    obtain ⟨p1, p2, _⟩ := pre_any_rows hsch.flag store (hsch.fields tc htc).1 hpar1 hok hvc hpre
    obtain ⟨u, hu, _, hu2, _, hu3⟩ := append_rows p1 p2 ho1 ho3 ho2
    exact ⟨v, w, old, u, hv, hpre, hmem, ho, hu, hu2, hu3⟩
  have huniq : ∀ tc ∈ schema, ∀ p ∈ ws, p.1 = tc.1 → ∀ w, (tc.1, w) ∈ ws → p.2 = w := by
    intro tc htc p hp e w hmem
    have hn : (ws.map Prod.fst).Nodup := by rw [hws]; exact schema_names_nodup hsch
    have := inj_of_nodup_map Prod.fst hn hp hmem e
    rw [this]
  have hex : ∀ p ∈ ws.map (fun p => (sqlNameOut cenv schema cs p.1, p.2)),
      ∃ old u, PyDict.get? db p.1 = some old ∧ old.append p.2 = some u := by
    intro p hp
    obtain ⟨q, hq, e⟩ := List.mem_map.1 hp
    have hin : q.1 ∈ schema.map Prod.fst := by rw [← hws]; exact List.mem_map.2 ⟨q, hq, rfl⟩
    obtain ⟨tc, htc, e'⟩ := List.mem_map.1 hin
    obtain ⟨v, w, old, u, _, _, hmem, ho, hu, _⟩ := happ tc htc
    have := huniq tc htc q hq e'.symm w hmem
    subst e
    simp only
    rw [← e', this]
    exact ⟨old, u, ho, hu⟩
  obtain ⟨db', h1, h2, h3⟩ := runSql_append (cenv := cenv) _ db hnd hex
  refine ⟨db', ?_, ?_, ?_⟩
  · unfold sqlPanWrite
    rw [hw]
    exact h1
  · intro k hk'
    apply h3
    rw [he, List.map_map, List.mem_map]
    rintro ⟨tc, htc, e⟩
    exact hk' tc htc e.symm
  · intro tc htc
    obtain ⟨v, w, old, u, a1, a2, a3, a4, a5, a6, a7⟩ := happ tc htc
    refine ⟨v, w, old, u, a1, a2, a4, ?_, a6, a7⟩
    rw [← a5]
    exact h2 (sqlNameOut cenv schema cs tc.1, w) (List.mem_map.2 ⟨(tc.1, w), a3, rfl⟩) old a4

/-! ### json -/

theorem jsonPanFind_one {cenv : CaseEnv} {file : PyDict String JPan} (hn : (PyDict.keys file).Nodup) {t n : String} {j : JPan}
    (hj : PyDict.get? file n = some j) (hp : unblank (cenv.lower n.toList) = cenv.lower t.toList)
    (hu : ∀ k ∈ PyDict.keys file, unblank (cenv.lower k.toList) = cenv.lower t.toList → k = n) :
    jsonPanFind cenv file t = some (some j) := by
  have hm : n ∈ PyDict.keys file := List.mem_map.2 ⟨(n, j), PyDict.get?_mem hj, rfl⟩
  have := (filter_eq_singleton (PyDict.keys file) hn
    (fun n => decide (unblank (cenv.lower n.toList) = cenv.lower t.toList)) n).mpr
    ⟨hm, decide_eq_true hp, fun k hk h => hu k hk (of_decide_eq_true h)⟩
  simp only [jsonPanFind, this, hj]

theorem json_name_one {cenv : CaseEnv} (laws : CaseLaws cenv) {cf : IOConf} {schema : List (String × TabClass)}
    (hsch : PanSchemaOK cenv cf schema) {cs : Bool} (hcs : cs = true → ∀ tc ∈ schema, CaseRoundTrip cenv tc.1.toList)
    {t t' : String} (ht : t ∈ schema.map Prod.fst) (ht' : t' ∈ schema.map Prod.fst)
    (e : unblank (cenv.lower (sqlNameOut cenv schema cs t).toList) = cenv.lower t'.toList) : t = t' := by
  apply schema_lower_inj hsch ht ht'
  rw [← e]
  unfold sqlNameOut
  rw [String.toList_ofList, norm_out laws hsch hcs ht]

/-- **C72 (json, pandas format).**  `write_file_pd` gives one key for each table, and `create_pan_dat` gives the same object
back. -/
theorem pan_json_pd_round_trip {env : TextEnv} (hT : TextOK env) {cenv : CaseEnv} (laws : CaseLaws cenv) (lower : String → String)
    {cf : IOConf} {store : Store} {schema : List (String × TabClass)} (hsch : PanSchemaOK cenv cf schema)
    (hne : schema ≠ [])
    {dat : PyDict String Frame} (hs : PanSafe env lower true cf store schema dat)
    {pandas : String → Frame → Option Frame} (hk : PandasKeeps env cf store pandas schema dat)
    {missing : TabClass → Frame → List String} (hm : ListsMissing missing) (fill : Bool) {cs : Bool}
    (hcs : cs = true → ∀ tc ∈ schema, CaseRoundTrip cenv tc.1.toList) :
    ∃ file, jsonPanWritePd env cenv cf schema cs dat = some file ∧
      ∃ dat2, jsonPanRead env cenv lower cf fill missing pandas schema file = some dat2 ∧ SamePan schema dat dat2 := by
  obtain ⟨ws, hw, hws, hall⟩ := handed_ok hsch hs
  have he : (ws.map (fun p => (sqlNameOut cenv schema cs p.1, JPan.obj p.2))).map Prod.fst =
      (schema.map Prod.fst).map (sqlNameOut cenv schema cs) := by
    rw [← hws]; simp [Function.comp_def]
  have hnd : ((ws.map (fun p => (sqlNameOut cenv schema cs p.1, JPan.obj p.2))).map Prod.fst).Nodup := by
    rw [he]
    apply nodup_of_map (fun n : String => cenv.lower n.toList)
    rw [List.map_map]
    exact sql_names_nodup laws hsch hcs
  obtain ⟨p1, p2, p3, p4⟩ := put_all _ ([] : PyDict String JPan) hnd
  have hvals : ∀ q ∈ (ws.map (fun p => (sqlNameOut cenv schema cs p.1, JPan.obj p.2))).foldl
      (fun d p => PyDict.set d p.1 p.2) [], ∃ v, q.2 = JPan.obj v := by
    intro q hq
    have hget := PyDict.get?_of_mem (k := q.1) (v := q.2) (p1 (by simp [PyDict.keys])) hq
    rcases (p4 q.1).1 (List.mem_map.2 ⟨q, hq, rfl⟩) with h | h
    · simp [PyDict.keys] at h
    · obtain ⟨r, hr, e⟩ := List.mem_map.1 h
      have := p2 r hr
      rw [e, hget] at this
      obtain ⟨x, _, e2⟩ := List.mem_map.1 hr
      rw [Option.some.inj this, ← e2]
      exact ⟨_, rfl⟩
  refine ⟨(ws.map (fun p => (sqlNameOut cenv schema cs p.1, JPan.obj p.2))).foldl (fun d p => PyDict.set d p.1 p.2) [], ?_, ?_⟩
  · unfold jsonPanWritePd
    rw [hw, Option.map_some, List.foldl_map]
    rfl
  · unfold jsonPanRead
    rw [if_neg, if_pos]
    · apply file_read_back hT lower true false fill hsch hs hk (by simp) hm
      intro tc htc v w hv hpre
      obtain ⟨v', w', hv', hw', hmem⟩ := hall tc htc
      rw [hv] at hv'
      cases hv'
      rw [hpre] at hw'
      cases hw'
      have hin : tc.1 ∈ schema.map Prod.fst := List.mem_map.2 ⟨tc, htc, rfl⟩
      rw [jsonPanFind_one (n := sqlNameOut cenv schema cs tc.1) (j := .obj w) (p1 (by simp [PyDict.keys])),
        Option.map_some, Option.bind_some]
      · exact p2 (sqlNameOut cenv schema cs tc.1, JPan.obj w) (List.mem_map.2 ⟨(tc.1, w), hmem, rfl⟩)
      · unfold sqlNameOut
        rw [String.toList_ofList, norm_out laws hsch hcs hin]
      · intro k hk' hsp
        rcases (p4 k).1 hk' with h | h
        · simp [PyDict.keys] at h
        · rw [he] at h
          obtain ⟨t', ht', e⟩ := List.mem_map.1 h
          rw [← e] at hsp
          rw [← json_name_one laws hsch hcs ht' hin hsp]
          exact e.symm
    · rw [List.all_eq_true]
      intro q hq
      obtain ⟨v, e⟩ := hvals q hq
      rw [e]; rfl
    · intro hall'
      rw [List.all_eq_true] at hall'
      cases schema with
      | nil => exact hne rfl
      | cons tc rest =>
        obtain ⟨v, w, _, _, hmem⟩ := hall tc (by simp)
        have hg := p2 (_, JPan.obj w) (List.mem_map.2 ⟨(tc.1, w), hmem, rfl⟩)
        have := hall' _ (PyDict.get?_mem hg)
        cases this

theorem pairwise2_self {A : Type} {R : A → A → Prop} (h : ∀ a, R a a) (l : List A) : Pairwise2 R l l := by
  induction l with
  | nil => exact .nil
  | cons a l ih => exact .cons (h a) ih

theorem range_self (r : List Cell) {n : Nat} (h : r.length = n) : (List.range n).map (fun i => (r[i]?).getD Cell.none) = r := by
  subst h
  apply List.ext_getElem
  · simp
  · intro i h1 h2
    simp [List.getElem?_eq_getElem h2]

/-- **C72 (json, list of lists).**  `write_file` and `create_pan_dat` give the same object back. -/
theorem pan_json_lol_round_trip {env : TextEnv} (hT : TextOK env) {cenv : CaseEnv} (laws : CaseLaws cenv) (lower : String → String)
    {cf : IOConf} {schema : List (String × TabClass)} (hsch : PanSchemaOK cenv cf schema)
    {dat : PyDict String Frame} (hs : PanSafe env lower true cf (fun _ _ x => some (jsonPanCell env x)) schema dat)
    (pandas : String → Frame → Option Frame) (missing : TabClass → Frame → List String) (fill : Bool) :
    ∃ file, jsonPanWrite env cf schema dat = some file ∧ PyDict.keys file = schema.map Prod.fst ∧
      ∃ dat2, jsonPanRead env cenv lower cf fill missing pandas schema file = some dat2 ∧ SamePan schema dat dat2 := by
  obtain ⟨ws, hw, hws, hall⟩ := handed_ok hsch hs
  have hn := schema_names_nodup hsch
  have hgw : ∀ tc ∈ schema, ∃ v w, PyDict.get? dat tc.1 = some v ∧ panPreAny env cf tc.1 tc.2 v = some w ∧
      PyDict.get? ws tc.1 = some w := by
    intro tc htc
    obtain ⟨v, w, h1, h2, h3⟩ := hall tc htc
    exact ⟨v, w, h1, h2, PyDict.get?_of_mem (by unfold PyDict.keys; rw [hws]; exact hn) h3⟩
  let rowsOf : String × TabClass → List (List Cell) := fun tc =>
    match PyDict.get? ws tc.1 with
    | some w => (fieldRows tc.2 w).map (List.map (jsonPanCell env))
    | none => []
  have hfile : jsonPanWrite env cf schema dat = some (schema.map (fun tc => (tc.1, JPan.lol (rowsOf tc)))) := by
    unfold jsonPanWrite
    rw [hw, Option.bind_some]
    apply mapM_eq_map
    intro tc htc
    obtain ⟨v, w, h1, h2, h3⟩ := hgw tc htc
    obtain ⟨v', hv', hok, hvc, hsafe, _⟩ := hs tc htc
    rw [h1] at hv'
    cases hv'
    have hpar1 : tc.1 = "parameters" → cf.params ≠ [] → tc.2.dfs.length = 1 := by
      intro a b
      obtain ⟨_, _, _, e⟩ := (bias_of_safe hsafe).2.1 a b
      rw [e]; rfl
    obtain ⟨p1, p2, _⟩ := pre_any_rows hsch.flag (fun _ _ x => some (jsonPanCell env x)) (hsch.fields tc htc).1 hpar1 hok hvc h2
    rw [h3, Option.bind_some]
    rw [mapM_eq_map (k := fun r => tc.2.fields.map (fun f => jsonPanCell env (colCell w r (.name f))))]
    · simp only [Option.map_some, rowsOf, h3, fieldRows, List.map_map, Function.comp_def]
    · intro r hr
      apply mapM_eq_map
      intro f hf
      rw [FrameOK.cell_eq p1 hr, if_pos (by rw [p2]; exact List.mem_map.2 ⟨f, hf, rfl⟩), Option.map_some]
  have hkeys : PyDict.keys (schema.map (fun tc => (tc.1, JPan.lol (rowsOf tc)))) = schema.map Prod.fst := by
    simp [PyDict.keys, Function.comp_def]
  refine ⟨_, hfile, hkeys, ?_⟩
  have htable : ∀ tc ∈ schema, ∃ v rs, PyDict.get? dat tc.1 = some v ∧ Pairwise2 (Pairwise2 SameOrNull) (fieldRows tc.2 v) rs ∧
      (jsonPanFind cenv (schema.map (fun tc => (tc.1, JPan.lol (rowsOf tc)))) tc.1).bind (fun o =>
        (jsonLolTable env lower cf tc.1 tc.2 o).map (fun w => (tc.1, w))) = some (tc.1, plainFrame tc.2.fields rs) := by
    intro tc htc
    obtain ⟨v, w, h1, h2, h3⟩ := hgw tc htc
    obtain ⟨v', hv', hok, hvc, hsafe, hj⟩ := hs tc htc
    rw [h1] at hv'
    cases hv'
    obtain ⟨f1, f2, f3, f4⟩ := hsch.fields tc htc
    have hin : tc.1 ∈ schema.map Prod.fst := List.mem_map.2 ⟨tc, htc, rfl⟩
    have hb : ∀ x ∈ schema.map Prod.fst, unblank (cenv.lower x.toList) = cenv.lower x.toList := by
      intro x hx
      obtain ⟨tc, htc, e⟩ := List.mem_map.1 hx
      subst e
      have hb := ((goodTableNames_iff _ _).mp hsch.names).2.1 tc.1.toList (List.mem_map.2 ⟨tc, htc, rfl⟩)
      exact unblank_of_no_blank _ (lower_no_blank laws _ hb)
    have hrows : rowsOf tc = (fieldRows tc.2 w).map (List.map (jsonPanCell env)) := by simp only [rowsOf, h3]
    have hlen : ∀ r ∈ rowsOf tc, r.length = tc.2.fields.length := by
      rw [hrows]
      intro r hr
      obtain ⟨x, hx, e⟩ := List.mem_map.1 hr
      subst e
      rw [List.length_map]
      exact fieldRows_length _ _ x hx
    have hstored : StoredRows ((fun _ _ x => some (jsonPanCell env x)) tc.1) tc.2.fields (fieldRows tc.2 w) (rowsOf tc) := by
      apply (storedRows_iff _ _ _ _ (fieldRows_length tc.2 w)).mp
      rw [hrows]
      apply mapM_eq_map
      intro r hr
      obtain ⟨x, _, e⟩ := List.mem_map.1 hr
      subst e
      rw [mapCells_fields]
      rw [mapM_eq_map (k := fun f => jsonPanCell env (colCell w x (.name f))) (fun f _ => rfl), List.map_map]
      rfl
    obtain ⟨rs, q1, q2⟩ := kept_back hT lower true hsch.flag f1 f2 hok hvc hsafe hj h2
      ⟨rowsOf tc, hstored, pairwise2_self (pairwise2_self (fun a => .inl rfl)) _⟩
    refine ⟨v, rs, h1, q2, ?_⟩
    rw [jsonPanFind_one (n := tc.1) (j := .lol (rowsOf tc)), Option.bind_some]
    · have hl := (pan_read_lol tc.2 f1 f2 f3 f4 (rowsOf tc)).2 (by
        cases hr : rowsOf tc with
        | nil => exact .inl rfl
        | cons a l => exact .inr ⟨a, by simp, by rw [hlen a (by rw [hr]; simp)]; exact Nat.le_refl _⟩)
      have e : (rowsOf tc).map (fun r => (List.range tc.2.fields.length).map (fun i => (r[i]?).getD Cell.none)) = rowsOf tc := by
        apply map_eq_self
        intro r hr
        exact range_self r (hlen r hr)
      rw [e] at hl
      simp only [jsonLolTable, hl, Option.bind_some, q1, Option.map_some]
    · rw [hkeys]; exact hn
    · apply PyDict.get?_of_mem
      · rw [hkeys]; exact hn
      · exact List.mem_map.2 ⟨tc, htc, rfl⟩
    · exact hb _ hin
    · rw [hkeys]
      intro k hk e
      rw [hb k hk] at e
      exact schema_lower_inj hsch hk hin e
  obtain ⟨dat2, e, h⟩ := assemble hn htable
  refine ⟨dat2, ?_, h⟩
  unfold jsonPanRead
  rw [if_pos]
  · exact e
  · rw [List.all_eq_true]
    intro q hq
    obtain ⟨tc, _, e⟩ := List.mem_map.1 hq
    subst e
    rfl

/-- **C72 (json, mixed).**  A json object that has a list of lists and something else, or neither a list nor an object, is
refused. -/
theorem pan_json_mixed_refused (env : TextEnv) (cenv : CaseEnv) (lower : String → String) (cf : IOConf) (fill : Bool)
    (missing : TabClass → Frame → List String) (pandas : String → Frame → Option Frame) (schema : List (String × TabClass))
    (file : PyDict String JPan) (k k' : String) (j j' : JPan) (hk : (k, j) ∈ file) (hk' : (k', j') ∈ file)
    (h : (∃ rows, j = .lol rows) ∧ (∀ rows, j' ≠ .lol rows) ∨ j = .other) :
    jsonPanRead env cenv lower cf fill missing pandas schema file = none := by
  unfold jsonPanRead
  rcases h with ⟨⟨rows, e⟩, h⟩ | e
  · subst e
    rw [if_neg, if_neg]
    · intro hall
      rw [List.all_eq_true] at hall
      have := hall _ hk
      cases this
    · intro hall
      rw [List.all_eq_true] at hall
      have := hall _ hk'
      cases j' with
      | lol r => exact h r rfl
      | obj v => cases this
      | other => cases this
  · subst e
    rw [if_neg, if_neg]
    · intro hall
      rw [List.all_eq_true] at hall
      have := hall _ hk
      cases this
    · intro hall
      rw [List.all_eq_true] at hall
      have := hall _ hk
      cases this

theorem emptyFrame_plain (c : TabClass) : emptyFrame c = plainFrame c.fields [] := rfl

theorem missing_table {env : TextEnv} {lower : String → String} {cf : IOConf} {json prune fill : Bool}
    {missing : TabClass → Frame → List String} {pandas : String → Frame → Option Frame} {t : String} {c : TabClass}
    (hn : c.fields.Nodup) (hne : c.fields ≠ [])
    (hpar : t = "parameters" → cf.params ≠ [] → ∃ k f, c.pks = [k] ∧ c.dfs = [f])
    (hb : t ≠ "parameters" → ∀ f ∈ c.fields, ∃ b, infBias env cf t f = some b) :
    panFileTable env lower cf json prune fill missing pandas t c none = some (plainFrame c.fields []) := by
  unfold panFileTable
  simp only [Option.bind_some, emptyFrame_plain]
  rw [post_any_rows hn hne hpar hb [] (by simp), List.map_nil, Option.bind_some]
  split
  · apply prune_same
    intro r hr
    simp [plainFrame] at hr
  · rfl

/-- **C72 (missing tables).**  A table that no file, sheet or table spells is read as a table without rows, with all its
fields: the readers of csv directories, Excel and SQLite files do not raise. -/
theorem pan_file_missing {env : TextEnv} {cenv : CaseEnv} {lower : String → String} {cf : IOConf} {prune fill : Bool}
    {missing : TabClass → Frame → List String} {pandas : String → Frame → Option Frame} {t : String} {c : TabClass}
    (hn : c.fields.Nodup) (hne : c.fields ≠ [])
    (hpar : t = "parameters" → cf.params ≠ [] → ∃ k f, c.pks = [k] ∧ c.dfs = [f])
    (hb : t ≠ "parameters" → ∀ f ∈ c.fields, ∃ b, infBias env cf t f = some b)
    {dir : PanStore} :
    ((∀ f ∈ PyDict.keys dir, ¬ SpellsCsv cenv t f) →
      csvPanRead env cenv lower cf fill missing pandas [(t, c)] dir = some [(t, plainFrame c.fields [])]) ∧
    ((∀ k ∈ PyDict.keys dir, (unblank (cenv.lower k.toList)).take longestSheet ≠ (cenv.lower t.toList).take longestSheet) →
      xlsPanRead env cenv lower cf prune fill missing pandas [(t, c)] dir = some [(t, plainFrame c.fields [])]) ∧
    ((∀ k ∈ PyDict.keys dir, ¬ SpellsTable cenv t k) →
      sqlPanRead env cenv lower cf fill missing pandas [(t, c)] dir = some [(t, plainFrame c.fields [])]) := by
  have hno : ∀ p : List Char → Bool, (∀ k ∈ PyDict.keys dir, p k.toList = false) → onlyName dir p = some none := by
    intro p h
    have : (PyDict.keys dir).filter (fun n => p n.toList) = [] := by
      rw [List.eq_nil_iff_forall_not_mem]
      intro k hk
      rw [List.mem_filter] at hk
      rw [h k hk.1] at hk
      cases hk.2
    simp only [onlyName, this]
  refine ⟨?_, ?_, ?_⟩
  · intro h
    have hf : csvPanFind cenv dir t = some none := hno _ (fun k hk => decide_eq_false (h k hk))
    unfold csvPanRead panFileRead
    simp [hf, missing_table (env := env) (lower := lower) hn hne hpar hb]
  · intro h
    have hf : xlsPanFind cenv dir t = some none := hno _ (fun k hk => decide_eq_false (fun e => h k hk e.symm))
    unfold xlsPanRead panFileRead
    rw [if_pos (by simp [sheetNamesDiffer])]
    simp [hf, missing_table (env := env) (lower := lower) hn hne hpar hb]
  · intro h
    have hf : sqlPanFind cenv dir t = some none := by
      have : (underscoreReplacements t.toList).filter (fun n =>
          dir.any (fun p => decide (cenv.lower p.1.toList = cenv.lower n))) = [] := by
        rw [List.eq_nil_iff_forall_not_mem]
        intro n hn
        rw [List.mem_filter, mem_underscoreReplacements, List.any_eq_true] at hn
        obtain ⟨h1, q, hq, e⟩ := hn
        exact h q.1 (List.mem_map.2 ⟨q, hq, rfl⟩) ⟨n, h1, of_decide_eq_true e⟩
      simp only [sqlPanFind, this]
    unfold sqlPanRead panFileRead
    simp [hf, missing_table (env := env) (lower := lower) hn hne hpar hb]

/-! ### Examples -/

/-- A library that has one null. -/
def nanPandas : String → Frame → Option Frame := fun _ w =>
  some ⟨[], w.cols, w.rows.map (fun r => ([], r.2.map (fun x => if x = .none then .nan else x)))⟩

theorem nanPandas_kept {t : String} {c : TabClass} (hn : c.fields.Nodup) {w : Frame} (hw : FrameOK w)
    (hc : w.cols = c.fields.map .name) : ∃ u, nanPandas t w = some u ∧ PanKept oneNullStore t c w u := by
  have hok : FrameOK ⟨[], w.cols, w.rows.map (fun r => (([] : List Cell), r.2.map (fun x => if x = .none then .nan else x)))⟩ := by
    refine ⟨hw.cols, by simp, ?_⟩
    intro r hr
    obtain ⟨x, hx, e⟩ := List.mem_map.1 hr
    subst e
    simp [(hw.rows x hx).2]
  refine ⟨_, rfl, hok, rfl, ?_, ?_⟩
  · intro f hf
    rw [hc]
    exact List.mem_map.2 ⟨f, hf, rfl⟩
  · refine ⟨(fieldRows c w).map (List.map (fun x => if x = .nan then .none else x)), ?_, ?_⟩
    · apply (storedRows_iff _ _ _ _ (fieldRows_length c w)).mp
      apply mapM_eq_map
      intro r hr
      obtain ⟨x, _, e⟩ := List.mem_map.1 hr
      subst e
      rw [mapCells_fields, List.map_map]
      apply mapM_eq_map
      intro f _
      rfl
    · rw [fieldRows_self hn hok hc, fieldRows_self hn hw hc]
      simp only [List.map_map]
      apply pairwise2_maps
      apply pairwise2_self
      intro r
      apply pairwise2_maps
      apply pairwise2_self
      intro x
      by_cases h1 : x = .nan
      · subst h1; exact .inr ⟨.inl rfl, .inr rfl⟩
      · by_cases h2 : x = .none
        · subst h2; exact .inr ⟨.inl rfl, .inr rfl⟩
        · rw [if_neg h1, if_neg h2]; exact .inl rfl

theorem panFilesEx_schema : PanSchemaOK asciiEnv pgExConf pgExSchema :=
  ⟨by decide +kernel, by decide +kernel, by intro q e; cases e; decide +kernel⟩

theorem panFilesEx_safe {store : Store} (hst : KeepsText store) (json : Bool) :
    PanSafe unaryText id json pgExConf store pgExSchema pgPanEx := by
  intro tc htc
  obtain ⟨v, h1, h2, h3, h4⟩ := pgPanEx_ok hst tc htc
  refine ⟨v, h1, h2, h3, h4, fun _ => ⟨?_, ?_⟩⟩
  · intro _ f _ td h
    simp [typeOf, pgExConf, PyDict.get?] at h
  · intro ht
    simp only [pgExSchema, List.mem_cons, List.not_mem_nil, or_false] at htc
    rcases htc with e | e <;> subst e <;> exact absurd ht (by decide +kernel)

theorem panFilesEx_keeps : PandasKeeps unaryText pgExConf oneNullStore nanPandas pgExSchema pgPanEx := by
  intro tc htc v w hv hw
  obtain ⟨v', hv', hok, hvc, hsafe, _⟩ := panFilesEx_safe oneNullStore_text false tc htc
  rw [hv] at hv'
  cases hv'
  have hpar1 : tc.1 = "parameters" → pgExConf.params ≠ [] → tc.2.dfs.length = 1 := fun _ h => absurd rfl h
  obtain ⟨p1, p2, _⟩ := pre_any_rows panFilesEx_schema.flag oneNullStore (panFilesEx_schema.fields tc htc).1 hpar1 hok hvc hw
  exact nanPandas_kept (panFilesEx_schema.fields tc htc).1 p1 p2

/-- The missing fields in schema order. -/
def plainMissing (c : TabClass) (v : Frame) : List String := c.fields.filter (fun f => decide (Label.name f ∉ v.cols))

theorem plainMissing_lists : ListsMissing plainMissing := by
  intro c v hn
  refine ⟨List.Pairwise.filter _ hn, ?_⟩
  intro f
  simp [plainMissing]

/-- A directory with a file of another table, and an old file of `cats`. -/
def panFilesExDir : PanStore := [("Notes.csv", ⟨[], [.name "x"], []⟩), ("Cats.csv", ⟨[], [.name "name"], [([], [.str "old"])]⟩)]

example : ∃ dir', csvPanWrite unaryText asciiEnv pgExConf pgExSchema true pgPanEx panFilesExDir = some dir' ∧
    PyDict.get? dir' "Notes.csv" = some ⟨[], [.name "x"], []⟩ ∧
    ∃ dat2, csvPanRead unaryText asciiEnv id pgExConf false plainMissing nanPandas pgExSchema dir' = some dat2 ∧
      SamePan pgExSchema pgPanEx dat2 := by
  obtain ⟨dir', h1, h2, h3⟩ := pan_csv_round_trip unaryText_ok asciiLaws id panFilesEx_schema
    (panFilesEx_safe oneNullStore_text false) panFilesEx_keeps plainMissing_lists false (cs := true)
    (fun _ tc _ => asciiRoundTrip _) (dir := panFilesExDir) (by decide +kernel) (by
      intro tc htc
      unfold SpellsCsv
      revert tc
      decide +kernel)
  exact ⟨dir', h1, h2 "Notes.csv" (by decide +kernel), h3⟩

/-- An old file `cats.csv` beside the new `Cats.csv`. -/
example (pandas : String → Frame → Option Frame) (missing : TabClass → Frame → List String) (v : Frame) : ∃ dir',
    csvPanWrite unaryText asciiEnv pgExConf pgExSchema true pgPanEx [("cats.csv", v)] = some dir' ∧
    csvPanRead unaryText asciiEnv id pgExConf false missing pandas pgExSchema dir' = none := by
  cases h : csvPanWrite unaryText asciiEnv pgExConf pgExSchema true pgPanEx [("cats.csv", v)] with
  | none =>
    obtain ⟨ws, hw, _⟩ := handed_ok panFilesEx_schema (panFilesEx_safe (json := false) oneNullStore_text)
    simp [csvPanWrite, hw] at h
  | some dir' =>
    exact ⟨dir', rfl, pan_csv_stale asciiLaws id panFilesEx_schema (cs := true) (fun _ tc _ => asciiRoundTrip _) h
      (tc := ("cats", ⟨["name"], [], []⟩)) (by simp [pgExSchema]) (f := "cats.csv") (by simp [PyDict.keys])
      (by unfold SpellsCsv; decide +kernel) (by decide +kernel)⟩

example (prune : Bool) : ∃ book, xlsPanWrite unaryText asciiEnv pgExConf pgExSchema true pgPanEx = some book ∧
    ∃ dat2, xlsPanRead unaryText asciiEnv id pgExConf prune false plainMissing nanPandas pgExSchema book = some dat2 ∧
      SamePan pgExSchema pgPanEx dat2 :=
  pan_xls_round_trip unaryText_ok asciiLaws asciiSimple id panFilesEx_schema (by decide +kernel)
    (panFilesEx_safe oneNullStore_text false) panFilesEx_keeps plainMissing_lists prune false (by
      intro _ tc htc v hv
      simp only [pgExSchema, List.mem_cons, List.not_mem_nil, or_false] at htc
      rcases htc with e | e <;> subst e <;> (cases hv; intro r hr)
      · have : (some r) = some [Cell.str "pen", Cell.nan] := hr.symm.trans (by decide +kernel)
        cases this
        exact ⟨.str "pen", by simp, by rintro (h | h) <;> cases h⟩
      · have : (some r) = some [Cell.str "tool"] := hr.symm.trans (by decide +kernel)
        cases this
        exact ⟨.str "tool", by simp, by rintro (h | h) <;> cases h⟩)
    (fun _ tc _ => asciiRoundTrip _)

/-- A database with another table, and an old table of `cats`. -/
def panFilesExDb : PanStore := [("notes", ⟨[], [.name "x"], []⟩), ("Cats", ⟨[], [.name "name"], [([], [.str "old"])]⟩)]

theorem panFilesEx_old : ∀ tc ∈ pgExSchema, ∀ k ∈ PyDict.keys panFilesExDb, SpellsTable asciiEnv tc.1 k →
    k = sqlNameOut asciiEnv pgExSchema true tc.1 ∧ IfExists.replace = .replace := by
  intro tc htc k hk hsp
  refine ⟨?_, rfl⟩
  obtain ⟨n, hn, e⟩ := hsp
  have hv := variant_norm asciiLaws hn
  rw [← e] at hv
  clear e hn
  revert hv
  revert k
  revert tc
  decide +kernel

example : ∃ db', sqlPanWrite unaryText asciiEnv pgExConf pgExSchema true .replace pgPanEx panFilesExDb = (db', false) ∧
    PyDict.get? db' "notes" = some ⟨[], [.name "x"], []⟩ ∧
    ∃ dat2, sqlPanRead unaryText asciiEnv id pgExConf false plainMissing nanPandas pgExSchema db' = some dat2 ∧
      SamePan pgExSchema pgPanEx dat2 := by
  obtain ⟨db', h1, h2, h3⟩ := pan_sql_round_trip unaryText_ok asciiLaws id panFilesEx_schema
    (panFilesEx_safe oneNullStore_text false) panFilesEx_keeps plainMissing_lists false (cs := true) .replace
    (fun _ tc _ => asciiRoundTrip _) (db := panFilesExDb) (by decide +kernel) panFilesEx_old
  exact ⟨db', h1, h2 "notes" (by decide +kernel), h3⟩

/-- The old table `Cats` and the new table `cats`. -/
example (mode : IfExists) : (sqlPanWrite unaryText asciiEnv pgExConf pgExSchema false mode pgPanEx panFilesExDb).2 = true :=
  (pan_sql_stale (pandas := nanPandas) (missing := plainMissing) (fill := false) asciiLaws id panFilesEx_schema mode
    (by intro h; cases h)
    (tc := ("cats", ⟨["name"], [], []⟩)) (by simp [pgExSchema]) (k := "Cats") (by decide +kernel)).1 (by decide +kernel)
    (by decide +kernel)

/-- A table whose old name has a blank. -/
example : ∃ db', sqlPanWrite unaryText asciiEnv pgExConf [("my_cats", ⟨["name"], [], []⟩)] false .replace
      [("my_cats", ⟨[], [.name "name"], []⟩)] [("My cats", ⟨[], [.name "name"], []⟩)] = (db', false) ∧
    sqlPanRead unaryText asciiEnv id pgExConf false plainMissing nanPandas [("my_cats", ⟨["name"], [], []⟩)] db' = none := by
  refine ⟨[("My cats", ⟨[], [.name "name"], []⟩), ("my_cats", ⟨[], [.name "name"], []⟩)], by decide +kernel, ?_⟩
  refine (pan_sql_stale (env := unaryText) (cenv := asciiEnv) (cf := pgExConf) (schema := [("my_cats", ⟨["name"], [], []⟩)])
    (dat := [("my_cats", ⟨[], [.name "name"], []⟩)]) (cs := false)
    asciiLaws id ⟨by decide +kernel, by decide +kernel, by intro q e; cases e; decide +kernel⟩ .replace
    (by intro h; cases h)
    (tc := ("my_cats", ⟨["name"], [], []⟩)) List.mem_cons_self (db := [("My cats", ⟨[], [.name "name"], []⟩)]) (k := "My cats")
    List.mem_cons_self).2 ?_ (by decide +kernel) _ (by decide +kernel)
  exact ⟨"my cats".toList, allBlank_variant _, by decide +kernel⟩

/-- Twice the same object, appended. -/
example : ∃ db1 db', sqlPanWrite unaryText asciiEnv pgExConf pgExSchema false .append pgPanEx [] = (db1, false) ∧
    sqlPanWrite unaryText asciiEnv pgExConf pgExSchema false .append pgPanEx db1 = (db', false) ∧
    PyDict.get? db' "cats" = some ⟨[], [.name "name"],
      [([], [.str "food"]), ([], [.str "tool"]), ([], [.str "food"]), ([], [.str "tool"])]⟩ :=
  ⟨_, _, rfl, rfl, by decide +kernel⟩

example : ∀ tc ∈ pgExSchema, ∃ old, PyDict.get? (sqlPanWrite unaryText asciiEnv pgExConf pgExSchema false .append pgPanEx []).1
    (sqlNameOut asciiEnv pgExSchema false tc.1) = some old ∧ FrameOK old ∧ ∀ f ∈ tc.2.fields, Label.name f ∈ old.cols := by
  intro tc htc
  simp only [pgExSchema, List.mem_cons, List.not_mem_nil, or_false] at htc
  rcases htc with e | e <;> subst e
  · exact ⟨_, rfl, ⟨by decide +kernel, by decide +kernel, by decide +kernel⟩, by decide +kernel⟩
  · exact ⟨_, rfl, ⟨by decide +kernel, by decide +kernel, by decide +kernel⟩, by decide +kernel⟩

theorem jsonPanCell_text : KeepsText (fun _ _ x => some (jsonPanCell unaryText x)) := by
  intro t f x hx
  refine ⟨_, rfl, ?_⟩
  rcases hx with ⟨s, rfl⟩ | rfl | rfl
  · exact .inl rfl
  · exact .inl rfl
  · exact .inr ⟨.inr rfl, .inl rfl⟩

example : ∃ file, jsonPanWrite unaryText pgExConf pgExSchema pgPanEx = some file ∧ PyDict.keys file = ["items", "cats"] ∧
    ∃ dat2, jsonPanRead unaryText asciiEnv id pgExConf false plainMissing nanPandas pgExSchema file = some dat2 ∧
      SamePan pgExSchema pgPanEx dat2 :=
  pan_json_lol_round_trip unaryText_ok asciiLaws id panFilesEx_schema (panFilesEx_safe jsonPanCell_text true) nanPandas
    plainMissing false

example : ∃ file, jsonPanWritePd unaryText asciiEnv pgExConf pgExSchema true pgPanEx = some file ∧
    ∃ dat2, jsonPanRead unaryText asciiEnv id pgExConf false plainMissing nanPandas pgExSchema file = some dat2 ∧
      SamePan pgExSchema pgPanEx dat2 :=
  pan_json_pd_round_trip unaryText_ok asciiLaws id panFilesEx_schema (by simp [pgExSchema])
    (panFilesEx_safe oneNullStore_text true) panFilesEx_keeps plainMissing_lists false (fun _ tc _ => asciiRoundTrip _)

example : jsonPanRead unaryText asciiEnv id pgExConf false plainMissing nanPandas pgExSchema
    [("items", .lol [[.str "egg", .none]]), ("cats", .obj ⟨[], [.name "name"], []⟩)] = none :=
  pan_json_mixed_refused _ _ _ _ _ _ _ _ _ "items" "cats" _ _ List.mem_cons_self (List.mem_cons_of_mem _ List.mem_cons_self)
    (.inl ⟨⟨_, rfl⟩, by intro rows h; cases h⟩)

example : csvPanRead unaryText asciiEnv id pgExConf false plainMissing nanPandas [("cats", ⟨["name"], [], []⟩)]
    [("dogs.csv", ⟨[], [.name "name"], []⟩)] = some [("cats", plainFrame ["name"] [])] :=
  (pan_file_missing (prune := true) (by decide +kernel) (by decide +kernel) (by intro h; exact absurd h (by decide +kernel))
    (fun _ f _ => ⟨_, rfl⟩)).1 (by unfold SpellsCsv; decide +kernel)

end Ticdat

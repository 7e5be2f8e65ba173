import Verif.Lemmas.PgSchema
import Verif.Props.SchemaTrip
/-!
# C68: creating a PostgreSQL schema

`write_schema` succeeds exactly when the factory can be represented in PostgreSQL, and it creates the tables it should.
-/
set_option linter.unusedSimpArgs false
set_option linter.unusedSectionVars false
namespace Ticdat
open Spec

/-- An order that puts foreign tables first exists only for acyclic keys. -/
theorem acyclic_of_foreignFirst {fks : List FK} {o : List String} (hn : o.Nodup) (hff : ForeignFirst fks o)
    (hnat : ∀ k ∈ fks, k.native ∈ o) : Acyclic (nonSelf fks) := by
  have hedge : ∀ a b, Edge (nonSelf fks) a b → o.idxOf b < o.idxOf a := by
    rintro a b ⟨k, hk, rfl, rfl⟩
    obtain ⟨hk, hne⟩ := List.mem_filter.1 hk
    have hne' : k.native ≠ k.foreign := by simpa using hne
    obtain ⟨pre, post, ho⟩ := List.append_of_mem (hnat k hk)
    have hb := hff k hk hne' pre post ho
    have ha : k.native ∉ pre := by
      rw [ho] at hn
      exact fun h => (List.nodup_append.1 hn).2.2 _ h _ List.mem_cons_self rfl
    rw [ho, List.idxOf_append, if_pos hb, List.idxOf_append, if_neg ha]
    simp only [List.idxOf_cons_self, Nat.zero_add]
    exact List.idxOf_lt_length_of_mem hb
  have hpath : ∀ a b, Path (nonSelf fks) a b → o.idxOf b ≤ o.idxOf a := by
    intro a b h
    induction h with
    | refl => exact Nat.le_refl _
    | step he _ ih => exact Nat.le_trans ih (Nat.le_of_lt (hedge _ _ he))
  rintro t ⟨b, he, hp⟩
  exact absurd (Nat.lt_of_le_of_lt (hpath b t hp) (hedge t b he)) (Nat.lt_irrefl _)

theorem filter_eq_one {A : Type} [DecidableEq A] {l : List A} (hn : l.Nodup) {x : A} (hx : x ∈ l) :
    (l.filter (fun n => decide (n = x))).length = 1 := by
  induction l with
  | nil => simp at hx
  | cons a l ih =>
    rw [List.nodup_cons] at hn
    by_cases ha : a = x
    · subst ha
      have : l.filter (fun n => decide (n = a)) = [] := by
        rw [List.filter_eq_nil_iff]
        intro b hb h
        exact hn.1 ((by simpa using h : b = a) ▸ hb)
      simp [this]
    · have hx' : x ∈ l := by
        rcases List.mem_cons.1 hx with h | h
        · exact absurd h.symm ha
        · exact h
      simp only [List.filter_cons, ha, decide_false, Bool.false_eq_true, if_false]
      exact ih hn.2 hx'

section
variable {cenv : CaseEnv} {cf : IOConf} {fks : List FK} {forced : Forced} {schema : List (String × TabClass)}

/-- One foreign key clause is accepted exactly if the key matches. -/
theorem pgRefOk_iff {cat : List PgDecl} {k : FK} {cn ct : TabClass} {d e : PgDecl}
    (hd : pgDecl cenv cf fks forced k.native cn = some d) (he : pgDecl cenv cf fks forced k.foreign ct = some e)
    (hnn : ((cn.pks ++ cn.dfs).map (fun f => pgName cenv f.toList)).Nodup)
    (hnt : ((ct.pks ++ ct.dfs).map (fun f => pgName cenv f.toList)).Nodup)
    (hm : ∀ p ∈ k.mapping, p.1 ∈ cn.pks ++ cn.dfs ∧ p.2 ∈ ct.pks ++ ct.dfs)
    (hmn : (k.mapping.map Prod.fst).Nodup)
    (hfind : (if k.foreign = d.table then some d else cat.find? (fun x => x.table = k.foreign)) = some e) :
    pgRefOk cat d (pgRef cenv k) = true ↔
      (k.mapping.map Prod.snd).Nodup ∧ (∀ f, f ∈ k.mapping.map Prod.snd ↔ f ∈ ct.pks) ∧
      ∀ p ∈ k.mapping, ∃ a b, ColType cf forced k.native p.1 (decide (p.1 ∈ cn.pks)) a ∧
        ColType cf forced k.foreign p.2 (decide (p.2 ∈ ct.pks)) b ∧ SameFamily a b := by
  have hr : pgRef cenv k = ⟨k.mapping.map (fun p => pgName cenv p.1.toList), k.foreign,
      k.mapping.map (fun p => pgName cenv p.2.toList)⟩ := by
    unfold pgRef; rw [PyDict.ofList_of_nodup _ hmn]
  have hpk := (pgDecl_fields he).2.1
  unfold pgRefOk
  rw [hr]
  simp only
  rw [hfind]
  simp only [Bool.and_eq_true, decide_eq_true_eq, List.all_eq_true]
  have hinj : ∀ f g, f ∈ ct.pks ++ ct.dfs → g ∈ ct.pks ++ ct.dfs → pgName cenv f.toList = pgName cenv g.toList → f = g :=
    fun f g hf hg h => inj_of_nodup_map _ hnt hf hg h
  have hnat : (k.mapping.map (fun p => pgName cenv p.1.toList)).Nodup := by
    have : k.mapping.map (fun p => pgName cenv p.1.toList) = (k.mapping.map Prod.fst).map (fun f => pgName cenv f.toList) := by
      rw [List.map_map]; rfl
    rw [this]
    apply nodup_map_of_inj _ hmn
    intro a ha b hb h
    obtain ⟨p, hp, rfl⟩ := List.mem_map.1 ha
    obtain ⟨q, hq, rfl⟩ := List.mem_map.1 hb
    exact inj_of_nodup_map _ hnn (hm p hp).1 (hm q hq).1 h
  have hfor : (k.mapping.map (fun p => pgName cenv p.2.toList)).Nodup ↔ (k.mapping.map Prod.snd).Nodup := by
    have h0 : k.mapping.map (fun p => pgName cenv p.2.toList) = (k.mapping.map Prod.snd).map (fun f => pgName cenv f.toList) := by
      rw [List.map_map]; rfl
    rw [h0]
    constructor
    · exact nodup_of_map _
    · intro h
      apply nodup_map_of_inj _ h
      intro a ha b hb h
      obtain ⟨p, hp, rfl⟩ := List.mem_map.1 ha
      obtain ⟨q, hq, rfl⟩ := List.mem_map.1 hb
      exact hinj _ _ (hm p hp).2 (hm q hq).2 h
  have hsub : (∀ x ∈ k.mapping.map (fun p => pgName cenv p.2.toList), x ∈ e.primaryKey) ↔
      ∀ f ∈ k.mapping.map Prod.snd, f ∈ ct.pks := by
    rw [hpk]
    constructor
    · intro h f hf
      obtain ⟨p, hp, rfl⟩ := List.mem_map.1 hf
      obtain ⟨g, hg, hgg⟩ := List.mem_map.1 (h _ (List.mem_map.2 ⟨p, hp, rfl⟩))
      have := hinj g p.2 (List.mem_append_left _ hg) (hm p hp).2 hgg
      exact this ▸ hg
    · intro h x hx
      obtain ⟨p, hp, rfl⟩ := List.mem_map.1 hx
      exact List.mem_map.2 ⟨p.2, h _ (List.mem_map.2 ⟨p, hp, rfl⟩), rfl⟩
  have hsup : (∀ x ∈ e.primaryKey, x ∈ k.mapping.map (fun p => pgName cenv p.2.toList)) ↔
      ∀ f ∈ ct.pks, f ∈ k.mapping.map Prod.snd := by
    rw [hpk]
    constructor
    · intro h f hf
      obtain ⟨p, hp, hpp⟩ := List.mem_map.1 (h _ (List.mem_map.2 ⟨f, hf, rfl⟩))
      have := hinj p.2 f (hm p hp).2 (List.mem_append_left _ hf) hpp
      exact List.mem_map.2 ⟨p, hp, this⟩
    · intro h x hx
      obtain ⟨f, hf, rfl⟩ := List.mem_map.1 hx
      obtain ⟨p, hp, hpp⟩ := List.mem_map.1 (h f hf)
      exact List.mem_map.2 ⟨p, hp, by rw [← hpp]⟩
  have htyp : (∀ x ∈ (k.mapping.map (fun p => pgName cenv p.1.toList)).zip (k.mapping.map (fun p => pgName cenv p.2.toList)),
      (match d.typeOf x.1, e.typeOf x.2 with
        | some a, some b => a.comparable b
        | _, _ => false) = true) ↔
      ∀ p ∈ k.mapping, ∃ a b, ColType cf forced k.native p.1 (decide (p.1 ∈ cn.pks)) a ∧
        ColType cf forced k.foreign p.2 (decide (p.2 ∈ ct.pks)) b ∧ SameFamily a b := by
    have hz : (k.mapping.map (fun p => pgName cenv p.1.toList)).zip (k.mapping.map (fun p => pgName cenv p.2.toList)) =
        k.mapping.map (fun p => (pgName cenv p.1.toList, pgName cenv p.2.toList)) := by
      induction k.mapping with
      | nil => rfl
      | cons p l ih => simp only [List.map_cons, List.zip_cons_cons, ih]
    rw [hz]
    constructor
    · intro h p hp
      have := h _ (List.mem_map.2 ⟨p, hp, rfl⟩)
      simp only at this
      cases h1 : d.typeOf (pgName cenv p.1.toList) with
      | none => rw [h1] at this; simp at this
      | some a =>
        cases h2 : e.typeOf (pgName cenv p.2.toList) with
        | none => rw [h1, h2] at this; simp at this
        | some b =>
          rw [h1, h2] at this
          exact ⟨a, b, (typeOf_field hd hnn (hm p hp).1 a).1 h1, (typeOf_field he hnt (hm p hp).2 b).1 h2,
            (comparable_iff a b).1 this⟩
    · intro h x hx
      obtain ⟨p, hp, rfl⟩ := List.mem_map.1 hx
      obtain ⟨a, b, h1, h2, h3⟩ := h p hp
      simp only
      rw [(typeOf_field hd hnn (hm p hp).1 a).2 h1, (typeOf_field he hnt (hm p hp).2 b).2 h2]
      exact (comparable_iff a b).2 h3
  have hmem : (∀ f, f ∈ k.mapping.map Prod.snd ↔ f ∈ ct.pks) ↔
      (∀ f ∈ k.mapping.map Prod.snd, f ∈ ct.pks) ∧ ∀ f ∈ ct.pks, f ∈ k.mapping.map Prod.snd :=
    ⟨fun h => ⟨fun f => (h f).1, fun f => (h f).2⟩, fun h f => ⟨h.1 f, h.2 f⟩⟩
  rw [hmem, ← hsub, ← hsup, ← htyp, ← hfor]
  constructor
  · rintro ⟨⟨⟨⟨a, b⟩, c⟩, _⟩, f⟩; exact ⟨a, ⟨b, c⟩, f⟩
  · rintro ⟨a, ⟨b, c⟩, f⟩; exact ⟨⟨⟨⟨a, b⟩, c⟩, hnat⟩, f⟩

/-- The statements: one per table, in the computed order. -/
theorem pgSchemaSql_spec (hn : (schema.map Prod.fst).Nodup) (hF : ∀ k ∈ fks, k.foreign ∈ schema.map Prod.fst) :
    ∃ o, o.Nodup ∧ (∀ t, t ∈ o ↔ t ∈ schema.map Prod.fst) ∧ (Acyclic (nonSelf fks) → ForeignFirst fks o) ∧
      (∀ ds, pgSchemaSql cenv cf fks forced schema = some ds → ds.map PgDecl.table = o ∧
        ∀ d ∈ ds, ∃ c, (d.table, c) ∈ schema ∧ pgDecl cenv cf fks forced d.table c = some d) ∧
      ((∃ ds, pgSchemaSql cenv cf fks forced schema = some ds) ↔ ∀ t c, (t, c) ∈ schema → AllTyped cf forced t c) := by
  obtain ⟨o, h1, h2, h3, h4⟩ := pg_order_spec fks (schema.map Prod.fst) hF
  have ho := h1 (fks.length + 1) (Nat.lt_succ_self _)
  refine ⟨o, h2, h3, h4, ?_, ?_⟩
  · intro ds h
    unfold pgSchemaSql at h
    rw [ho] at h
    simp only [Option.bind_some] at h
    have hstep : ∀ t d, ((PyDict.get? schema t).bind (fun c => pgDecl cenv cf fks forced t c)) = some d →
        d.table = t ∧ ∃ c, (t, c) ∈ schema ∧ pgDecl cenv cf fks forced t c = some d := by
      intro t d hd
      obtain ⟨c, hc, hd⟩ := Option.bind_eq_some_iff.1 hd
      exact ⟨(pgDecl_fields hd).1, c, PyDict.get?_mem hc, hd⟩
    refine ⟨?_, ?_⟩
    · rw [map_of_mapM PgDecl.table id h (fun t d hd => (hstep t d hd).1)]; simp
    · intro d hd
      obtain ⟨t, _, he⟩ := mem_of_mapM h hd
      obtain ⟨rfl, c, hc, hdd⟩ := hstep t d he
      exact ⟨c, hc, hdd⟩
  · unfold pgSchemaSql
    rw [ho]
    simp only [Option.bind_some]
    constructor
    · rintro ⟨ds, h⟩ t c htc
      obtain ⟨d, _, hd⟩ := mem_of_mapM' h ((h3 t).2 (List.mem_map.2 ⟨(t, c), htc, rfl⟩))
      rw [PyDict.get?_of_mem (d := schema) hn htc] at hd
      exact (pgDecl_some_iff cenv cf fks forced t c).1 ⟨d, hd⟩
    · intro h
      apply mapM_some_of_forall
      intro t ht
      obtain ⟨⟨t', c⟩, htc, rfl⟩ := List.mem_map.1 ((h3 t).1 ht)
      simp only
      rw [PyDict.get?_of_mem (d := schema) hn htc]
      obtain ⟨d, hd⟩ := (pgDecl_some_iff cenv cf fks forced t' c).2 (h t' c htc)
      simp [hd]

theorem pgNames_iff (reserved : List (List Char)) :
    schema.all (fun tc => pgCompatible cenv reserved tc.1.toList (tc.2.fields.map String.toList)) = true ↔
      PgNames cenv reserved schema := by
  rw [List.all_eq_true]
  unfold PgNames pgCompatible TabClass.fields
  constructor
  · intro h t c htc
    have := h (t, c) htc
    simp only [Bool.and_eq_true, decide_eq_true_eq, List.map_map, Bool.not_eq_true', List.any_eq_false,
      List.contains_iff_mem] at this
    obtain ⟨⟨a, b⟩, d⟩ := this
    refine ⟨a, b, fun f hf => d f.toList (List.mem_map.2 ⟨f, hf, rfl⟩)⟩
  · rintro h ⟨t, c⟩ htc
    obtain ⟨a, b, d⟩ := h t c htc
    simp only [Bool.and_eq_true, decide_eq_true_eq, List.map_map, Bool.not_eq_true', List.any_eq_false,
      List.contains_iff_mem]
    refine ⟨⟨a, b⟩, ?_⟩
    intro x hx
    obtain ⟨f, hf, rfl⟩ := List.mem_map.1 hx
    exact d f hf

theorem goodForced_iff (hn : (schema.map Prod.fst).Nodup) : goodForced schema forced = true ↔ ForcedOK schema forced := by
  unfold goodForced ForcedOK TabClass.fields
  rw [List.all_eq_true]
  constructor
  · intro h p hp
    have := h p hp
    cases hc : PyDict.get? schema p.1.1 with
    | none => rw [hc] at this; simp at this
    | some c =>
      rw [hc] at this
      exact ⟨c, PyDict.get?_mem hc, by simpa using this⟩
  · intro h p hp
    obtain ⟨c, hc, hf⟩ := h p hp
    rw [PyDict.get?_of_mem (d := schema) hn hc]
    simpa using hf

/-- The statements run exactly if no table exists yet, the foreign keys are acyclic and match primary keys, and the
defaults fit. -/
theorem pgRun_schema_iff (reads : PgType → List Char → Bool) (hn : (schema.map Prod.fst).Nodup) (hF : FksOK schema fks)
    (hN : ∀ t c, (t, c) ∈ schema → ((c.pks ++ c.dfs).map (fun f => pgName cenv f.toList)).Nodup)
    {ds : List PgDecl} (hds : pgSchemaSql cenv cf fks forced schema = some ds) (cat : List PgDecl) :
    (∃ r, pgRun reads cat ds = some r) ↔
      (∀ t c, (t, c) ∈ schema → ∀ e ∈ cat, e.table ≠ t) ∧
      (∀ t c, (t, c) ∈ schema → ∀ f ∈ c.dfs, ∀ ty, ColType cf forced t f false ty →
        DefaultFits reads cf forced t f ty ((c.defaults.lookup f).getD (.num (.fin 0)))) ∧
      Acyclic (nonSelf fks) ∧ ∀ k ∈ fks, PgKeyMatch cf forced schema k := by
  have hFf : ∀ k ∈ fks, k.foreign ∈ schema.map Prod.fst := by
    intro k hk
    obtain ⟨⟨cn, ct, _, h, _⟩, _⟩ := hF k hk
    exact List.mem_map.2 ⟨_, h, rfl⟩
  have hFn : ∀ k ∈ fks, k.native ∈ schema.map Prod.fst := by
    intro k hk
    obtain ⟨⟨cn, ct, h, _, _⟩, _⟩ := hF k hk
    exact List.mem_map.2 ⟨_, h, rfl⟩
  have huniq : ∀ t c c', (t, c) ∈ schema → (t, c') ∈ schema → c = c' := by
    intro t c c' h h'
    have e1 := PyDict.get?_of_mem (d := schema) hn h
    have e2 := PyDict.get?_of_mem (d := schema) hn h'
    rw [e1] at e2
    exact Option.some.inj e2
  obtain ⟨o, ho, hmem, hff, hsql, _⟩ := pgSchemaSql_spec (cenv := cenv) (cf := cf) (forced := forced) hn hFf
  obtain ⟨htab, hdecl⟩ := hsql ds hds
  -- the statement of a table
  have hget : ∀ t c, (t, c) ∈ schema → ∃ d ∈ ds, d.table = t ∧ pgDecl cenv cf fks forced t c = some d := by
    intro t c htc
    have : t ∈ ds.map PgDecl.table := by rw [htab]; exact (hmem t).2 (List.mem_map.2 ⟨_, htc, rfl⟩)
    obtain ⟨d, hd, rfl⟩ := List.mem_map.1 this
    obtain ⟨c', hc', hdd⟩ := hdecl d hd
    exact ⟨d, hd, rfl, huniq _ _ _ htc hc' ▸ hdd⟩
  have hdsn : (ds.map PgDecl.table).Nodup := htab ▸ ho
  have hinj : ∀ d ∈ ds, ∀ e ∈ ds, d.table = e.table → d = e := fun d hd e he h => inj_of_nodup_map _ hdsn hd he h
  -- the defaults of one table
  have hdef : ∀ t c d, (t, c) ∈ schema → pgDecl cenv cf fks forced t c = some d →
      ((∀ col ∈ d.columns, (col.dflt.map (pgDefaultOk reads col.type)).getD true = true) ↔
        ∀ f ∈ c.dfs, ∀ ty, ColType cf forced t f false ty →
          DefaultFits reads cf forced t f ty ((c.defaults.lookup f).getD (.num (.fin 0)))) := by
    intro t c d htc hd
    obtain ⟨hnames, _, h3, h4⟩ := pgDecl_columns hd (hN t c htc)
    constructor
    · intro h f hf ty hty
      obtain ⟨col, hcol, hc⟩ := h3 f hf
      obtain ⟨a1, _, a3, _⟩ := dataCol_type hc
      have := h col hcol
      rw [a3, coltype_unique a1 hty, pgDefaultOk_iff reads cf forced t f false ty _ hty, TabClass.dflt, get?_eq_lookup] at this
      exact this
    · intro h col hcol
      have hin : col.name ∈ (c.pks ++ c.dfs).map (fun f => pgName cenv f.toList) := by
        rw [← hnames]; exact List.mem_map.2 ⟨col, hcol, rfl⟩
      obtain ⟨f, hf, hfe⟩ := List.mem_map.1 hin
      rcases h4 f hf col hcol hfe.symm with ⟨_, _, hc⟩ | ⟨hfd, _, hc⟩
      · rw [(keyCol_type hc).2.2.1]; rfl
      · obtain ⟨a1, _, a3, _⟩ := dataCol_type hc
        rw [a3, pgDefaultOk_iff reads cf forced t f false _ _ a1, TabClass.dflt, get?_eq_lookup]
        exact h f hfd _ a1
  constructor
  · rintro ⟨r, hr⟩
    rw [pgRun_iff] at hr
    obtain ⟨_, hr⟩ := hr
    have hnocat : ∀ t c, (t, c) ∈ schema → ∀ e ∈ cat, e.table ≠ t := by
      intro t c htc e he
      obtain ⟨d, hd, rfl, _⟩ := hget t c htc
      obtain ⟨pre, post, hsplit⟩ := List.append_of_mem hd
      exact (hr pre d post hsplit).1 e (List.mem_append_left _ he)
    -- where the foreign table of a key is found
    have hfound : ∀ k ∈ fks, ∀ cn ct, (k.native, cn) ∈ schema → (k.foreign, ct) ∈ schema →
        ∃ pre d post e, ds = pre ++ d :: post ∧ d.table = k.native ∧ pgDecl cenv cf fks forced k.native cn = some d ∧
          pgDecl cenv cf fks forced k.foreign ct = some e ∧ pgRefOk (cat ++ pre) d (pgRef cenv k) = true ∧
          (if k.foreign = d.table then some d else (cat ++ pre).find? (fun x => x.table = k.foreign)) = some e ∧
          (k.native ≠ k.foreign → e ∈ pre) := by
      intro k hk cn ct hcn hct
      obtain ⟨d, hd, hdt, hdd⟩ := hget _ _ hcn
      obtain ⟨pre, post, hsplit⟩ := List.append_of_mem hd
      obtain ⟨_, _, _, hrefs⟩ := hr pre d post hsplit
      have hin : pgRef cenv k ∈ d.refs := by
        rw [(pgDecl_fields hdd).2.2]
        exact List.mem_map.2 ⟨k, List.mem_filter.2 ⟨hk, by simp⟩, rfl⟩
      have hok := hrefs _ hin
      obtain ⟨e, he, het, hee⟩ := hget _ _ hct
      by_cases hself : k.foreign = d.table
      · have : e = d := hinj e he d hd (by rw [het, hself])
        subst this
        refine ⟨pre, e, post, e, hsplit, hdt, hdd, hee, hok, by rw [if_pos hself], ?_⟩
        intro hne
        exact absurd (by rw [← hdt, ← hself]) hne
      · have hf : ∃ e', (cat ++ pre).find? (fun x => x.table = k.foreign) = some e' := by
          unfold pgRefOk at hok
          have hself' : ¬ (pgRef cenv k).table = d.table := hself
          rw [if_neg hself'] at hok
          cases hc : (cat ++ pre).find? (fun x => x.table = k.foreign) with
          | none =>
            have : (cat ++ pre).find? (fun x => x.table = (pgRef cenv k).table) = none := hc
            rw [this] at hok
            simp at hok
          | some e' => exact ⟨e', rfl⟩
        obtain ⟨e', hf⟩ := hf
        have hm := List.mem_of_find?_eq_some hf
        have hp := List.find?_some hf
        simp only [decide_eq_true_eq] at hp
        have hpre : e' ∈ pre := by
          rcases List.mem_append.1 hm with hm | hm
          · exact absurd hp (hnocat _ _ hct e' hm)
          · exact hm
        have : e' = e := hinj e' (by rw [hsplit]; exact List.mem_append_left _ hpre) e he (by rw [hp, het])
        subst this
        exact ⟨pre, d, post, e', hsplit, hdt, hdd, hee, hok, by rw [if_neg hself]; exact hf, fun _ => hpre⟩
    refine ⟨hnocat, ?_, ?_, ?_⟩
    · intro t c htc
      obtain ⟨d, hd, rfl, hdd⟩ := hget t c htc
      obtain ⟨pre, post, hsplit⟩ := List.append_of_mem hd
      exact (hdef _ _ _ htc hdd).1 (hr pre d post hsplit).2.2.1
    · apply acyclic_of_foreignFirst ho
      · intro k hk hne pre post hsplit
        obtain ⟨⟨cn, ct, hcn, hct, _⟩, _⟩ := hF k hk
        obtain ⟨pre', d, post', e, hs, hdt, _, hee, _, _, hpre⟩ := hfound k hk cn ct hcn hct
        have he := hpre hne
        -- the two splits of the order agree
        have hs' : pre ++ k.native :: post = pre'.map PgDecl.table ++ k.native :: post'.map PgDecl.table := by
          rw [← hsplit, ← htab, hs, List.map_append, List.map_cons, hdt]
        have hn1 : k.native ∉ pre := by
          rw [hsplit] at ho
          exact fun h => (List.nodup_append.1 ho).2.2 _ h _ List.mem_cons_self rfl
        have hn2 : k.native ∉ pre'.map PgDecl.table := by
          rw [hsplit, hs'] at ho
          exact fun h => (List.nodup_append.1 ho).2.2 _ h _ List.mem_cons_self rfl
        have heq : pre = pre'.map PgDecl.table := by
          have l1 := congrArg (List.idxOf k.native) hs'
          rw [List.idxOf_append, if_neg hn1, List.idxOf_append, if_neg hn2] at l1
          simp only [List.idxOf_cons_self, Nat.zero_add] at l1
          have := congrArg (List.take pre.length) hs'
          rw [List.take_left, l1, List.take_left] at this
          exact this
        rw [heq, ← (pgDecl_fields hee).1]
        exact List.mem_map.2 ⟨e, he, rfl⟩
      · intro k hk
        exact (hmem _).2 (hFn k hk)
    · intro k hk cn ct hcn hct
      obtain ⟨⟨cn', ct', hcn', hct', hmap⟩, hmn⟩ := hF k hk
      cases huniq _ _ _ hcn hcn'
      cases huniq _ _ _ hct hct'
      obtain ⟨pre, d, post, e, _, _, hdd, hee, hok, hfind, _⟩ := hfound k hk cn ct hcn hct
      exact (pgRefOk_iff hdd hee (hN _ _ hcn) (hN _ _ hct) hmap hmn hfind).1 hok
  · rintro ⟨hnocat, hdfs, hac, hkm⟩
    refine ⟨cat ++ ds, ?_⟩
    rw [pgRun_iff]
    refine ⟨rfl, ?_⟩
    intro pre d post hsplit
    have hd : d ∈ ds := by rw [hsplit]; simp
    obtain ⟨c, htc, hdd⟩ := hdecl d hd
    have hosplit : o = pre.map PgDecl.table ++ d.table :: post.map PgDecl.table := by
      rw [← htab, hsplit, List.map_append, List.map_cons]
    refine ⟨?_, ?_, (hdef _ _ _ htc hdd).2 (hdfs _ _ htc), ?_⟩
    · intro e he
      rcases List.mem_append.1 he with he | he
      · exact hnocat _ _ htc e he
      · intro heq
        rw [hosplit] at ho
        exact (List.nodup_append.1 ho).2.2 _ (List.mem_map.2 ⟨e, he, rfl⟩) _ List.mem_cons_self heq
    · rw [(pgDecl_columns hdd (hN _ _ htc)).1]; exact hN _ _ htc
    · intro r hr
      rw [(pgDecl_fields hdd).2.2] at hr
      obtain ⟨k, hk, rfl⟩ := List.mem_map.1 hr
      obtain ⟨hk, hnat⟩ := List.mem_filter.1 hk
      have hnat' : k.native = d.table := by simpa using hnat
      obtain ⟨⟨cn, ct, hcn, hct, hmap⟩, hmn⟩ := hF k hk
      have hcnc : cn = c := huniq _ _ _ hcn (hnat' ▸ htc)
      subst hcnc
      obtain ⟨e, he, het, hee⟩ := hget _ _ hct
      have hfind : (if k.foreign = d.table then some d else (cat ++ pre).find? (fun x => x.table = k.foreign)) = some e := by
        by_cases hself : k.foreign = d.table
        · rw [if_pos hself, hinj e he d hd (by rw [het, hself])]
        · rw [if_neg hself]
          have hpre := hff hac k hk (by rw [hnat']; exact fun h => hself h.symm) (pre.map PgDecl.table)
            (post.map PgDecl.table) (by rw [hnat']; exact hosplit)
          obtain ⟨e', he', het'⟩ := List.mem_map.1 hpre
          cases hc : (cat ++ pre).find? (fun x => x.table = k.foreign) with
          | none =>
            have := List.find?_eq_none.1 hc e' (List.mem_append_right _ he')
            simp [het'] at this
          | some e'' =>
            have hm := List.mem_of_find?_eq_some hc
            have hp := List.find?_some hc
            simp only [decide_eq_true_eq] at hp
            rcases List.mem_append.1 hm with hm | hm
            · exact absurd hp (hnocat _ _ hct e'' hm)
            · rw [hinj e'' (by rw [hsplit]; exact List.mem_append_left _ hm) e he (by rw [hp, het])]
      exact (pgRefOk_iff (hnat' ▸ hdd) hee (hN _ _ hcn) (hN _ _ hct) hmap hmn hfind).2 (hkm k hk cn ct hcn hct)

/-- **C68.**  `write_schema` succeeds exactly when: the names are usable in PostgreSQL and the forced types are for fields of
the factory; none of the tables exists yet; every field has a column type; the default values of the data fields fit; the
foreign keys are acyclic (self references aside), refer to whole primary keys, and have comparable columns. -/
theorem pg_write_schema_iff (reads : PgType → List Char → Bool) (reserved : List (List Char))
    (hn : (schema.map Prod.fst).Nodup) (hF : FksOK schema fks) (cat : List PgDecl) :
    (∃ r, pgWriteSchema reads cenv reserved cf fks forced true schema cat = some r) ↔
      PgNames cenv reserved schema ∧ ForcedOK schema forced ∧
      (∀ t c, (t, c) ∈ schema → (∀ e ∈ cat, e.table ≠ t) ∧
        (∀ f ∈ c.pks, ∃ ty, ColType cf forced t f true ty) ∧
        ∀ f ∈ c.dfs, ∃ ty, ColType cf forced t f false ty ∧
          DefaultFits reads cf forced t f ty ((c.defaults.lookup f).getD (.num (.fin 0)))) ∧
      Acyclic (nonSelf fks) ∧ ∀ k ∈ fks, PgKeyMatch cf forced schema k := by
  have hFf : ∀ k ∈ fks, k.foreign ∈ schema.map Prod.fst := by
    intro k hk
    obtain ⟨⟨cn, ct, _, h, _⟩, _⟩ := hF k hk
    exact List.mem_map.2 ⟨_, h, rfl⟩
  obtain ⟨o, _, _, _, _, hsome⟩ := pgSchemaSql_spec (cenv := cenv) (cf := cf) (forced := forced) hn hFf
  unfold pgWriteSchema
  constructor
  · rintro ⟨r, h⟩
    by_cases hg : (schema.all (fun tc => pgCompatible cenv reserved tc.1.toList (tc.2.fields.map String.toList)) &&
        goodForced schema forced) = true
    · rw [if_pos hg] at h
      rw [Bool.and_eq_true] at hg
      have hN := (pgNames_iff reserved).1 hg.1
      simp only [if_true] at h
      obtain ⟨ds, hds, hr⟩ := Option.bind_eq_some_iff.1 h
      have hty := hsome.1 ⟨ds, hds⟩
      obtain ⟨h1, h2, h3, h4⟩ := (pgRun_schema_iff reads hn hF (fun t c htc => (hN t c htc).2.1) hds cat).1 ⟨r, hr⟩
      refine ⟨hN, (goodForced_iff hn).1 hg.2, ?_, h3, h4⟩
      intro t c htc
      refine ⟨h1 t c htc, (hty t c htc).1, ?_⟩
      intro f hf
      obtain ⟨ty, hft⟩ := (hty t c htc).2 f hf
      exact ⟨ty, hft, h2 t c htc f hf ty hft⟩
    · rw [if_neg hg] at h; cases h
  · rintro ⟨hN, hfo, hall, hac, hkm⟩
    rw [if_pos (by rw [Bool.and_eq_true]; exact ⟨(pgNames_iff reserved).2 hN, (goodForced_iff hn).2 hfo⟩)]
    simp only [if_true]
    obtain ⟨ds, hds⟩ := hsome.2 (fun t c htc => ⟨(hall t c htc).2.1, fun f hf =>
      let ⟨ty, hty, _⟩ := (hall t c htc).2.2 f hf; ⟨ty, hty⟩⟩)
    rw [hds]
    simp only [Option.bind_some]
    refine (pgRun_schema_iff reads hn hF (fun t c htc => (hN t c htc).2.1) hds cat).2 ⟨fun t c htc => (hall t c htc).1, ?_,
      hac, hkm⟩
    intro t c htc f hf ty hty
    obtain ⟨ty', hty', hfit⟩ := (hall t c htc).2.2 f hf
    rw [coltype_unique hty hty']
    exact hfit

/-- **C68.**  What is there afterwards: the tables that were there, unchanged, and one table for each table of the factory,
foreign tables before the tables that refer to them, with the columns, column types, null constraints, primary key and
foreign keys of the specification. -/
theorem pg_write_schema_result (reads : PgType → List Char → Bool) (reserved : List (List Char))
    (hn : (schema.map Prod.fst).Nodup) (hF : FksOK schema fks) (cat r : List PgDecl)
    (h : pgWriteSchema reads cenv reserved cf fks forced true schema cat = some r) :
    ∃ new, r = cat ++ new ∧ (new.map PgDecl.table).Nodup ∧ (∀ t, t ∈ new.map PgDecl.table ↔ t ∈ schema.map Prod.fst) ∧
      ForeignFirst fks (new.map PgDecl.table) ∧
      ∀ d ∈ new, ∃ c, (d.table, c) ∈ schema ∧ DeclFor cenv cf fks forced d.table c d := by
  obtain ⟨hN, _, _, hac, _⟩ := (pg_write_schema_iff reads reserved hn hF cat).1 ⟨r, h⟩
  have hFf : ∀ k ∈ fks, k.foreign ∈ schema.map Prod.fst := by
    intro k hk
    obtain ⟨⟨cn, ct, _, h, _⟩, _⟩ := hF k hk
    exact List.mem_map.2 ⟨_, h, rfl⟩
  obtain ⟨o, h1, h2, h3, h4, _⟩ := pgSchemaSql_spec (cenv := cenv) (cf := cf) (forced := forced) hn hFf
  unfold pgWriteSchema at h
  split at h
  · simp only [if_true] at h
    obtain ⟨ds, hds, hr⟩ := Option.bind_eq_some_iff.1 h
    obtain ⟨g1, g2⟩ := h4 ds hds
    refine ⟨ds, ((pgRun_iff reads cat ds r).1 hr).1, g1 ▸ h1, ?_, g1 ▸ h3 hac, ?_⟩
    · rw [g1]; exact h2
    · intro d hd
      obtain ⟨c, hc, hdd⟩ := g2 d hd
      exact ⟨c, hc, declFor_of_pgDecl hdd (hN _ _ hc).2.1 (fun k hk => (hF k hk).2)⟩
  · cases h

/-- **C68.**  After `write_schema` the check of tables and fields finds nothing missing, also if missing tables are an
error. -/
theorem pg_schema_then_check (reads : PgType → List Char → Bool) (reserved : List (List Char))
    (hn : (schema.map Prod.fst).Nodup) (hF : FksOK schema fks) (cat r : List PgDecl) (strict : Bool)
    (h : pgWriteSchema reads cenv reserved cf fks forced true schema cat = some r) :
    pgCheckTables cenv strict schema r = some [] := by
  obtain ⟨hN, _, hall, _, _⟩ := (pg_write_schema_iff reads reserved hn hF cat).1 ⟨r, h⟩
  obtain ⟨new, rfl, hnd, hmem, _, hdecl⟩ := pg_write_schema_result reads reserved hn hF cat r h
  have hfind : ∀ t c, (t, c) ∈ schema → ∃ d, (cat ++ new).find? (fun d => d.table = t) = some d ∧
      DeclFor cenv cf fks forced t c d := by
    intro t c htc
    obtain ⟨d, hd, hdt⟩ := List.mem_map.1 ((hmem t).2 (List.mem_map.2 ⟨_, htc, rfl⟩))
    cases hc : (cat ++ new).find? (fun d => d.table = t) with
    | none =>
      have := List.find?_eq_none.1 hc d (List.mem_append_right _ hd)
      simp [hdt] at this
    | some e =>
      have hm := List.mem_of_find?_eq_some hc
      have hp := List.find?_some hc
      simp only [decide_eq_true_eq] at hp
      rcases List.mem_append.1 hm with hm | hm
      · exact absurd hp ((hall t c htc).1 e hm)
      · obtain ⟨c', hc', hdf⟩ := hdecl e hm
        have : c' = c := by
          have e1 := PyDict.get?_of_mem (d := schema) hn (hp ▸ hc')
          have e2 := PyDict.get?_of_mem (d := schema) hn htc
          rw [e1] at e2
          exact Option.some.inj e2
        subst this
        exact ⟨e, rfl, hp ▸ hdf⟩
  unfold pgCheckTables
  simp only
  rw [if_pos, if_neg]
  · congr 1
    rw [List.map_eq_nil_iff, List.filter_eq_nil_iff]
    rintro ⟨t, c⟩ htc
    obtain ⟨d, hd, _⟩ := hfind t c htc
    simp [hd]
  · have : (schema.filter (fun tc => ((cat ++ new).find? (fun d => d.table = tc.1)).isNone)) = [] := by
      rw [List.filter_eq_nil_iff]
      rintro ⟨t, c⟩ htc
      obtain ⟨d, hd, _⟩ := hfind t c htc
      simp [hd]
    rw [this]; simp
  · rw [List.all_eq_true]
    rintro ⟨t, c⟩ htc
    obtain ⟨d, hd, hdf⟩ := hfind t c htc
    simp only
    rw [hd]
    simp only [pgFieldsOk, List.all_eq_true, decide_eq_true_eq]
    intro f hf
    rw [hdf.names]
    have hcnt := (hN t c htc).2.1
    have hin : pgName cenv f.toList ∈ (c.pks ++ c.dfs).map (fun f => pgName cenv f.toList) :=
      List.mem_map.2 ⟨f, hf, rfl⟩
    exact filter_eq_one hcnt hin

/-! ### Without keys -/

theorem lookup_const {K V : Type} [BEq K] [LawfulBEq K] (l : List (K × V)) (v : V) (h : ∀ p ∈ l, p.2 = v) (k : K) :
    (k ∈ l.map Prod.fst → l.lookup k = some v) ∧ (k ∉ l.map Prod.fst → l.lookup k = none) := by
  induction l with
  | nil => simp
  | cons p l ih =>
    obtain ⟨a, b⟩ := p
    have hb : b = v := h (a, b) List.mem_cons_self
    have ih := ih (fun p hp => h p (List.mem_cons_of_mem _ hp))
    simp only [List.map_cons, List.mem_cons, List.lookup_cons]
    by_cases hk : k = a
    · subst hk; simp [hb]
    · have : (k == a) = false := by simpa using hk
      simp only [this, hk, false_or]
      exact ih

/-- The forced types of the schema without keys. -/
theorem noKeysForced_lookup (hn : (schema.map Prod.fst).Nodup) {t f : String} {c : TabClass} (htc : (t, c) ∈ schema) :
    (noKeysForced cf schema forced).lookup (t, f) =
      match forced.lookup (t, f) with
      | some ty => some ty
      | none => if f ∈ c.pks ∧ typeOf cf.types t f = none then some .text else none := by
  unfold noKeysForced
  rw [List.lookup_append]
  cases hl : forced.lookup (t, f) with
  | some ty => simp
  | none =>
    simp only [Option.none_or]
    have hc := lookup_const ((schema.flatMap (fun tc => (tc.2.pks.filter (fun f => (cf.types.at tc.1 f).isNone)).map
      (fun f => ((tc.1, f), PgType.text)))).filter (fun p => (PyDict.get? forced p.1).isNone)) .text (by
        intro p hp
        obtain ⟨hp, _⟩ := List.mem_filter.1 hp
        obtain ⟨tc, _, hp⟩ := List.mem_flatMap.1 hp
        obtain ⟨f, _, rfl⟩ := List.mem_map.1 hp
        rfl) (t, f)
    have hmem : (t, f) ∈ ((schema.flatMap (fun tc => (tc.2.pks.filter (fun f => (cf.types.at tc.1 f).isNone)).map
        (fun f => ((tc.1, f), PgType.text)))).filter (fun p => (PyDict.get? forced p.1).isNone)).map Prod.fst ↔
        f ∈ c.pks ∧ typeOf cf.types t f = none := by
      constructor
      · intro h
        obtain ⟨⟨⟨a, b⟩, ty⟩, hp, he⟩ := List.mem_map.1 h
        simp only [Prod.mk.injEq] at he
        obtain ⟨rfl, rfl⟩ := he
        obtain ⟨hp, _⟩ := List.mem_filter.1 hp
        obtain ⟨⟨t', c'⟩, htc', hp⟩ := List.mem_flatMap.1 hp
        obtain ⟨g, hg, he⟩ := List.mem_map.1 hp
        simp only [Prod.mk.injEq] at he
        obtain ⟨⟨rfl, rfl⟩, _⟩ := he
        obtain ⟨hg, hgt⟩ := List.mem_filter.1 hg
        have : c' = c := by
          have e1 := PyDict.get?_of_mem (d := schema) hn htc'
          have e2 := PyDict.get?_of_mem (d := schema) hn htc
          rw [e1] at e2
          exact Option.some.inj e2
        subst this
        rw [at_eq_typeOf] at hgt
        exact ⟨hg, by simpa using hgt⟩
      · rintro ⟨h1, h2⟩
        refine List.mem_map.2 ⟨((t, f), .text), List.mem_filter.2 ⟨List.mem_flatMap.2 ⟨(t, c), htc, ?_⟩, ?_⟩, rfl⟩
        · exact List.mem_map.2 ⟨f, List.mem_filter.2 ⟨h1, by simp only; rw [at_eq_typeOf, h2]; rfl⟩, rfl⟩
        · simp only; rw [get?_lookup_pair, hl]; rfl
    by_cases h : f ∈ c.pks ∧ typeOf cf.types t f = none
    · rw [hc.1 (hmem.2 h), if_pos h]
    · rw [hc.2 (fun hh => h (hmem.1 hh)), if_neg h]

/-- Column types of the schema without keys: those of the schema with keys, but nothing is known of parameters. -/
theorem noKeys_coltype (hn : (schema.map Prod.fst).Nodup) {t f : String} {c : TabClass} (htc : (t, c) ∈ schema) (ty : PgType) :
    ColType { cf with params := [] } (noKeysForced cf schema forced) t f false ty ↔
      ColType { cf with params := [] } forced t f (decide (f ∈ c.pks)) ty := by
  rw [← pgFldType_iff, ← pgFldType_iff]
  unfold pgFldType
  rw [get?_lookup_pair, get?_lookup_pair, noKeysForced_lookup hn htc]
  cases hl : forced.lookup (t, f) with
  | some y => rfl
  | none =>
    simp only
    rw [at_eq_typeOf]
    cases ht : typeOf cf.types t f with
    | some td => simp
    | none =>
      by_cases hp : f ∈ c.pks
      · simp [hp, keyDflt]
      · simp [hp]

theorem noKeys_default (reads : PgType → List Char → Bool) (hn : (schema.map Prod.fst).Nodup) {t f : String} {c : TabClass}
    (htc : (t, c) ∈ schema) (ty : PgType) (d : Cell) :
    DefaultFits reads { cf with params := [] } (noKeysForced cf schema forced) t f ty d ↔
      DefaultFits reads cf forced t f ty d := by
  have : PgNoDefault { cf with params := [] } (noKeysForced cf schema forced) t f d ↔ PgNoDefault cf forced t f d := by
    unfold PgNoDefault
    rw [noKeysForced_lookup hn htc]
    cases hl : forced.lookup (t, f) with
    | some y => exact Iff.rfl
    | none =>
      simp only
      by_cases h : f ∈ c.pks ∧ typeOf cf.types t f = none
      · rw [if_pos h]; simp [h.2]
      · rw [if_neg h]
  unfold DefaultFits
  rw [this]

/-- The type of a column does not depend on the parameters outside the parameters table. -/
theorem coltype_params {t f : String} {key : Bool} {ty : PgType} (hp : ¬ PgParam cf t) :
    ColType { cf with params := [] } forced t f key ty ↔ ColType cf forced t f key ty := by
  rw [← pgFldType_iff, ← pgFldType_iff]
  unfold pgFldType
  unfold PgParam at hp
  cases PyDict.get? forced (t, f) with
  | some y => rfl
  | none =>
    simp only
    rw [if_neg hp]
    simp

/-- **C68.**  `include_ancillary_info=False`: foreign keys do not matter; the columns are the same ones, with the same types
outside the parameters table; there is no primary key and no foreign key. -/
theorem pg_write_schema_bare (reads : PgType → List Char → Bool) (reserved : List (List Char))
    (hn : (schema.map Prod.fst).Nodup) (cat : List PgDecl) :
    ((∃ r, pgWriteSchema reads cenv reserved cf fks forced false schema cat = some r) ↔
      PgNames cenv reserved schema ∧ ForcedOK schema forced ∧
      ∀ t c, (t, c) ∈ schema → (∀ e ∈ cat, e.table ≠ t) ∧
        ∀ f ∈ c.pks ++ c.dfs, ∃ ty, ColType { cf with params := [] } forced t f (decide (f ∈ c.pks)) ty ∧
          DefaultFits reads cf forced t f ty ((c.defaults.lookup f).getD (.num (.fin 0)))) ∧
    ∀ r, pgWriteSchema reads cenv reserved cf fks forced false schema cat = some r →
      ∃ new, r = cat ++ new ∧ (new.map PgDecl.table).Nodup ∧ (∀ t, t ∈ new.map PgDecl.table ↔ t ∈ schema.map Prod.fst) ∧
        ∀ d ∈ new, d.primaryKey = [] ∧ d.refs = [] ∧ ∃ c, (d.table, c) ∈ schema ∧
          d.columns.map PgCol.name = (c.pks ++ c.dfs).map (fun f => pgName cenv f.toList) ∧
          ∀ f ∈ c.pks ++ c.dfs, ∀ col ∈ d.columns, col.name = pgName cenv f.toList →
            (col.notNull = true ↔ Required cf d.table f) ∧
            ColType { cf with params := [] } forced d.table f (decide (f ∈ c.pks)) col.type ∧
            (¬ PgParam cf d.table → ColType cf forced d.table f (decide (f ∈ c.pks)) col.type) := by
  have hkeys : (noKeys schema).map Prod.fst = schema.map Prod.fst := by
    unfold noKeys; rw [List.map_map]; rfl
  have hn' : ((noKeys schema).map Prod.fst).Nodup := hkeys ▸ hn
  have hin : ∀ t c, (t, c) ∈ schema → (t, (⟨[], c.pks ++ c.dfs, c.defaults⟩ : TabClass)) ∈ noKeys schema := by
    intro t c htc
    exact List.mem_map.2 ⟨(t, c), htc, rfl⟩
  have hout : ∀ t c', (t, c') ∈ noKeys schema → ∃ c, (t, c) ∈ schema ∧ c' = ⟨[], c.pks ++ c.dfs, c.defaults⟩ := by
    intro t c' h
    obtain ⟨⟨t', c⟩, htc, he⟩ := List.mem_map.1 h
    simp only [Prod.mk.injEq] at he
    obtain ⟨rfl, rfl⟩ := he
    exact ⟨c, htc, rfl⟩
  have hF : FksOK (noKeys schema) [] := by intro k hk; cases hk
  obtain ⟨o, g1, g2, _, g4, g5⟩ := pgSchemaSql_spec (cenv := cenv) (cf := { cf with params := [] })
    (forced := noKeysForced cf schema forced) (schema := noKeys schema) (fks := []) hn' (by intro k hk; cases hk)
  have hNames : PgNames cenv reserved schema →
      ∀ t c, (t, c) ∈ noKeys schema → ((c.pks ++ c.dfs).map (fun f => pgName cenv f.toList)).Nodup := by
    intro hN t c htc
    obtain ⟨c0, h0, rfl⟩ := hout t c htc
    exact (hN t c0 h0).2.1
  have hac : Acyclic (nonSelf []) := by
    rintro t ⟨b, ⟨k, hk, _⟩, _⟩
    cases hk
  unfold pgWriteSchema
  refine ⟨⟨?_, ?_⟩, ?_⟩
  · rintro ⟨r, h⟩
    by_cases hg : (schema.all (fun tc => pgCompatible cenv reserved tc.1.toList (tc.2.fields.map String.toList)) &&
        goodForced schema forced) = true
    · rw [if_pos hg] at h
      rw [Bool.and_eq_true] at hg
      have hN := (pgNames_iff reserved).1 hg.1
      simp only [Bool.false_eq_true, if_false] at h
      obtain ⟨ds, hds, hr⟩ := Option.bind_eq_some_iff.1 h
      have hty := g5.1 ⟨ds, hds⟩
      obtain ⟨h1, h2, _, _⟩ := (pgRun_schema_iff reads hn' hF (hNames hN) hds cat).1 ⟨r, hr⟩
      refine ⟨hN, (goodForced_iff hn).1 hg.2, ?_⟩
      intro t c htc
      refine ⟨h1 t _ (hin t c htc), ?_⟩
      intro f hf
      obtain ⟨ty, hft⟩ := (hty t _ (hin t c htc)).2 f hf
      exact ⟨ty, (noKeys_coltype hn htc ty).1 hft,
        (noKeys_default reads hn htc ty _).1 (h2 t _ (hin t c htc) f hf ty hft)⟩
    · rw [if_neg hg] at h; cases h
  · rintro ⟨hN, hfo, hall⟩
    rw [if_pos (by rw [Bool.and_eq_true]; exact ⟨(pgNames_iff reserved).2 hN, (goodForced_iff hn).2 hfo⟩)]
    simp only [Bool.false_eq_true, if_false]
    obtain ⟨ds, hds⟩ := g5.2 (by
      intro t c' htc'
      obtain ⟨c, htc, rfl⟩ := hout t c' htc'
      refine ⟨fun f hf => by simp at hf, fun f hf => ?_⟩
      obtain ⟨ty, hty, _⟩ := (hall t c htc).2 f hf
      exact ⟨ty, (noKeys_coltype hn htc ty).2 hty⟩)
    rw [hds]
    simp only [Option.bind_some]
    refine (pgRun_schema_iff reads hn' hF (hNames hN) hds cat).2 ⟨?_, ?_, hac, by intro k hk; cases hk⟩
    · intro t c' htc'
      obtain ⟨c, htc, rfl⟩ := hout t c' htc'
      exact (hall t c htc).1
    · intro t c' htc' f hf ty hty
      obtain ⟨c, htc, rfl⟩ := hout t c' htc'
      obtain ⟨ty', hty', hfit⟩ := (hall t c htc).2 f hf
      have := coltype_unique ((noKeys_coltype hn htc ty).1 hty) hty'
      subst this
      exact (noKeys_default reads hn htc ty _).2 hfit
  · intro r h
    by_cases hg : (schema.all (fun tc => pgCompatible cenv reserved tc.1.toList (tc.2.fields.map String.toList)) &&
        goodForced schema forced) = true
    · rw [if_pos hg] at h
      rw [Bool.and_eq_true] at hg
      have hN := (pgNames_iff reserved).1 hg.1
      simp only [Bool.false_eq_true, if_false] at h
      obtain ⟨ds, hds, hr⟩ := Option.bind_eq_some_iff.1 h
      obtain ⟨k1, k2⟩ := g4 ds hds
      refine ⟨ds, ((pgRun_iff reads cat ds r).1 hr).1, k1 ▸ g1, ?_, ?_⟩
      · intro t; rw [k1, g2, hkeys]
      · intro d hd
        obtain ⟨c', hc', hdd⟩ := k2 d hd
        obtain ⟨c, htc, rfl⟩ := hout _ _ hc'
        obtain ⟨m1, m2, m3⟩ := pgDecl_fields hdd
        obtain ⟨n1, _, _, n4⟩ := pgDecl_columns hdd (hNames hN _ _ hc')
        refine ⟨m2, by rw [m3]; rfl, c, htc, n1, ?_⟩
        intro f hf col hcol he
        rcases n4 f hf col hcol he with ⟨hp, _⟩ | ⟨_, _, hc⟩
        · simp at hp
        · obtain ⟨p1, p2, _, _⟩ := dataCol_type hc
          have hty := (noKeys_coltype hn htc col.type).1 p1
          refine ⟨?_, hty, fun hp => (coltype_params hp).1 hty⟩
          rw [p2, pgNullable_iff]
          rfl
    · rw [if_neg hg] at h; cases h

end

end Ticdat

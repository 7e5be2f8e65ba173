import Verif.Spec.PgSchema
import Verif.Lemmas.DataType
import Verif.Lemmas.FindFK
import Verif.Props.ReplaceTypes
import Verif.Props.Graph
import Verif.Props.Names
/-! # Lemmas on the PostgreSQL tables of a factory -/
set_option linter.unusedSimpArgs false
namespace Ticdat
open Spec

/-- The type given to a field that has neither a forced nor a declared one. -/
def keyDflt (key : Bool) : PgType := if key then .text else .float

theorem truthy_iff (s : Strings) : s.truthy = true ↔ s ≠ .oneOf [] := by
  cases s with
  | any => simp [Strings.truthy]
  | oneOf l => cases l <;> simp [Strings.truthy]

theorem pgFldType_iff (cf : IOConf) (forced : Forced) (t f : String) (key : Bool) (ty : PgType) :
    pgFldType cf forced t f (keyDflt key) = some ty ↔ ColType cf forced t f key ty := by
  unfold pgFldType
  rw [get?_lookup_pair]
  constructor
  · intro h
    cases hf : List.lookup (t, f) forced with
    | some y =>
      rw [hf] at h
      simp only [Option.some.injEq] at h
      subst h
      exact .forced hf
    | none =>
      rw [hf] at h
      simp only at h
      by_cases hp : t = "parameters" ∧ cf.params ≠ []
      · rw [if_pos hp] at h
        simp only [Option.some.injEq] at h
        subst h
        exact .param hf hp
      · rw [if_neg hp, at_eq_typeOf] at h
        cases ht : typeOf cf.types t f with
        | none =>
          rw [ht] at h
          simp only [Option.some.injEq] at h
          subst h
          cases key with
          | true => exact .key hf hp ht rfl
          | false => exact .data hf hp ht rfl
        | some td =>
          rw [ht] at h
          simp only at h
          by_cases hd : td.datetime = true
          · rw [if_pos hd] at h
            simp only [Option.some.injEq] at h
            subst h
            exact .datetime hf hp ht hd
          · rw [if_neg hd] at h
            have hd' : td.datetime = false := by simpa using hd
            by_cases hs : td.strings.truthy = true
            · cases hna : td.numberAllowed with
              | true => simp [hs, hna] at h
              | false =>
                simp [hs, hna] at h
                subst h
                exact .strings hf hp ht hd' ((truthy_iff _).1 hs) hna
            · have hs' : td.strings = .oneOf [] := Classical.byContradiction (fun hc => hs ((truthy_iff _).2 hc))
              have hs2 : td.strings.truthy = false := by simpa using hs
              cases hna : td.numberAllowed with
              | false => simp [hs2, hna] at h
              | true =>
                cases hi : td.mustBeInt with
                | true =>
                  simp [hs2, hna, hi] at h
                  subst h
                  exact .int hf hp ht hd' hs' hna hi
                | false =>
                  simp [hs2, hna, hi] at h
                  subst h
                  exact .float hf hp ht hd' hs' hna hi
  · intro h
    cases h with
    | forced h => rw [h]
    | param h hp => unfold PgParam at hp; rw [h]; simp only; rw [if_pos hp]
    | key h hp ht hk =>
      unfold PgParam at hp; rw [h]; simp only; rw [if_neg hp, at_eq_typeOf, ht]; simp [hk, keyDflt]
    | data h hp ht hk =>
      unfold PgParam at hp; rw [h]; simp only; rw [if_neg hp, at_eq_typeOf, ht]; simp [hk, keyDflt]
    | datetime h hp ht hd =>
      unfold PgParam at hp; rw [h]; simp only; rw [if_neg hp, at_eq_typeOf, ht]; simp [hd]
    | strings h hp ht hd hs hna =>
      unfold PgParam at hp; rw [h]; simp only; rw [if_neg hp, at_eq_typeOf, ht]; simp [hd, (truthy_iff _).2 hs, hna]
    | int h hp ht hd hs hna hi =>
      unfold PgParam at hp; rw [h]; simp only; rw [if_neg hp, at_eq_typeOf, ht]; simp [hd, hs, hna, hi, Strings.truthy]
    | float h hp ht hd hs hna hi =>
      unfold PgParam at hp; rw [h]; simp only; rw [if_neg hp, at_eq_typeOf, ht]; simp [hd, hs, hna, hi, Strings.truthy]

theorem comparable_iff (a b : PgType) : a.comparable b = true ↔ SameFamily a b := by
  constructor
  · intro h
    cases a <;> cases b <;>
      first
      | exact absurd h (by decide)
      | exact .text
      | exact .bytes
      | exact .number (by decide) (by decide)
      | exact .truth (by decide) (by decide)
      | exact .time (by decide) (by decide)
  · intro h
    cases h with
    | text => rfl
    | bytes => rfl
    | number ha hb => cases a <;> simp at ha <;> cases b <;> simp at hb <;> rfl
    | truth ha hb => cases a <;> simp at ha <;> cases b <;> simp at hb <;> rfl
    | time ha hb => cases a <;> simp at ha <;> cases b <;> simp at hb <;> rfl

theorem pgNullable_iff (cf : IOConf) (t f : String) : (!pgNullable cf t f) = true ↔ Required cf t f := by
  unfold pgNullable Required
  rw [at_eq_typeOf]
  cases typeOf cf.types t f with
  | none => simp
  | some td =>
    cases h1 : td.numberAllowed <;> cases h2 : td.nullable <;> simp [h1, h2]

theorem pgDefaultSql_none (cf : IOConf) (forced : Forced) (t f : String) (d : Cell) :
    pgDefaultSql cf forced t f d = none ↔ PgNoDefault cf forced t f d := by
  unfold pgDefaultSql PgNoDefault
  rw [get?_lookup_pair, at_eq_typeOf]
  have hs : d.stringish = true ↔ ∃ s, d = .str s := by cases d <;> simp [Cell.stringish]
  have hd : ((typeOf cf.types t f).map (·.datetime)).getD false = true ↔
      ∃ td, typeOf cf.types t f = some td ∧ td.datetime = true := by
    cases typeOf cf.types t f <;> simp
  rw [← hs, ← hd]
  by_cases h1 : List.lookup (t, f) forced = some .text ∧ d.stringish = true
  · rw [if_pos h1]; simp [h1]
  · rw [if_neg h1]
    by_cases h2 : ((typeOf cf.types t f).map (·.datetime)).getD false = true ∨ List.lookup (t, f) forced = some .bytea
    · rw [if_pos h2]; exact ⟨fun _ => ⟨h1, h2⟩, fun _ => rfl⟩
    · rw [if_neg h2]
      constructor
      · intro h; cases h
      · intro h; exact absurd h.2 h2

/-- A truth value type comes from forcing. -/
theorem coltype_bool {cf : IOConf} {forced : Forced} {t f : String} {key : Bool} {ty : PgType}
    (h : ColType cf forced t f key ty) :
    ty ∈ [PgType.bool, .boolean] ↔ forced.lookup (t, f) = some .bool ∨ forced.lookup (t, f) = some .boolean := by
  have hn : forced.lookup (t, f) = none → ¬ (forced.lookup (t, f) = some .bool ∨ forced.lookup (t, f) = some .boolean) := by
    intro h; rw [h]; simp
  cases h with
  | forced h => rw [h]; simp
  | param h => exact ⟨fun h => by simp at h, fun h' => absurd h' (hn h)⟩
  | key h => exact ⟨fun h => by simp at h, fun h' => absurd h' (hn h)⟩
  | data h => exact ⟨fun h => by simp at h, fun h' => absurd h' (hn h)⟩
  | datetime h => exact ⟨fun h => by simp at h, fun h' => absurd h' (hn h)⟩
  | strings h => exact ⟨fun h => by simp at h, fun h' => absurd h' (hn h)⟩
  | int h => exact ⟨fun h => by simp at h, fun h' => absurd h' (hn h)⟩
  | float h => exact ⟨fun h => by simp at h, fun h' => absurd h' (hn h)⟩

theorem pgDefaultOk_iff (reads : PgType → List Char → Bool) (cf : IOConf) (forced : Forced) (t f : String) (key : Bool)
    (ty : PgType) (d : Cell) (hty : ColType cf forced t f key ty) :
    ((pgDefaultSql cf forced t f d).map (pgDefaultOk reads ty)).getD true = true ↔
      DefaultFits reads cf forced t f ty d := by
  unfold DefaultFits
  by_cases hn : PgNoDefault cf forced t f d
  · rw [(pgDefaultSql_none cf forced t f d).2 hn]; simp [hn]
  · have hsome : pgDefaultSql cf forced t f d = some (pgDefault cf forced t f d) := by
      have h0 : pgDefaultSql cf forced t f d ≠ none := fun h => hn ((pgDefaultSql_none cf forced t f d).1 h)
      unfold pgDefaultSql at h0 ⊢
      split
      · rfl
      · split
        · rename_i h1 h2
          rw [if_neg h1, if_pos h2] at h0
          exact absurd rfl h0
        · rfl
    rw [hsome]
    simp only [Option.map_some, Option.getD_some, hn, false_or]
    unfold pgDefault
    rw [get?_lookup_pair]
    by_cases hb : ty ∈ [PgType.bool, .boolean]
    · rw [if_pos ((coltype_bool hty).1 hb)]
      simp only [hb, true_or, iff_true, pgDefaultOk]
      simp only [List.mem_cons, List.not_mem_nil, or_false] at hb
      rcases hb with rfl | rfl <;> rfl
    · rw [if_neg (fun h => hb ((coltype_bool hty).2 h))]
      simp only [hb, false_or]
      by_cases h0 : d = .none ∨ d = .str ""
      · rw [if_pos h0]
        simp only [pgDefaultOk, true_iff]
        rcases h0 with h | h
        · exact Or.inl h
        · exact Or.inr (Or.inl h)
      · rw [if_neg h0]
        have h1 : d ≠ .none := fun h => h0 (Or.inl h)
        have h2 : d ≠ .str "" := fun h => h0 (Or.inr h)
        simp only [h1, h2, false_or]
        have hb1 : ty ≠ .bool := by intro h; exact hb (by simp [h])
        have hb2 : ty ≠ .boolean := by intro h; exact hb (by simp [h])
        cases d with
        | none => exact absurd rfl h1
        | nan => cases cf.flag <;> simp [pgDefaultOk]
        | bool b => cases cf.flag <;> simp [pgDefaultOk, hb1, hb2]
        | dt n => cases cf.flag <;> simp [pgDefaultOk]
        | other n => cases cf.flag <;> simp [pgDefaultOk]
        | str s =>
          simp only [Cell.str.injEq, reduceCtorEq, false_and, exists_false, or_false]
          have hq : pgDefaultOk reads ty (.quoted s.toList) = true ↔
              ∃ v, readLit (s.toList ++ [quote]) = some (v, []) ∧ (ty = .text ∨ reads ty v = true) := by
            simp only [pgDefaultOk]
            split
            · rename_i v hv
              rw [hv]
              simp
            · rename_i hv
              constructor
              · intro h; cases h
              · rintro ⟨v, h, _⟩; exact absurd h (hv v)
          have : (pgDefaultOk reads ty (match Cell.str s, cf.flag with
              | .num .pinf, .num q => .bare (.num (.fin q))
              | .num .ninf, .num q => .bare (.num (.fin (-q)))
              | .str s, _ => .quoted s.toList
              | d, _ => .bare d)) = pgDefaultOk reads ty (.quoted s.toList) := by cases cf.flag <;> rfl
          rw [this, hq]
          constructor
          · rintro ⟨v, h⟩; exact ⟨s, v, rfl, h⟩
          · rintro ⟨s', v, rfl, h⟩; exact ⟨v, h⟩
        | num x =>
          cases x <;> cases cf.flag <;> simp [pgDefaultOk]

theorem mem_of_mapM {A B : Type} {g : A → Option B} {l : List A} {r : List B} (h : l.mapM g = some r) {b : B} (hb : b ∈ r) :
    ∃ a ∈ l, g a = some b := by
  rw [mapM_eq_some_iff] at h
  have : some b ∈ l.map g := by rw [h]; exact List.mem_map.2 ⟨b, hb, rfl⟩
  exact List.mem_map.1 this

theorem mem_of_mapM' {A B : Type} {g : A → Option B} {l : List A} {r : List B} (h : l.mapM g = some r) {a : A} (ha : a ∈ l) :
    ∃ b ∈ r, g a = some b := by
  rw [mapM_eq_some_iff] at h
  have : g a ∈ r.map some := by rw [← h]; exact List.mem_map.2 ⟨a, ha, rfl⟩
  obtain ⟨b, hb, he⟩ := List.mem_map.1 this
  exact ⟨b, hb, he.symm⟩

theorem map_of_mapM {A B C : Type} {g : A → Option B} {l : List A} {r : List B} (n : B → C) (m : A → C)
    (h : l.mapM g = some r) (hg : ∀ a b, g a = some b → n b = m a) : r.map n = l.map m := by
  rw [mapM_eq_some_iff] at h
  induction l generalizing r with
  | nil => cases r with
    | nil => rfl
    | cons b r => simp at h
  | cons a l ih =>
    cases r with
    | nil => simp at h
    | cons b r =>
      simp only [List.map_cons, List.cons.injEq] at h ⊢
      exact ⟨hg a b h.1, ih h.2⟩

section
variable (cenv : CaseEnv) (cf : IOConf) (fks : List FK) (forced : Forced) (t : String) (c : TabClass)

/-- Every field has a column type. -/
def AllTyped : Prop :=
  (∀ f ∈ c.pks, ∃ ty, ColType cf forced t f true ty) ∧ ∀ f ∈ c.dfs, ∃ ty, ColType cf forced t f false ty

theorem pgDecl_some_iff : (∃ d, pgDecl cenv cf fks forced t c = some d) ↔ AllTyped cf forced t c := by
  constructor
  · rintro ⟨d, h⟩
    unfold pgDecl at h
    cases hk : c.pks.mapM (pgKeyCol cenv cf forced t) with
    | none => rw [hk] at h; simp at h
    | some ks =>
      rw [hk] at h
      simp only [Option.bind_some] at h
      cases hd : c.dfs.mapM (pgDataCol cenv cf forced t c) with
      | none => rw [hd] at h; simp at h
      | some ds =>
        constructor
        · intro f hf
          obtain ⟨col, _, hc⟩ := mem_of_mapM' hk hf
          unfold pgKeyCol at hc
          obtain ⟨ty, hty, _⟩ := Option.map_eq_some_iff.1 hc
          exact ⟨ty, (pgFldType_iff cf forced t f true ty).1 hty⟩
        · intro f hf
          obtain ⟨col, _, hc⟩ := mem_of_mapM' hd hf
          unfold pgDataCol at hc
          obtain ⟨ty, hty, _⟩ := Option.map_eq_some_iff.1 hc
          exact ⟨ty, (pgFldType_iff cf forced t f false ty).1 hty⟩
  · rintro ⟨h1, h2⟩
    obtain ⟨ks, hk⟩ := mapM_some_of_forall (pgKeyCol cenv cf forced t) c.pks (by
      intro f hf
      obtain ⟨ty, hty⟩ := h1 f hf
      have := (pgFldType_iff cf forced t f true ty).2 hty
      simp only [keyDflt, if_true] at this
      simp [pgKeyCol, this])
    obtain ⟨ds, hd⟩ := mapM_some_of_forall (pgDataCol cenv cf forced t c) c.dfs (by
      intro f hf
      obtain ⟨ty, hty⟩ := h2 f hf
      have := (pgFldType_iff cf forced t f false ty).2 hty
      simp only [keyDflt, Bool.false_eq_true, if_false] at this
      simp [pgDataCol, this])
    exact ⟨_, by unfold pgDecl; rw [hk, hd]; rfl⟩

variable {cenv cf fks forced t c}

/-- The columns of a table, by field. -/
theorem pgDecl_columns {d : PgDecl} (h : pgDecl cenv cf fks forced t c = some d)
    (hn : ((c.pks ++ c.dfs).map (fun f => pgName cenv f.toList)).Nodup) :
    d.columns.map PgCol.name = (c.pks ++ c.dfs).map (fun f => pgName cenv f.toList) ∧
    (∀ f ∈ c.pks, ∃ col ∈ d.columns, pgKeyCol cenv cf forced t f = some col) ∧
    (∀ f ∈ c.dfs, ∃ col ∈ d.columns, pgDataCol cenv cf forced t c f = some col) ∧
    ∀ f ∈ c.pks ++ c.dfs, ∀ col ∈ d.columns, col.name = pgName cenv f.toList →
      (f ∈ c.pks ∧ f ∉ c.dfs ∧ pgKeyCol cenv cf forced t f = some col) ∨
      (f ∈ c.dfs ∧ f ∉ c.pks ∧ pgDataCol cenv cf forced t c f = some col) := by
  unfold pgDecl at h
  cases hk : c.pks.mapM (pgKeyCol cenv cf forced t) with
  | none => rw [hk] at h; simp at h
  | some ks =>
    rw [hk] at h
    simp only [Option.bind_some] at h
    cases hd : c.dfs.mapM (pgDataCol cenv cf forced t c) with
    | none => rw [hd] at h; simp at h
    | some ds =>
      rw [hd] at h
      simp only [Option.map_some, Option.some.injEq] at h
      subst h
      have hnk : ∀ f col, pgKeyCol cenv cf forced t f = some col → col.name = pgName cenv f.toList := by
        intro f col hc
        unfold pgKeyCol at hc
        obtain ⟨ty, _, rfl⟩ := Option.map_eq_some_iff.1 hc
        rfl
      have hnd : ∀ f col, pgDataCol cenv cf forced t c f = some col → col.name = pgName cenv f.toList := by
        intro f col hc
        unfold pgDataCol at hc
        obtain ⟨ty, _, rfl⟩ := Option.map_eq_some_iff.1 hc
        rfl
      have hdis : ∀ f, f ∈ c.pks → f ∉ c.dfs := fun f h1 h2 =>
        (List.nodup_append.1 (nodup_of_map _ hn)).2.2 f h1 f h2 rfl
      refine ⟨?_, ?_, ?_, ?_⟩
      · simp only [List.map_append]
        rw [map_of_mapM PgCol.name _ hk hnk, map_of_mapM PgCol.name _ hd hnd]
      · intro f hf
        obtain ⟨col, hc, he⟩ := mem_of_mapM' hk hf
        exact ⟨col, List.mem_append_left _ hc, he⟩
      · intro f hf
        obtain ⟨col, hc, he⟩ := mem_of_mapM' hd hf
        exact ⟨col, List.mem_append_right _ hc, he⟩
      · intro f hf col hcol hname
        rcases List.mem_append.1 hcol with hcol | hcol
        · obtain ⟨g, hg, he⟩ := mem_of_mapM hk hcol
          have : g = f := inj_of_nodup_map _ hn (List.mem_append_left _ hg) hf (by rw [← hnk g col he]; exact hname)
          subst this
          exact Or.inl ⟨hg, hdis g hg, he⟩
        · obtain ⟨g, hg, he⟩ := mem_of_mapM hd hcol
          have : g = f := inj_of_nodup_map _ hn (List.mem_append_right _ hg) hf (by rw [← hnd g col he]; exact hname)
          subst this
          exact Or.inr ⟨hg, fun h => hdis g h hg, he⟩

theorem pgDecl_fields {d : PgDecl} (h : pgDecl cenv cf fks forced t c = some d) :
    d.table = t ∧ d.primaryKey = c.pks.map (fun f => pgName cenv f.toList) ∧
      d.refs = (fks.filter (fun k => k.native = t)).map (pgRef cenv) := by
  unfold pgDecl at h
  obtain ⟨ks, _, h⟩ := Option.bind_eq_some_iff.1 h
  obtain ⟨ds, _, rfl⟩ := Option.map_eq_some_iff.1 h
  exact ⟨rfl, rfl, rfl⟩

theorem keyCol_type {f : String} {col : PgCol} (h : pgKeyCol cenv cf forced t f = some col) :
    ColType cf forced t f true col.type ∧ col.notNull = false ∧ col.dflt = none ∧ col.name = pgName cenv f.toList := by
  unfold pgKeyCol at h
  obtain ⟨ty, hty, rfl⟩ := Option.map_eq_some_iff.1 h
  exact ⟨(pgFldType_iff cf forced t f true ty).1 hty, rfl, rfl, rfl⟩

theorem dataCol_type {f : String} {col : PgCol} (h : pgDataCol cenv cf forced t c f = some col) :
    ColType cf forced t f false col.type ∧ col.notNull = (!pgNullable cf t f) ∧
      col.dflt = pgDefaultSql cf forced t f (c.dflt f) ∧ col.name = pgName cenv f.toList := by
  unfold pgDataCol at h
  obtain ⟨ty, hty, rfl⟩ := Option.map_eq_some_iff.1 h
  exact ⟨(pgFldType_iff cf forced t f false ty).1 hty, rfl, rfl, rfl⟩

theorem coltype_unique {cf : IOConf} {forced : Forced} {t f : String} {key : Bool} {a b : PgType}
    (ha : ColType cf forced t f key a) (hb : ColType cf forced t f key b) : a = b := by
  have h1 := (pgFldType_iff cf forced t f key a).2 ha
  have h2 := (pgFldType_iff cf forced t f key b).2 hb
  rw [h1] at h2
  exact Option.some.inj h2

theorem declFor_of_pgDecl {d : PgDecl} (h : pgDecl cenv cf fks forced t c = some d)
    (hn : ((c.pks ++ c.dfs).map (fun f => pgName cenv f.toList)).Nodup)
    (hm : ∀ k ∈ fks, (k.mapping.map Prod.fst).Nodup) : DeclFor cenv cf fks forced t c d := by
  obtain ⟨h1, _, _, h4⟩ := pgDecl_columns h hn
  obtain ⟨g1, g2, g3⟩ := pgDecl_fields h
  refine ⟨g1, h1, ?_, ?_, ?_, g2, ?_⟩
  · intro f hf col hc he
    rcases h4 f hf col hc he with ⟨ha, hb, hcol⟩ | ⟨ha, hb, hcol⟩
    · rw [decide_eq_true ha]; exact (keyCol_type hcol).1
    · rw [decide_eq_false hb]; exact (dataCol_type hcol).1
  · intro f hf col hc he
    rcases h4 f hf col hc he with ⟨ha, hb, hcol⟩ | ⟨ha, hb, hcol⟩
    · rw [(keyCol_type hcol).2.1]; simp [hb]
    · rw [(dataCol_type hcol).2.1, pgNullable_iff]; simp [ha]
  · intro f hf col hc he
    rcases h4 f hf col hc he with ⟨ha, hb, hcol⟩ | ⟨ha, hb, hcol⟩
    · rw [(keyCol_type hcol).2.2.1]; simp [ha]
    · rw [(dataCol_type hcol).2.2.1, pgDefaultSql_none, TabClass.dflt, get?_eq_lookup]; simp [hb]
  · rw [g3]
    apply List.map_congr_left
    intro k hk
    unfold pgRef
    rw [PyDict.ofList_of_nodup _ (hm k (List.mem_filter.1 hk).1)]

/-- The type of a column of a table, by field. -/
theorem typeOf_field {d : PgDecl} (h : pgDecl cenv cf fks forced t c = some d)
    (hn : ((c.pks ++ c.dfs).map (fun f => pgName cenv f.toList)).Nodup) {f : String} (hf : f ∈ c.pks ++ c.dfs) (ty : PgType) :
    d.typeOf (pgName cenv f.toList) = some ty ↔ ColType cf forced t f (decide (f ∈ c.pks)) ty := by
  obtain ⟨h1, h2, h3, h4⟩ := pgDecl_columns h hn
  unfold PgDecl.typeOf
  have hex : ∃ col ∈ d.columns, col.name = pgName cenv f.toList := by
    rcases List.mem_append.1 hf with hf | hf
    · obtain ⟨col, hc, he⟩ := h2 f hf
      exact ⟨col, hc, (keyCol_type he).2.2.2⟩
    · obtain ⟨col, hc, he⟩ := h3 f hf
      exact ⟨col, hc, (dataCol_type he).2.2.2⟩
  have hall : ∀ col ∈ d.columns, col.name = pgName cenv f.toList → ColType cf forced t f (decide (f ∈ c.pks)) col.type := by
    intro col hc he
    rcases h4 f hf col hc he with ⟨ha, hb, hcol⟩ | ⟨ha, hb, hcol⟩
    · rw [decide_eq_true ha]; exact (keyCol_type hcol).1
    · rw [decide_eq_false hb]; exact (dataCol_type hcol).1
  cases hfind : d.columns.find? (fun c => c.name = pgName cenv f.toList) with
  | none =>
    obtain ⟨col, hc, he⟩ := hex
    have := List.find?_eq_none.1 hfind col hc
    simp [he] at this
  | some col =>
    have hm := List.mem_of_find?_eq_some hfind
    have hp := List.find?_some hfind
    simp only [decide_eq_true_eq] at hp
    have := hall col hm hp
    simp only [Option.map_some, Option.some.injEq]
    exact ⟨fun h => h ▸ this, fun h => coltype_unique this h⟩

end

/-- Running the statements: the tables are added in order, and each statement is accepted given those before. -/
theorem pgRun_iff (reads : PgType → List Char → Bool) (cat ds r : List PgDecl) :
    pgRun reads cat ds = some r ↔ r = cat ++ ds ∧ ∀ pre d post, ds = pre ++ d :: post →
      (∀ e ∈ cat ++ pre, e.table ≠ d.table) ∧ (d.columns.map PgCol.name).Nodup ∧
      (∀ c ∈ d.columns, (c.dflt.map (pgDefaultOk reads c.type)).getD true = true) ∧
      ∀ k ∈ d.refs, pgRefOk (cat ++ pre) d k = true := by
  induction ds generalizing cat with
  | nil =>
    simp only [pgRun, List.foldlM_nil, List.append_nil]
    constructor
    · intro h
      refine ⟨(Option.some.inj h).symm, fun pre d post h => ?_⟩
      exact absurd h.symm (by simp)
    · rintro ⟨h, _⟩; rw [h]; rfl
  | cons d ds ih =>
    have hstep : pgRun reads cat (d :: ds) = (pgMake reads cat d).bind (fun c' => pgRun reads c' ds) := by
      simp only [pgRun, List.foldlM_cons]; rfl
    rw [hstep]
    have hmk : pgMake reads cat d = if (∀ e ∈ cat, e.table ≠ d.table) ∧ (d.columns.map PgCol.name).Nodup ∧
        (∀ c ∈ d.columns, (c.dflt.map (pgDefaultOk reads c.type)).getD true = true) ∧
        (∀ k ∈ d.refs, pgRefOk cat d k = true) then some (cat ++ [d]) else none := by
      unfold pgMake
      by_cases h1 : cat.any (fun e => e.table = d.table) = true
      · rw [if_pos h1, if_neg]
        rintro ⟨h, _⟩
        obtain ⟨e, he, hh⟩ := List.any_eq_true.1 h1
        exact h e he (by simpa using hh)
      · rw [if_neg h1]
        have h1' : ∀ e ∈ cat, e.table ≠ d.table := fun e he hh => h1 (List.any_eq_true.2 ⟨e, he, by simpa using hh⟩)
        by_cases h2 : (d.columns.map PgCol.name).Nodup
        · rw [if_neg (by simp [h2])]
          by_cases h3 : d.columns.all (fun c => (c.dflt.map (pgDefaultOk reads c.type)).getD true) = true
          · rw [if_neg (by simp [h3])]
            by_cases h4 : d.refs.all (pgRefOk cat d) = true
            · rw [if_neg (by simp [h4]), if_pos ⟨h1', h2, List.all_eq_true.1 h3, List.all_eq_true.1 h4⟩]
            · rw [if_pos (by simpa using h4), if_neg]
              rintro ⟨_, _, _, h⟩; exact h4 (List.all_eq_true.2 h)
          · rw [if_pos (by simpa using h3), if_neg]
            rintro ⟨_, _, h, _⟩; exact h3 (List.all_eq_true.2 h)
        · rw [if_pos (by simp [h2]), if_neg]
          rintro ⟨_, h, _⟩; exact h2 h
    rw [hmk]
    split
    · rename_i hok
      simp only [Option.bind_some]
      rw [ih]
      constructor
      · rintro ⟨h1, h2⟩
        refine ⟨by rw [h1]; simp, ?_⟩
        intro pre e post he
        cases pre with
        | nil =>
          simp only [List.nil_append, List.cons.injEq] at he
          obtain ⟨rfl, rfl⟩ := he
          simpa using hok
        | cons x pre =>
          simp only [List.cons_append, List.cons.injEq] at he
          obtain ⟨rfl, rfl⟩ := he
          have := h2 pre e post rfl
          simpa using this
      · rintro ⟨h1, h2⟩
        refine ⟨by rw [h1]; simp, ?_⟩
        intro pre e post he
        have := h2 (d :: pre) e post (by rw [he]; rfl)
        simpa using this
    · rename_i hbad
      constructor
      · intro h; simp at h
      · rintro ⟨_, h2⟩
        have := h2 [] d ds rfl
        simp only [List.append_nil] at this
        exact absurd this hbad

end Ticdat

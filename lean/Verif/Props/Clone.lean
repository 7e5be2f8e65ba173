import Verif.Spec.Clone
import Verif.Props.SchemaTrip
/-!
# C35: edited clones
-/
set_option linter.unusedSectionVars false
set_option linter.unusedSimpArgs false
namespace Ticdat
open Spec PyDict
variable {V K : Type}

theorem get?_map_val {A B C : Type} [DecidableEq A] (g : A → B → C) (d : PyDict A B) (t : A) :
    get? (d.map (fun p => (p.1, g p.1 p.2))) t = (get? d t).map (g t) := by
  induction d with
  | nil => rfl
  | cons p d ih =>
    simp only [List.map_cons, get?, ih]
    by_cases e : p.1 = t
    · simp [e]
    · simp [e]

theorem get?_filter_key {A B : Type} [DecidableEq A] (q : A → Bool) (d : PyDict A B) (t : A) :
    get? (d.filter (fun p => q p.1)) t = if q t then get? d t else none := by
  induction d with
  | nil => simp [get?]
  | cons p d ih =>
    rw [List.filter_cons]
    by_cases e : p.1 = t
    · subst e
      cases hq : q p.1 with
      | true => simp [get?]
      | false =>
        simp only [Bool.false_eq_true, if_false]
        rw [ih, hq]
        simp
    · cases hq : q p.1 with
      | true => simp [get?, e, ih]
      | false => simp [get?, e, ih]

theorem keys_map_val {A B C : Type} [DecidableEq A] (g : A → B → C) (d : PyDict A B) :
    keys (d.map (fun p => (p.1, g p.1 p.2))) = keys d := by
  simp [keys, Function.comp_def]

theorem keys_filter_sublist {A B : Type} [DecidableEq A] (q : A × B → Bool) (d : PyDict A B) :
    (keys (d.filter q)).Sublist (keys d) := List.Sublist.map _ List.filter_sublist

theorem keepEntries_get2 {A : Type} (tables : List String) (removed : List (String × String))
    (d : PyDict String (PyDict String A)) (t fld : String) :
    get2 (keepEntries tables removed d) t fld = if t ∈ tables ∧ (t, fld) ∉ removed then get2 d t fld else none := by
  unfold keepEntries get2
  rw [get?_map_val (fun (t : String) (r : PyDict String A) => r.filter (fun q => decide ((t, q.1) ∉ removed))),
    get?_filter_key (fun t => decide (t ∈ tables))]
  by_cases h1 : t ∈ tables
  · simp only [h1, decide_true, if_true, true_and]
    cases get? d t with
    | none => simp
    | some r =>
      simp only [Option.map_some, Option.bind_some]
      rw [get?_filter_key (fun x => decide ((t, x) ∉ removed))]
      by_cases h2 : (t, fld) ∈ removed <;> simp [h2]
  · simp [h1]

theorem keepEntries_dict {A : Type} (tables : List String) (removed : List (String × String))
    (d : PyDict String (PyDict String A)) (h : IsDict2 d) : IsDict2 (keepEntries tables removed d) := by
  constructor
  · unfold keepEntries
    rw [keys_map_val (fun (t : String) (r : PyDict String A) => r.filter (fun q => decide ((t, q.1) ∉ removed)))]
    exact (keys_filter_sublist _ _).nodup h.1
  · intro p hp
    unfold keepEntries at hp
    obtain ⟨q, hq, rfl⟩ := List.mem_map.1 hp
    exact (keys_filter_sublist _ _).nodup (h.2 q (List.mem_filter.1 hq).1)

theorem fkok_iff {tables : PyDict String Decl} (hn : (keys tables).Nodup) (k : FK) : FKOK (plainTables tables) k ↔
    k.mapping ≠ [] ∧ (k.mapping.map Prod.fst).Nodup ∧
      ∀ p ∈ k.mapping, HasField tables k.native p.1 ∧ HasField tables k.foreign p.2 := by
  have field : ∀ t fld, fld ∈ Schema.pks (plainTables tables) t ++ Schema.dfs (plainTables tables) t ↔ HasField tables t fld := by
    intro t fld
    unfold Schema.pks Schema.dfs HasField
    cases e : get? (plainTables tables) t with
    | some ts =>
      rw [plain_get? hn] at e
      simp only [e, Option.some.injEq, Decl.fields.injEq]
      constructor
      · intro h; exact ⟨_, _, ⟨rfl, rfl⟩, h⟩
      · rintro ⟨_, _, ⟨rfl, rfl⟩, h⟩; exact h
    | none =>
      simp only [List.append_nil, List.not_mem_nil, false_iff]
      rintro ⟨pks, dfs, h, _⟩
      rw [← plain_get? hn t ⟨pks, dfs⟩, e] at h
      cases h
  have mem : ∀ t fld, HasField tables t fld → t ∈ keys (plainTables tables) := by
    rintro t fld ⟨pks, dfs, h, _⟩
    exact (schema_mem _ _).2 ⟨⟨pks, dfs⟩, (plain_get? hn t ⟨pks, dfs⟩).2 h⟩
  constructor
  · intro h
    exact ⟨h.nonempty, h.native_nodup, fun p hp => ⟨(field _ _).1 (h.native_fields p hp), (field _ _).1 (h.foreign_fields p hp)⟩⟩
  · rintro ⟨h1, h2, h3⟩
    obtain ⟨p, hp⟩ := List.exists_mem_of_ne_nil _ h1
    exact ⟨mem _ _ (h3 p hp).1, mem _ _ (h3 p hp).2, h1, h2, fun p hp => (field _ _).2 (h3 p hp).1, fun p hp => (field _ _).2 (h3 p hp).2⟩

theorem goodTableNames_sub (env : CaseEnv) {a b : List String} (ha : a.Nodup) (h : ∀ t ∈ a, t ∈ b)
    (hb : goodTableNames env (b.map String.toList) = true) : goodTableNames env (a.map String.toList) = true := by
  rw [goodTableNames_iff] at hb ⊢
  obtain ⟨h1, h2, h3⟩ := hb
  have hm : ∀ t, t ∈ a.map String.toList → t ∈ b.map String.toList := by
    intro t ht
    obtain ⟨x, hx, rfl⟩ := List.mem_map.1 ht
    exact List.mem_map.2 ⟨x, h x hx, rfl⟩
  refine ⟨fun t ht => h1 t (hm t ht), fun t ht => h2 t (hm t ht), ?_⟩
  apply nodup_map_of_inj _ (nodup_map_of_inj _ ha (fun _ _ _ _ e => String.toList_inj.1 e))
  intro x hx y hy e
  exact inj_of_nodup_map _ h3 (hm x hx) (hm y hy) e

theorem goodDecl_iff (case : CaseEnv) (pks dfs : List String) : goodDecl case (.fields pks dfs) = true ↔
    pks ++ dfs ≠ [] ∧ (pks ++ dfs).Nodup ∧ ((pks ++ dfs).map (fun f => case.lower f.toList)).Nodup := by
  simp only [goodDecl, and_assoc, Bool.and_eq_true, decide_eq_true_eq]

theorem keepFields_good (case : CaseEnv) (removed : List (String × String)) (t : String) (pks dfs : List String)
    (h : goodDecl case (.fields pks dfs) = true) (hne : ∃ x ∈ pks ++ dfs, (t, x) ∉ removed) :
    goodDecl case (Decl.keepFields removed t (.fields pks dfs)) = true := by
  unfold Decl.keepFields
  rw [goodDecl_iff] at h ⊢
  rw [← List.filter_append]
  have hs : ((pks ++ dfs).filter (fun fld => decide ((t, fld) ∉ removed))).Sublist (pks ++ dfs) := List.filter_sublist
  refine ⟨?_, hs.nodup h.2.1, (hs.map _).nodup h.2.2⟩
  obtain ⟨x, hx, hr⟩ := hne
  exact List.ne_nil_of_mem (List.mem_filter.2 ⟨hx, by simpa using hr⟩)

/-- The tables of a restricted schema. -/
theorem restricted_get? (T : PyDict String Decl) (keep : List String) (removed : List (String × String)) (t : String) :
    get? ((T.filter (fun p => decide (p.1 ∈ keep))).map (fun p => (p.1, p.2.keepFields removed p.1))) t =
      if t ∈ keep then (get? T t).map (Decl.keepFields removed t) else none := by
  rw [get?_map_val (fun t d => Decl.keepFields removed t d), get?_filter_key (fun t => decide (t ∈ keep))]
  by_cases h : t ∈ keep <;> simp [h]

theorem restricted_hasField (T : PyDict String Decl) (keep : List String) (removed : List (String × String)) (t fld : String) :
    HasField ((T.filter (fun p => decide (p.1 ∈ keep))).map (fun p => (p.1, p.2.keepFields removed p.1))) t fld ↔
      t ∈ keep ∧ HasField T t fld ∧ (t, fld) ∉ removed := by
  unfold HasField
  rw [restricted_get?]
  by_cases h : t ∈ keep
  · simp only [h, if_true, true_and]
    cases e : get? T t with
    | none => simp
    | some d =>
      cases d with
      | generic => simp [Decl.keepFields]
      | fields pks dfs =>
        simp only [Option.map_some, Decl.keepFields, Option.some.injEq, Decl.fields.injEq]
        constructor
        · rintro ⟨_, _, ⟨rfl, rfl⟩, h⟩
          rw [← List.filter_append, List.mem_filter, decide_eq_true_eq] at h
          exact ⟨⟨_, _, ⟨rfl, rfl⟩, h.1⟩, h.2⟩
        · rintro ⟨⟨_, _, ⟨rfl, rfl⟩, h1⟩, h2⟩
          refine ⟨_, _, ⟨rfl, rfl⟩, ?_⟩
          rw [← List.filter_append, List.mem_filter, decide_eq_true_eq]
          exact ⟨h1, h2⟩
  · simp [h]

/-- The schema of `f` restricted to `keep` without `removed`. -/
def restrictedOf (f : Factory V K) (keep : List String) (removed : List (String × String)) : FullSchema :=
  { f.schema with
    tables := (f.tables.filter (fun p => decide (p.1 ∈ keep))).map (fun p => (p.1, p.2.keepFields removed p.1))
    fks := f.fks.filter (keepFK keep removed)
    defaults := keepEntries keep removed f.defaults
    types := keepEntries keep removed f.types
    params := some (if "parameters" ∈ keep then f.params else [])
    tooltips := some (keepEntries keep removed (friendlyTips f.tooltips)) }

/-- When the restricted schema describes a factory. -/
structure Restrictable (f : Factory V K) (keep : List String) (removed : List (String × String)) : Prop where
  sub : ∀ t ∈ keep, has f.tables t = true
  plain : NoGeneric f
  nonempty : ∀ t ∈ keep, ∀ pks dfs, get? f.tables t = some (.fields pks dfs) → ∃ x ∈ pks ++ dfs, (t, x) ∉ removed
  params : f.params ≠ [] → "parameters" ∈ keep → ∀ x, ("parameters", x) ∉ removed

theorem keepFields_id (removed : List (String × String)) (t : String) (d : Decl) (h : ∀ x, (t, x) ∉ removed) :
    Decl.keepFields removed t d = d := by
  cases d with
  | generic => rfl
  | fields pks dfs => simp [Decl.keepFields, h]

theorem restricted_valid (env : FactoryEnv) (f : Factory V K) (hf : FInv env f) (keep : List String)
    (removed : List (String × String)) (hr : Restrictable f keep removed)
    (hk : ∀ k ∈ f.fks, k.native ∈ keep → k.foreign ∈ keep → k.mapping ≠ [])
    (hp : "parameters" ∈ keep → ∀ p ∈ f.params, p.1.stringish = true ∧ env.containerish p.2.2 = false) :
    ValidSchema env (restrictedOf f keep removed) := by
  have hT := restricted_get? f.tables keep removed
  have hH := restricted_hasField f.tables keep removed
  have hn : (keys (restrictedOf f keep removed).tables).Nodup := by
    simp only [restrictedOf]
    rw [keys_map_val (fun t d => Decl.keepFields removed t d)]
    exact (keys_filter_sublist _ _).nodup hf.tables_nodup
  have hpar : ∀ t, (restrictedOf f keep removed).params.getD [] ≠ [] → t = "parameters" → f.params ≠ [] ∧ t ∈ keep ∧
      get? (restrictedOf f keep removed).tables t = get? f.tables t := by
    rintro t h rfl
    simp only [restrictedOf, Option.getD_some] at h
    split at h
    · rename_i hm
      refine ⟨h, hm, ?_⟩
      simp only [restrictedOf]
      rw [hT, if_pos hm]
      have := hr.params h hm
      cases get? f.tables "parameters" with
      | none => rfl
      | some d => rw [Option.map_some, keepFields_id _ _ _ this]
    · exact absurd rfl h
  refine ⟨⟨hn, keepEntries_dict _ _ _ hf.defaults_dict, keepEntries_dict _ _ _ hf.types_dict, ?_,
    keepEntries_dict _ _ _ (friendlyTips_dict _)⟩, ?_, ?_, ?_, ?_, ?_, ?_, ?_, ?_, ?_⟩
  · simp only [restrictedOf, Option.getD_some]
    split
    · exact hf.params_nodup
    · exact List.nodup_nil
  · apply goodTableNames_sub env.case hn _ hf.names
    intro t ht
    simp only [restrictedOf] at ht
    rw [keys_map_val (fun t d => Decl.keepFields removed t d)] at ht
    exact (keys_filter_sublist _ _).subset ht
  · intro p hm
    have h1 := get?_of_mem hn hm
    simp only [restrictedOf] at h1
    rw [hT] at h1
    split at h1
    · rename_i hkp
      rw [Option.map_eq_some_iff] at h1
      obtain ⟨d, hd, e⟩ := h1
      rw [← e]
      cases d with
      | generic => rfl
      | fields pks dfs =>
        exact keepFields_good _ _ _ _ _ (hf.decls _ (get?_mem hd)) (hr.nonempty _ hkp _ _ hd)
    · simp at h1
  · intro k hm
    simp only [restrictedOf] at hm
    obtain ⟨h1, h2⟩ := List.mem_filter.1 hm
    simp only [keepFK, Bool.and_eq_true, decide_eq_true_eq, List.all_eq_true] at h2
    obtain ⟨⟨h2, h3⟩, h4⟩ := h2
    have w := hf.fks k h1
    have ok : FKOK (plainTables f.tables) k := ⟨w.native_mem, w.foreign_mem, hk k h1 h2 h3, w.native_nodup, w.native_fields, w.foreign_fields⟩
    rw [fkok_iff hf.tables_nodup] at ok
    rw [fkok_iff hn]
    refine ⟨ok.1, ok.2.1, fun p hp => ⟨?_, ?_⟩⟩
    · exact (hH _ _).2 ⟨h2, (ok.2.2 p hp).1, (h4 p hp).1⟩
    · exact (hH _ _).2 ⟨h3, (ok.2.2 p hp).2, (h4 p hp).2⟩
  · intro t fld td h
    simp only [restrictedOf, keepEntries_get2] at h
    split at h
    · rename_i hc
      obtain ⟨g1, g2, g3⟩ := hf.types t fld td h
      refine ⟨(hH _ _).2 ⟨hc.1, g1, hc.2⟩, g2, ?_⟩
      rintro hne ⟨rfl, pks, dfs, h1, h2⟩
      obtain ⟨a, _, c⟩ := hpar _ hne rfl
      rw [c] at h1
      exact g3 a ⟨rfl, pks, dfs, h1, h2⟩
    · simp at h
  · intro t fld c h
    simp only [restrictedOf, keepEntries_get2] at h
    split at h
    · rename_i hc
      obtain ⟨g1, g2⟩ := hf.defaults t fld c h
      exact ⟨(hH _ _).2 ⟨hc.1, g1, hc.2⟩, g2⟩
    · simp at h
  · intro h
    obtain ⟨a, _, c⟩ := hpar _ h rfl
    obtain ⟨pk, df, e⟩ := hf.params a
    exact ⟨pk, df, c.trans e⟩
  · intro p hm
    simp only [restrictedOf, Option.getD_some] at hm
    split at hm
    · rename_i hkp
      obtain ⟨h1, h2⟩ := hp hkp p hm
      exact ⟨h1, h2, hf.param p hm⟩
    · simp at hm
  · intro q e
    simp only [restrictedOf, Factory.schema, Option.some.injEq] at e
    exact hf.flag q e
  · intro t fld tip h
    simp only [restrictedOf, Option.getD_some, keepEntries_get2] at h
    split at h
    · rename_i hc
      rw [friendlyTips_of_inv env hf] at h
      obtain ⟨g1, g2, g3⟩ := hf.tips t fld tip h
      refine ⟨?_, ?_, g3⟩
      · unfold has at g1 ⊢
        simp only [restrictedOf]
        rw [hT, if_pos hc.1]
        cases hg : get? f.tables t with
        | none => rw [hg] at g1; simp at g1
        | some d => rfl
      · rcases g2 with g2 | g2
        · exact .inl g2
        · exact .inr ((hH _ _).2 ⟨hc.1, g2, hc.2⟩)
    · simp at h

theorem restrictSchema_eq (f : Factory V K) (ts : List String) (removed : List (String × String)) (hn : (keys f.tables).Nodup)
    (hts : ts ≠ []) (hne : f.tables ≠ [])
    (hr : ∀ r ∈ removed, HasField f.tables r.1 r.2) (hs : ∀ t ∈ ts, has f.tables t = true) (hg : NoGeneric f) :
    restrictSchema f.schema ts removed = some (restrictedOf f ts removed) := by
  unfold restrictSchema
  simp only [hts, if_false]
  rw [if_neg (by exact hne), if_neg, if_pos]
  · rfl
  · rw [Bool.and_eq_true, List.all_eq_true, List.all_eq_true]
    refine ⟨fun t ht => ?_, fun r h => ?_⟩
    · rw [decide_eq_true_eq]
      exact (has_iff _ _).1 (hs t ht)
    · rw [List.any_eq_true]
      obtain ⟨pks, dfs, h1, h2⟩ := hr r h
      exact ⟨_, get?_mem h1, by simpa [Decl.pks, Decl.dfs] using h2⟩
  · simp only [List.any_eq_true, decide_eq_true_eq, not_exists, not_and]
    intro t _
    exact hg t

/-- The result of `clone` with an accepted schema `fs`. -/
structure Recreated (fs : FullSchema) (f : Factory V K) (restr : Option (List String)) (g : Factory V K) : Prop where
  tables : g.tables = fs.tables
  fks : ∀ k, k ∈ g.fks ↔ k ∈ fs.fks
  types : ∀ t fld, get2 g.types t fld = get2 fs.types t fld
  defaults : ∀ t fld, get2 g.defaults t fld = (get2 fs.defaults t fld).or (get2 (zeroDefaults fs.tables) t fld)
  params : ∀ n, get? g.params n = get? (fs.params.getD []) n
  flag : g.flag = fs.flag.getD .na
  prune : g.prune = fs.prune.getD true
  dups : g.dups = fs.dups.getD .assert
  automunge : g.automunge = fs.automunge.getD true
  tooltips : ∀ t fld, get? g.tooltips (t, fld) = get2 (fs.tooltips.getD []) t fld
  preds : ∀ t n, get2 g.preds t n = if restr.elim true (fun ts => decide (t ∈ ts)) then get2 f.preds t n else none
  generators : g.generators = f.generators
  links : g.links = f.links
  used : g.used = false

theorem addRowPred_fold (l : List (String × PName × RowPred V K)) (g : Factory V K) (hu : g.used = false)
    (hl : ∀ p ∈ l, (∃ pks dfs, get? g.tables p.1 = some (.fields pks dfs)) ∧ p.1 ∉ g.generators) :
    l.foldlM (fun g p => g.addRowPred ⟨p.1, some p.2.1, some p.2.2⟩) g =
      some { g with preds := l.foldl (fun d p => set2 d p.1 p.2.1 p.2.2) g.preds } := by
  induction l generalizing g with
  | nil => rfl
  | cons p l ih =>
    obtain ⟨⟨pks, dfs, h1⟩, h2⟩ := hl p List.mem_cons_self
    rw [List.foldlM_cons]
    have : g.addRowPred ⟨p.1, some p.2.1, some p.2.2⟩ = some { g with preds := set2 g.preds p.1 p.2.1 p.2.2 } := by
      unfold Factory.addRowPred
      simp only [hu, Bool.false_eq_true, if_false, h1, h2, addPred, Option.getD_some]
      rfl
    rw [this, Option.bind_eq_bind, Option.bind_some, ih]
    · rfl
    · exact hu
    · intro q hq
      exact hl q (List.mem_cons_of_mem _ hq)

theorem filter_flat {A : Type} [DecidableEq A] {B C : Type} (q : A → Bool) (d : PyDict A (PyDict B C)) :
    (flat d).filter (fun p => q p.1) = flat (d.filter (fun p => q p.1)) := by
  unfold flat
  induction d with
  | nil => rfl
  | cons p d ih =>
    rw [List.flatMap_cons, List.filter_append, ih, List.filter_cons]
    cases h : q p.1 with
    | true =>
      simp only [if_true, List.flatMap_cons]
      congr 1
      rw [List.filter_eq_self]
      intro x hx
      obtain ⟨y, _, rfl⟩ := List.mem_map.1 hx
      exact h
    | false =>
      simp only [Bool.false_eq_true, if_false]
      rw [List.filter_eq_nil_iff.2, List.nil_append]
      intro x hx
      obtain ⟨y, _, rfl⟩ := List.mem_map.1 hx
      simp [h]

theorem cloneWith_ok (env : FactoryEnv) (f : Factory V K) (hf : FInv env f) (restr : Option (List String))
    (make : FullSchema → Option (Factory V K)) (fs : FullSchema) (hv : ValidSchema env fs)
    (hm : (restr.elim (some f.schema) (fun ts => restrictSchema f.schema ts [])).bind make = createFromFullSchema env fs)
    (hg : ∀ t ∈ f.generators, ∃ dfs, get? fs.tables t = some (.fields [] dfs))
    (hp : ∀ t n p, get2 f.preds t n = some p → restr.elim true (fun ts => decide (t ∈ ts)) = true →
      (∃ pks dfs, get? fs.tables t = some (.fields pks dfs)) ∧ t ∉ f.generators) :
    ∃ g, f.cloneWith restr make = some g ∧ Recreated fs f restr g := by
  obtain ⟨g0, e0, c⟩ := create_ok (V := V) (K := K) env fs hv
  have e1 : g0.setGenerators f.generators = some { g0 with generators := f.generators } := by
    unfold Factory.setGenerators
    rw [c.used]
    simp only [Bool.false_eq_true, if_false]
    rw [if_pos]
    rw [List.all_eq_true]
    intro t ht
    obtain ⟨dfs, h⟩ := hg t ht
    unfold Factory.pkless
    rw [c.tables, h]
  let q : String → Bool := fun t => restr.elim true (fun ts => decide (t ∈ ts))
  have hd : IsDict2 (f.preds.filter (fun p => q p.1)) :=
    ⟨(keys_filter_sublist _ _).nodup hf.preds_dict.1, fun p hp => hf.preds_dict.2 p (List.mem_filter.1 hp).1⟩
  have hg2 : ∀ t n, get2 (f.preds.filter (fun p => q p.1)) t n = if q t then get2 f.preds t n else none := by
    intro t n
    unfold get2
    rw [get?_filter_key q]
    cases q t <;> simp
  have e2 := addRowPred_fold (V := V) (K := K) (flat (f.preds.filter (fun p => q p.1))) { g0 with generators := f.generators } c.used (by
    rintro ⟨t, n, p⟩ hm
    have hm := (mem_flat hd _ _ _).1 hm
    rw [hg2] at hm
    split at hm
    · rename_i hqt
      have := hp t n p hm hqt
      simp only [c.tables]
      exact this
    · simp at hm)
  refine ⟨{ g0 with generators := f.generators, links := g0.links || f.links, preds := (flat (f.preds.filter (fun p => q p.1))).foldl (fun d p => set2 d p.1 p.2.1 p.2.2) g0.preds }, ?_, ?_⟩
  · unfold Factory.cloneWith
    simp only [Option.bind_eq_bind]
    rw [← Option.bind_assoc, hm, e0, Option.bind_some, e1, Option.bind_some]
    have := filter_flat q f.preds
    simp only [q] at this e2
    rw [this, e2, Option.bind_some]
  · refine ⟨c.tables, c.fks, c.types,
      fun t fld => by simp only [c.defaults]; cases get2 fs.defaults t fld <;> rfl, c.params, c.flag, c.prune, c.dups, c.automunge, c.tooltips, ?_, rfl, ?_, c.used⟩
    · intro t n
      simp only
      rw [get2_foldl_flat _ hd, hg2, c.preds]
      simp only [q]
      by_cases hh : restr.elim true (fun ts => decide (t ∈ ts)) = true
      · simp only [hh, if_true]
        cases get2 f.preds t n <;> rfl
      · simp only [hh, if_false]
        rfl
    · simp only [c.links, Bool.false_or]

end Ticdat

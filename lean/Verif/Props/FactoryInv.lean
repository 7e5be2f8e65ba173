import Verif.Props.Create
import Verif.Props.Implied
/-!
# What every reachable factory satisfies (for C18, C28, C35)
-/
set_option linter.unusedSectionVars false
set_option linter.unusedSimpArgs false
namespace Ticdat
open Spec PyDict
variable {V K : Type}

/-- A foreign key of a reachable factory; a key added by `add_implied_foreign_keys` may have no fields. -/
structure FKWeak (s : Schema) (k : FK) : Prop where
  native_mem : k.native ∈ keys s
  foreign_mem : k.foreign ∈ keys s
  native_nodup : (k.mapping.map Prod.fst).Nodup
  native_fields : ∀ p ∈ k.mapping, p.1 ∈ s.pks k.native ++ s.dfs k.native
  foreign_fields : ∀ p ∈ k.mapping, p.2 ∈ s.pks k.foreign ++ s.dfs k.foreign

/-- The invariant of factories. -/
structure FInv (env : FactoryEnv) (f : Factory V K) : Prop where
  tables_nodup : (keys f.tables).Nodup
  names : goodTableNames env.case ((keys f.tables).map String.toList) = true
  decls : ∀ p ∈ f.tables, goodDecl env.case p.2 = true
  fks_nodup : f.fks.Nodup
  fks : ∀ k ∈ f.fks, FKWeak (plainTables f.tables) k
  types_dict : IsDict2 f.types
  types : ∀ t fld td, get2 f.types t fld = some td → HasField f.tables t fld ∧ GoodType td ∧
    (f.params ≠ [] → ¬ ParamField f.tables t fld)
  defaults_dict : IsDict2 f.defaults
  defaults : ∀ t fld c, get2 f.defaults t fld = some c → HasField f.tables t fld ∧ acceptableDefault c = true
  data_defaults : ∀ t pks dfs fld, get? f.tables t = some (.fields pks dfs) → fld ∈ dfs → (get2 f.defaults t fld).isSome
  params_nodup : (keys f.params).Nodup
  params : f.params ≠ [] → HasParamTable f.tables
  param : ∀ p ∈ f.params, ∀ td, p.2.1 = some td → GoodType td ∧ td.validData env.text.parses p.2.2 = true
  flag : ∀ q, f.flag = .num q → 0 < q
  tips_nodup : (keys f.tooltips).Nodup
  tips : ∀ t fld tip, get? f.tooltips (t, fld) = some tip →
    has f.tables t = true ∧ (fld = "" ∨ HasField f.tables t fld) ∧ tip ≠ ""
  generators : ∀ t ∈ f.generators, f.pkless t = true
  preds_dict : IsDict2 f.preds
  preds : ∀ t n p, get2 f.preds t n = some p → ∃ pks dfs, get? f.tables t = some (.fields pks dfs)

theorem zeroDefaults_keys (tables : PyDict String Decl) : (keys (zeroDefaults tables)).Sublist (keys tables) := by
  induction tables with
  | nil => exact List.Sublist.refl _
  | cons p l ih =>
    unfold zeroDefaults keys at *
    rw [List.filterMap_cons]
    split
    · exact List.Sublist.cons _ ih
    · rename_i q hq
      split at hq
      · simp at hq
      · simp only [Option.some.injEq] at hq
        subst hq
        exact List.Sublist.cons_cons _ ih

open Classical in
theorem zeroDefaults_get2 {tables : PyDict String Decl} (h : (keys tables).Nodup) (t fld : String) :
    get2 (zeroDefaults tables) t fld = if ∃ pks dfs, get? tables t = some (.fields pks dfs) ∧ fld ∈ dfs then
      some (.num (.fin 0)) else none := by
  have hg : get? (zeroDefaults tables) t = (get? tables t).bind (fun d =>
      if d.dfs = [] then none else some (d.dfs.map (fun f => (f, Cell.num (.fin 0))))) := by
    induction tables with
    | nil => rfl
    | cons p l ih =>
      obtain ⟨a, d⟩ := p
      simp only [keys, List.map_cons, List.nodup_cons] at h
      have ih := ih h.2
      unfold zeroDefaults at ih ⊢
      rw [List.filterMap_cons]
      by_cases hd : d.dfs = []
      · simp only [hd, if_true, get?]
        rw [ih]
        by_cases e : a = t
        · subst e
          have : get? l a = none := (get?_eq_none l a).2 h.1
          simp [this, hd]
        · simp [e]
      · simp only [hd, if_false, get?]
        by_cases e : a = t
        · simp [e, hd]
        · simp [e, ih]
  have hz : ∀ l : List String, get? (l.map (fun f => (f, Cell.num (.fin 0)))) fld =
      if fld ∈ l then some (.num (.fin 0)) else none := by
    intro l
    induction l with
    | nil => rfl
    | cons a l ih =>
      simp only [List.map_cons, get?, ih, List.mem_cons]
      by_cases e : a = fld
      · simp [e]
      · simp [e, Ne.symm e]
  unfold get2
  rw [hg]
  cases e : get? tables t with
  | none => simp
  | some d =>
    cases d with
    | generic => simp [Decl.dfs]
    | fields pks dfs =>
      simp only [Option.bind_some, Decl.dfs]
      by_cases hd : dfs = []
      · simp [hd]
      · simp only [hd, if_false, Option.bind_some, hz]
        by_cases hm : fld ∈ dfs
        · rw [if_pos hm, if_pos ⟨pks, dfs, rfl, hm⟩]
        · rw [if_neg hm, if_neg]
          rintro ⟨_, _, h1, h2⟩
          simp only [Option.some.injEq, Decl.fields.injEq] at h1
          exact hm (h1.2 ▸ h2)

theorem newFactory_inv (env : FactoryEnv) (tables : PyDict String Decl) (hn : (keys tables).Nodup) (f : Factory V K)
    (h : newFactory env tables = some f) : FInv env f := by
  unfold newFactory at h
  split at h
  · rename_i hc
    simp only [Option.some.injEq] at h
    rw [Bool.and_eq_true, List.all_eq_true] at hc
    have hd : ∀ p ∈ tables, p.2.dfs.Nodup := by
      intro p hp
      have := hc.2 p hp
      cases e : p.2 with
      | generic => simp [Decl.dfs]
      | fields pks dfs =>
        rw [e] at this
        simp only [goodDecl, Bool.and_eq_true, decide_eq_true_eq] at this
        exact (List.nodup_append.1 this.1.2).2.1
    subst h
    constructor <;> simp only
    · exact hn
    · exact hc.1
    · exact hc.2
    · exact List.nodup_nil
    · simp
    · exact isDict2_nil
    · intro t fld td h; simp [get2, get?] at h
    · refine ⟨(zeroDefaults_keys tables).nodup hn, ?_⟩
      intro p hp
      unfold zeroDefaults at hp
      rw [List.mem_filterMap] at hp
      obtain ⟨q, hq, e⟩ := hp
      split at e
      · simp at e
      · simp only [Option.some.injEq] at e
        subst e
        simp only [keys, List.map_map]
        have : q.2.dfs.map (Prod.fst ∘ fun f => (f, Cell.num (.fin 0))) = q.2.dfs := by
          rw [show (Prod.fst ∘ fun f => (f, Cell.num (.fin 0))) = (id : String → String) from rfl, List.map_id]
        rw [this]
        exact hd q hq
    · intro t fld c h
      rw [zeroDefaults_get2 hn] at h
      split at h
      · rename_i hx
        obtain ⟨pks, dfs, h1, h2⟩ := hx
        simp only [Option.some.injEq] at h
        subst h
        exact ⟨⟨pks, dfs, h1, List.mem_append_right _ h2⟩, rfl⟩
      · simp at h
    · intro t pks dfs fld h1 h2
      rw [zeroDefaults_get2 hn, if_pos ⟨pks, dfs, h1, h2⟩]
      rfl
    · exact List.nodup_nil
    · intro h; exact absurd rfl h
    · simp
    · intro q h; simp at h
    · exact List.nodup_nil
    · intro t fld tip h; simp [get?] at h
    · simp
    · exact isDict2_nil
    · intro t n p h; simp [get2, get?] at h
  · simp at h

theorem schema_mem (s : Schema) (t : String) : t ∈ keys s ↔ ∃ ts, get? s t = some ts := by
  rw [← has_iff]
  unfold has
  rw [Option.isSome_iff_exists]

theorem addFK_inv (env : FactoryEnv) (f g : Factory V K) (n m : String) (mp : List (String × String)) (hf : FInv env f)
    (h : f.addFK n m mp = some g) : FInv env g := by
  unfold Factory.addFK at h
  split at h
  · simp at h
  · split at h
    · rename_i npks ndfs fpks fdfs h1 h2
      split at h
      · rename_i hc
        simp only [Option.some.injEq] at h
        subst h
        have p1 := (plain_get? hf.tables_nodup n ⟨npks, ndfs⟩).2 h1
        have p2 := (plain_get? hf.tables_nodup m ⟨fpks, fdfs⟩).2 h2
        refine { hf with fks_nodup := setAdd_nodup _ _ hf.fks_nodup, fks := ?_ }
        intro k hk
        simp only [mem_setAdd] at hk
        rcases hk with hk | rfl
        · exact hf.fks k hk
        · refine ⟨(schema_mem _ _).2 ⟨_, p1⟩, (schema_mem _ _).2 ⟨_, p2⟩, ofList_keys_nodup _, ?_, ?_⟩
          · intro p hp
            simp only [Schema.pks, Schema.dfs, p1]
            exact (hc.2 p hp).1
          · intro p hp
            simp only [Schema.pks, Schema.dfs, p2]
            exact (hc.2 p hp).2
      · simp at h
    · simp at h

theorem implied_inv (env : FactoryEnv) (f : Factory V K) (n : Nat) (fks' : List FK) (hf : FInv env f)
    (h : ImpliedRun (plainTables f.tables) n f.fks fks') : FInv env { f with fks := fks' } := by
  have key : ∀ {a b : List FK} {n : Nat}, ImpliedRun (plainTables f.tables) n a b →
      (a.Nodup ∧ ∀ k ∈ a, FKWeak (plainTables f.tables) k) → b.Nodup ∧ ∀ k ∈ b, FKWeak (plainTables f.tables) k := by
    intro a b n hr
    induction hr with
    | stop _ => exact fun h => h
    | step hst _ ih =>
      intro ha
      apply ih
      obtain ⟨d, hd, rfl⟩ := hst
      obtain ⟨⟨k1, h1, k2, h2, hb, rfl⟩, hn, hs⟩ := mem_impliedCandidates.1 hd
      refine ⟨List.nodup_cons.2 ⟨hn, ha.1⟩, ?_⟩
      intro k hk
      rcases List.mem_cons.1 hk with rfl | hk
      · have w1 := ha.2 k1 h1
        have w2 := ha.2 k2 h2
        obtain ⟨g1, g2⟩ := derived_fields w1.native_nodup w2.native_nodup
        refine ⟨w1.native_mem, w2.foreign_mem, g1, ?_, ?_⟩
        · intro p hp
          obtain ⟨⟨b, hb⟩, _⟩ := g2 p hp
          exact w1.native_fields (p.1, b) hb
        · intro p hp
          obtain ⟨_, b, hb⟩ := g2 p hp
          exact w2.foreign_fields (b, p.2) hb
      · exact ha.2 k hk
  obtain ⟨h1, h2⟩ := key h ⟨hf.fks_nodup, hf.fks⟩
  exact { hf with fks_nodup := h1, fks := h2 }

theorem paramField_iff (f : Factory V K) (t fld : String) :
    (decide (t = "parameters") && decide (fld ∈ f.dfsOf t)) = true ↔ ParamField f.tables t fld := by
  unfold ParamField Factory.dfsOf
  simp only [Bool.and_eq_true, decide_eq_true_eq]
  cases e : get? f.tables t with
  | none => simp
  | some d =>
    cases d with
    | generic => simp [Decl.dfs]
    | fields pks dfs =>
      simp only [Decl.dfs, Option.some.injEq, Decl.fields.injEq]
      constructor
      · rintro ⟨h1, h2⟩; exact ⟨h1, pks, dfs, ⟨rfl, rfl⟩, h2⟩
      · rintro ⟨h1, _, _, ⟨rfl, rfl⟩, h2⟩; exact ⟨h1, h2⟩

theorem setDataType_inv (env : FactoryEnv) (f g : Factory V K) (t fld : String) (a : TypeArgs) (hf : FInv env f)
    (h : f.setDataType t fld a = some g) : FInv env g := by
  unfold Factory.setDataType at h
  split at h
  · rename_i hc
    rw [Bool.and_eq_true, Bool.and_eq_true] at hc
    obtain ⟨⟨_, h1⟩, h2⟩ := hc
    rw [Option.map_eq_some_iff] at h
    obtain ⟨td, h3, rfl⟩ := h
    refine { hf with types_dict := isDict2_set2 hf.types_dict _ _ _, types := ?_ }
    intro t' fld' td' hg
    simp only [get2_set2] at hg
    split at hg
    · rename_i e
      obtain ⟨rfl, rfl⟩ := e
      simp only [Option.some.injEq] at hg
      subst hg
      refine ⟨(hasField_iff f _ _).1 h1, ((safe_creator_spec a).2 _ h3).1, ?_⟩
      intro hp hpf
      rw [(paramField_iff f _ _).2 hpf] at h2
      simp [hp] at h2
    · exact hf.types _ _ _ hg
  · simp at h

theorem get2_set_erase {d : DataTypes} (hd : IsDict2 d) {t : String} {r : PyDict String TypeDict} (hr : get? d t = some r)
    (fld t' fld' : String) (td : TypeDict) (h : get2 (PyDict.set d t (erase r fld)) t' fld' = some td) :
    get2 d t' fld' = some td := by
  unfold get2 at *
  rw [get?_set] at h
  split at h
  · rename_i e
    subst e
    rw [Option.bind_some, get?_erase _ _ _ (hd.2 _ (get?_mem hr))] at h
    split at h
    · simp at h
    · rw [hr]; exact h
  · exact h

theorem clearDataType_inv (env : FactoryEnv) (f g : Factory V K) (t fld : String) (hf : FInv env f)
    (h : f.clearDataType t fld = some g) : FInv env g := by
  unfold Factory.clearDataType at h
  split at h
  · simp only [Option.some.injEq] at h; exact h ▸ hf
  · rename_i r hr
    split at h
    · split at h
      · simp at h
      · simp only [Option.some.injEq] at h
        subst h
        refine { hf with types_dict := isDict2_set hf.types_dict _ (keys_erase_nodup _ _ (hf.types_dict.2 _ (get?_mem hr))), types := ?_ }
        intro t' fld' td hg
        exact hf.types _ _ _ (get2_set_erase hf.types_dict hr _ _ _ _ hg)
    · simp only [Option.some.injEq] at h; exact h ▸ hf

theorem setDefault_inv (env : FactoryEnv) (f g : Factory V K) (t fld : String) (c : Cell) (hf : FInv env f)
    (h : f.setDefault t fld c = some g) : FInv env g := by
  unfold Factory.setDefault at h
  split at h
  · rename_i hc
    rw [Bool.and_eq_true, Bool.and_eq_true] at hc
    obtain ⟨⟨_, h1⟩, h2⟩ := hc
    simp only [Option.some.injEq] at h
    subst h
    refine { hf with defaults_dict := isDict2_set2 hf.defaults_dict _ _ _, defaults := ?_, data_defaults := ?_ }
    · intro t' fld' c' hg
      simp only [get2_set2] at hg
      split at hg
      · rename_i e
        obtain ⟨rfl, rfl⟩ := e
        simp only [Option.some.injEq] at hg
        subst hg
        exact ⟨(hasField_iff f _ _).1 h1, h2⟩
      · exact hf.defaults _ _ _ hg
    · intro t' pks dfs fld' h3 h4
      simp only [get2_set2]
      split
      · rfl
      · exact hf.data_defaults _ _ _ _ h3 h4
  · simp at h

theorem setDefaultsLoop_inv (env : FactoryEnv) (l : List (String × PyDict String Cell)) (f : Factory V K)
    (hf : FInv env f) : FInv env (Factory.setDefaultsLoop l f).1 := by
  induction l generalizing f with
  | nil => exact hf
  | cons p l ih =>
    obtain ⟨t, v⟩ := p
    rw [Factory.setDefaultsLoop]
    split
    · rename_i hc
      apply ih
      have hget : ∀ t' fld', get2 (PyDict.set f.defaults t (v.foldl (fun d p => PyDict.set d p.1 p.2)
          ((get? f.defaults t).getD []))) t' fld' = if t = t' then (match v.reverse.find? (fun p => p.1 = fld') with
            | some p => some p.2
            | none => get2 f.defaults t fld') else get2 f.defaults t' fld' := by
        intro t' fld'
        unfold get2
        rw [get?_set]
        by_cases e : t = t'
        · simp only [e, if_true, Option.bind_some, get?_foldl_set]
          cases v.reverse.find? (fun p => decide (p.1 = fld')) with
          | some p => rfl
          | none => cases get? f.defaults t' <;> rfl
        · simp [e]
      refine { hf with defaults_dict := isDict2_set hf.defaults_dict _ (ofList_foldl_nodup _ _ (isDict2_getD hf.defaults_dict t)), defaults := ?_, data_defaults := ?_ }
      · intro t' fld' c hg
        simp only [hget] at hg
        split at hg
        · rename_i e
          subst e
          cases hfd : v.reverse.find? (fun p => decide (p.1 = fld')) with
          | none => rw [hfd] at hg; exact hf.defaults _ _ _ hg
          | some p =>
            rw [hfd] at hg
            simp only [Option.some.injEq] at hg
            have hm := List.mem_reverse.1 (List.mem_of_find?_eq_some hfd)
            have hp := List.find?_some hfd
            rw [decide_eq_true_eq] at hp
            unfold Factory.goodDefaults at hc
            split at hc
            · rename_i pks dfs hd
              rw [Bool.and_eq_true, List.all_eq_true, List.all_eq_true] at hc
              refine ⟨⟨pks, dfs, hd, ?_⟩, hg ▸ hc.2 p hm⟩
              have := hc.1 p.1 (List.mem_map.2 ⟨p, hm, rfl⟩)
              rw [← hp]
              exact of_decide_eq_true this
            · simp at hc
        · exact hf.defaults _ _ _ hg
      · intro t' pks dfs fld' h3 h4
        simp only [hget]
        have := hf.data_defaults _ _ _ _ h3 h4
        split
        · rename_i e
          subst e
          cases v.reverse.find? (fun p => decide (p.1 = fld')) with
          | none => exact this
          | some p => rfl
        · exact this
    · exact hf

theorem addParam_inv (env : FactoryEnv) (f g : Factory V K) (n d : Cell) (a : Option TypeArgs) (hf : FInv env f)
    (h : f.addParam env n d a = some g) : FInv env g := by
  unfold Factory.addParam at h
  split at h
  · rename_i pk df ht
    split at h
    · simp at h
    · rename_i hc
      rw [Option.map_eq_some_iff] at h
      obtain ⟨ps, h1, rfl⟩ := h
      simp only [Bool.or_eq_true, not_or, Bool.not_eq_true, Option.isSome_eq_false_iff, Option.isNone_iff_eq_none] at hc
      have key : ∃ tdo, ps = PyDict.set f.params n (tdo, d) ∧ ∀ td, tdo = some td → GoodType td ∧
          td.validData env.text.parses d = true := by
        unfold addParameter at h1
        cases a with
        | none =>
          simp only [Option.some.injEq] at h1
          exact ⟨none, h1.symm, by simp⟩
        | some a =>
          simp only [Option.bind_eq_bind, Option.bind_eq_some_iff] at h1
          obtain ⟨td, h2, h3⟩ := h1
          split at h3
          · rename_i hv
            simp only [Option.some.injEq] at h3
            refine ⟨some td, h3.symm, ?_⟩
            intro td' e
            simp only [Option.some.injEq] at e
            exact ⟨e ▸ ((safe_creator_spec a).2 _ h2).1, e ▸ hv⟩
          · simp at h3
      obtain ⟨tdo, rfl, htd⟩ := key
      refine { hf with types := ?_, params_nodup := keys_set_nodup _ _ _ hf.params_nodup, params := fun _ => ⟨pk, df, ht⟩, param := ?_ }
      · intro t fld td hg
        obtain ⟨g1, g2, g3⟩ := hf.types t fld td hg
        refine ⟨g1, g2, ?_⟩
        rintro _ ⟨rfl, pks, dfs, h2, h3⟩
        simp only at h2
        rw [ht] at h2
        simp only [Option.some.injEq, Decl.fields.injEq] at h2
        obtain ⟨_, rfl⟩ := h2
        rw [List.mem_singleton] at h3
        subst h3
        have e1 := hc.1
        rw [hg] at e1
        simp at e1
      · intro p hp td e
        rcases mem_set hp with hp | rfl
        · exact hf.param p hp td e
        · exact htd td e
  · simp at h

theorem erase_mem {A C : Type} [DecidableEq A] {d : PyDict A C} {k : A} {p : A × C} (h : p ∈ erase d k) : p ∈ d := by
  induction d with
  | nil => simp [erase] at h
  | cons q l ih =>
    unfold erase at h
    split at h
    · exact List.mem_cons_of_mem _ h
    · rcases List.mem_cons.1 h with h | h
      · exact h ▸ List.mem_cons_self
      · exact List.mem_cons_of_mem _ (ih h)

theorem removeParam_inv (env : FactoryEnv) (f g : Factory V K) (n : Cell) (hf : FInv env f)
    (h : f.removeParam n = some g) : FInv env g := by
  unfold Factory.removeParam at h
  split at h
  · simp only [Option.some.injEq] at h
    subst h
    have hne : erase f.params n ≠ [] → f.params ≠ [] := by
      intro h e
      rw [e] at h
      simp [erase] at h
    refine { hf with types := ?_, params_nodup := keys_erase_nodup _ _ hf.params_nodup, params := fun h => hf.params (hne h), param := fun p hp => hf.param p (erase_mem hp) }
    intro t fld td hg
    obtain ⟨g1, g2, g3⟩ := hf.types t fld td hg
    exact ⟨g1, g2, fun h => g3 (hne h)⟩
  · simp at h

theorem setTooltip_inv (env : FactoryEnv) (f g : Factory V K) (t fld tip : String) (hf : FInv env f)
    (h : f.setTooltip t fld tip = some g) : FInv env g := by
  unfold Factory.setTooltip at h
  split at h
  · rename_i hc
    simp only [Option.some.injEq] at h
    subst h
    rw [Bool.and_eq_true, Bool.or_eq_true, decide_eq_true_eq, hasField_iff] at hc
    by_cases e : tip = ""
    · simp only [e, if_true]
      refine { hf with tips_nodup := keys_erase_nodup _ _ hf.tips_nodup, tips := ?_ }
      intro t' fld' tip' hg
      simp only [get?_erase _ _ _ hf.tips_nodup] at hg
      split at hg
      · simp at hg
      · exact hf.tips _ _ _ hg
    · simp only [e, if_false]
      refine { hf with tips_nodup := keys_set_nodup _ _ _ hf.tips_nodup, tips := ?_ }
      intro t' fld' tip' hg
      simp only [get?_set] at hg
      split at hg
      · rename_i ee
        simp only [Prod.mk.injEq] at ee
        obtain ⟨rfl, rfl⟩ := ee
        simp only [Option.some.injEq] at hg
        subst hg
        exact ⟨hc.1, hc.2, e⟩
      · exact hf.tips _ _ _ hg
  · simp at h

theorem addPred_inv {ps : Preds V K} (hd : IsDict2 ps) (c : PredCall V K) : IsDict2 (addPred ps c) ∧
    ∀ t n p, get2 (addPred ps c) t n = some p → get2 ps t n = some p ∨ t = c.table := by
  unfold addPred
  split
  · split
    · rename_i cur n' hc _
      refine ⟨isDict2_set hd _ (keys_erase_nodup _ _ (hd.2 _ (get?_mem hc))), ?_⟩
      intro t n p hg
      by_cases e : t = c.table
      · exact .inr e
      · left
        unfold get2 at *
        rw [get?_set, if_neg (Ne.symm e)] at hg
        exact hg
    · exact ⟨hd, fun t n p h => .inl h⟩
  · refine ⟨isDict2_set hd _ (keys_set_nodup _ _ _ (isDict2_getD hd _)), ?_⟩
    intro t n p hg
    by_cases e : t = c.table
    · exact .inr e
    · left
      unfold get2 at *
      simp only at hg
      rw [get?_set, if_neg (Ne.symm e)] at hg
      exact hg

theorem setInfFlag_pos (c : Cell) (x : InfFlag) (h : setInfFlag c = some x) : ∀ q, x = .num q → 0 < q := by
  intro q e
  subst e
  cases c with
  | str s =>
    simp only [setInfFlag] at h
    split at h <;> simp at h
  | num y =>
    cases y with
    | fin r =>
      simp only [setInfFlag] at h
      split at h
      · rename_i hr
        simp only [Option.some.injEq, InfFlag.num.injEq] at h
        exact h ▸ hr
      · simp at h
    | _ => simp [setInfFlag] at h
  | _ => simp [setInfFlag] at h

theorem tryOp_inv (env : FactoryEnv) (f g : Factory V K) (r : Bool) (o : Option (Factory V K)) (hf : FInv env f)
    (ho : ∀ g, o = some g → FInv env g) (h : f.tryOp o = (g, r)) : FInv env g := by
  cases o with
  | none =>
    simp only [Factory.tryOp, Prod.mk.injEq] at h
    exact h.1 ▸ hf
  | some g' =>
    simp only [Factory.tryOp, Prod.mk.injEq] at h
    exact h.1 ▸ ho g' rfl

theorem fstep_inv (env : FactoryEnv) (f g : Factory V K) (op : FOp V K) (r : Bool) (h : FStep env f op g r)
    (hf : FInv env f) : FInv env g := by
  cases h with
  | impliedUsed _ => exact hf
  | implied _ hr => exact implied_inv env f _ _ hf hr
  | plain hne h =>
    cases op with
    | setDataType t fld a => exact tryOp_inv env f g r _ hf (fun g e => setDataType_inv env f g t fld a hf e) h
    | clearDataType t fld => exact tryOp_inv env f g r _ hf (fun g e => clearDataType_inv env f g t fld hf e) h
    | setDefault t fld c => exact tryOp_inv env f g r _ hf (fun g e => setDefault_inv env f g t fld c hf e) h
    | setDefaults l =>
      simp only [Factory.apply, Factory.setDefaults] at h
      split at h
      · simp only [Prod.mk.injEq] at h; exact h.1 ▸ hf
      · have := setDefaultsLoop_inv env l f hf
        rw [h] at this
        exact this
    | addFK n m mp => exact tryOp_inv env f g r _ hf (fun g e => addFK_inv env f g n m mp hf e) h
    | clearFKs n =>
      refine tryOp_inv env f g r _ hf ?_ h
      intro g e
      unfold Factory.clearFKs at e
      split at e
      · simp at e
      · split at e
        · simp only [Option.some.injEq] at e
          subst e
          exact { hf with fks_nodup := List.nodup_nil, fks := by simp }
        · split at e
          · simp only [Option.some.injEq] at e
            subst e
            exact { hf with fks_nodup := List.Pairwise.filter _ hf.fks_nodup, fks := fun k hk => hf.fks k (List.mem_filter.1 hk).1 }
          · simp at e
    | addImplied => exact absurd rfl hne
    | addParam n d a => exact tryOp_inv env f g r _ hf (fun g e => addParam_inv env f g n d a hf e) h
    | removeParam n => exact tryOp_inv env f g r _ hf (fun g e => removeParam_inv env f g n hf e) h
    | setGenerators gs =>
      refine tryOp_inv env f g r _ hf ?_ h
      intro g e
      unfold Factory.setGenerators at e
      split at e
      · simp at e
      · split at e
        · rename_i hc
          simp only [Option.some.injEq] at e
          subst e
          exact { hf with generators := fun t ht => List.all_eq_true.1 hc t ht }
        · simp at e
    | setTooltip t fld tip => exact tryOp_inv env f g r _ hf (fun g e => setTooltip_inv env f g t fld tip hf e) h
    | addRowPred c =>
      refine tryOp_inv env f g r _ hf ?_ h
      intro g e
      unfold Factory.addRowPred at e
      split at e
      · simp at e
      · split at e
        · split at e
          · simp at e
          · rename_i pks dfs hd _
            simp only [Option.some.injEq] at e
            subst e
            obtain ⟨h1, h2⟩ := addPred_inv hf.preds_dict c
            refine { hf with preds_dict := h1, preds := ?_ }
            intro t n p hg
            rcases h2 t n p hg with hg | hg
            · exact hf.preds t n p hg
            · exact ⟨pks, dfs, hg ▸ hd⟩
        · simp at e
    | setFlag c =>
      refine tryOp_inv env f g r _ hf ?_ h
      intro g e
      rw [Option.map_eq_some_iff] at e
      obtain ⟨x, h1, rfl⟩ := e
      exact { hf with flag := setInfFlag_pos c x h1 }
    | setTrailing s =>
      refine tryOp_inv env f g r _ hf ?_ h
      intro g e
      rw [Option.map_eq_some_iff] at e
      obtain ⟨x, h1, rfl⟩ := e
      exact { hf with }
    | setDups s =>
      refine tryOp_inv env f g r _ hf ?_ h
      intro g e
      rw [Option.map_eq_some_iff] at e
      obtain ⟨x, h1, rfl⟩ := e
      exact { hf with }
    | setAutomunge b =>
      simp only [Factory.apply, Prod.mk.injEq] at h
      obtain ⟨rfl, _⟩ := h
      exact { hf with }
    | enableLinks =>
      simp only [Factory.apply, Prod.mk.injEq] at h
      obtain ⟨rfl, _⟩ := h
      exact { hf with }
    | use =>
      simp only [Factory.apply, Prod.mk.injEq] at h
      obtain ⟨rfl, _⟩ := h
      exact { hf with }

theorem frun_inv (env : FactoryEnv) (f g : Factory V K) (ops : List (FOp V K)) (h : FRun env f ops g)
    (hf : FInv env f) : FInv env g := by
  induction h with
  | nil => exact hf
  | cons hst _ ih => exact ih (fstep_inv env _ _ _ _ hst hf)

theorem reachable_inv (env : FactoryEnv) (f : Factory V K) (h : Reachable env f) : FInv env f := by
  obtain ⟨tables, f0, ops, h1, h2, h3⟩ := h
  exact frun_inv env f0 f ops h3 (newFactory_inv env tables h1 f0 h2)

end Ticdat

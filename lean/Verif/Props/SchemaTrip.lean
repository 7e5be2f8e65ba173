import Verif.Props.FactoryInv
import Verif.Props.Names
/-!
# C18: `create_from_full_schema(f.schema(include_ancillary_info=True))`
-/
set_option linter.unusedSectionVars false
set_option linter.unusedSimpArgs false
namespace Ticdat
open Spec PyDict
variable {V K : Type}

theorem nodup_map_of_inj {A B : Type} (f : A → B) {l : List A} (hn : l.Nodup)
    (h : ∀ a ∈ l, ∀ b ∈ l, f a = f b → a = b) : (l.map f).Nodup := by
  induction l with
  | nil => exact List.nodup_nil
  | cons x l ih =>
    rw [List.nodup_cons] at hn
    rw [List.map_cons, List.nodup_cons]
    refine ⟨?_, ih hn.2 (fun a ha b hb => h a (List.mem_cons_of_mem _ ha) b (List.mem_cons_of_mem _ hb))⟩
    intro hm
    obtain ⟨y, hy, e⟩ := List.mem_map.1 hm
    have := h y (List.mem_cons_of_mem _ hy) x List.mem_cons_self e
    exact hn.1 (this ▸ hy)

theorem sameDict_keys {A B : Type} [DecidableEq A] {a b : PyDict A B} (h : SameDict a b) (k : A) :
    k ∈ keys a ↔ k ∈ keys b := by
  rw [← has_iff, ← has_iff]
  unfold has
  rw [h k]

theorem goodTableNames_same (env : CaseEnv) {a b : List String} (ha : a.Nodup) (h : ∀ t, t ∈ a ↔ t ∈ b)
    (hb : goodTableNames env (b.map String.toList) = true) : goodTableNames env (a.map String.toList) = true := by
  rw [goodTableNames_iff] at hb ⊢
  obtain ⟨h1, h2, h3⟩ := hb
  have hm : ∀ t, t ∈ a.map String.toList ↔ t ∈ b.map String.toList := by
    intro t
    simp only [List.mem_map, h]
  refine ⟨fun t ht => h1 t ((hm t).1 ht), fun t ht => h2 t ((hm t).1 ht), ?_⟩
  apply nodup_map_of_inj _ (nodup_map_of_inj _ ha (fun _ _ _ _ e => String.toList_inj.1 e))
  intro x hx y hy e
  exact inj_of_nodup_map _ h3 ((hm x).1 hx) ((hm y).1 hy) e

theorem hasField_same {a b : PyDict String Decl} (h : SameDict a b) (t fld : String) : HasField a t fld ↔ HasField b t fld := by
  unfold HasField
  rw [h t]

theorem paramField_same {a b : PyDict String Decl} (h : SameDict a b) (t fld : String) :
    ParamField a t fld ↔ ParamField b t fld := by
  unfold ParamField
  rw [h t]

theorem plain_same {a b : PyDict String Decl} (ha : (keys a).Nodup) (hb : (keys b).Nodup) (h : SameDict a b) (t : String) :
    get? (plainTables a) t = get? (plainTables b) t := by
  cases e : get? (plainTables a) t with
  | some ts =>
    rw [(plain_get? ha t ts), h t, ← plain_get? hb t ts] at e
    exact e.symm
  | none =>
    cases e' : get? (plainTables b) t with
    | none => rfl
    | some ts =>
      rw [(plain_get? hb t ts), ← h t, ← plain_get? ha t ts, e] at e'
      cases e'

theorem FKWeak.same {a b : PyDict String Decl} (ha : (keys a).Nodup) (hb : (keys b).Nodup) (h : SameDict a b) {k : FK}
    (hk : FKWeak (plainTables b) k) : FKWeak (plainTables a) k := by
  have hp := plain_same ha hb h
  have e1 : ∀ t, Schema.pks (plainTables a) t = Schema.pks (plainTables b) t := fun t => by unfold Schema.pks; rw [hp t]
  have e2 : ∀ t, Schema.dfs (plainTables a) t = Schema.dfs (plainTables b) t := fun t => by unfold Schema.dfs; rw [hp t]
  refine ⟨(sameDict_keys hp _).2 hk.native_mem, (sameDict_keys hp _).2 hk.foreign_mem, hk.native_nodup, ?_, ?_⟩
  · rw [e1, e2]; exact hk.native_fields
  · rw [e1, e2]; exact hk.foreign_fields

theorem friendlyTips_of_inv (env : FactoryEnv) {f : Factory V K} (hf : FInv env f) (t fld : String) :
    get2 (friendlyTips f.tooltips) t fld = get? f.tooltips (t, fld) := friendlyTips_get2 _ hf.tips_nodup t fld

theorem sameDict_nil {A B : Type} [DecidableEq A] {a b : PyDict A B} (h : SameDict a b) : a ≠ [] → b ≠ [] := by
  rintro hn rfl
  cases a with
  | nil => exact hn rfl
  | cons p l =>
    have := h p.1
    simp [get?] at this

/-- What a reachable factory must satisfy for its schema to be accepted: no foreign key without fields, parameters named by
strings, no containers as default values of parameters. -/
structure Expressible (env : FactoryEnv) (f : Factory V K) : Prop where
  fks : ∀ k ∈ f.fks, k.mapping ≠ []
  names : ∀ p ∈ f.params, p.1.stringish = true
  defaults : ∀ p ∈ f.params, env.containerish p.2.2 = false

theorem validSchema_of_inv (env : FactoryEnv) (f : Factory V K) (hf : FInv env f) (he : Expressible env f) (fs : FullSchema)
    (hd : IsSchemaDict fs) (hs : SameSchema fs f.schema) : ValidSchema env fs := by
  have ht : SameDict fs.tables f.tables := hs.tables
  have hpar : SameDict (fs.params.getD []) f.params := hs.params
  have pmem : ∀ p ∈ fs.params.getD [], p ∈ f.params := by
    intro p hp
    have := get?_of_mem hd.params hp
    rw [hpar] at this
    exact get?_mem this
  refine ⟨hd, ?_, ?_, ?_, ?_, ?_, ?_, ?_, ?_, ?_⟩
  · exact goodTableNames_same env.case hd.tables (sameDict_keys ht) hf.names
  · intro p hp
    have := get?_of_mem hd.tables hp
    rw [ht] at this
    exact hf.decls _ (get?_mem this)
  · intro k hk
    have hk' := (hs.fks k).1 hk
    have w := (hf.fks k hk').same hd.tables hf.tables_nodup ht
    exact ⟨w.native_mem, w.foreign_mem, he.fks k hk', w.native_nodup, w.native_fields, w.foreign_fields⟩
  · intro t fld td h
    rw [hs.types] at h
    obtain ⟨g1, g2, g3⟩ := hf.types t fld td h
    refine ⟨(hasField_same ht _ _).2 g1, g2, ?_⟩
    intro hn hp
    exact g3 (sameDict_nil hpar hn) ((paramField_same ht _ _).1 hp)
  · intro t fld c h
    rw [hs.defaults] at h
    obtain ⟨g1, g2⟩ := hf.defaults t fld c h
    exact ⟨(hasField_same ht _ _).2 g1, g2⟩
  · intro h
    obtain ⟨pk, df, e⟩ := hf.params (sameDict_nil hpar h)
    exact ⟨pk, df, (ht _).trans e⟩
  · intro p hp
    have := pmem p hp
    exact ⟨he.names p this, he.defaults p this, hf.param p this⟩
  · intro q e
    rw [hs.flag] at e
    simp only [Factory.schema, Option.some.injEq] at e
    exact hf.flag q e
  · intro t fld tip h
    rw [hs.tooltips] at h
    simp only [Factory.schema, Option.getD_some] at h
    rw [friendlyTips_of_inv env hf] at h
    obtain ⟨g1, g2, g3⟩ := hf.tips t fld tip h
    refine ⟨?_, ?_, g3⟩
    · unfold has; rw [ht]; exact g1
    · rw [hasField_same ht]; exact g2

theorem FRun.snoc (env : FactoryEnv) {f g h : Factory V K} {ops : List (FOp V K)} {op : FOp V K} {r : Bool}
    (h1 : FRun env f ops g) (h2 : FStep env g op h r) : FRun env f (ops ++ [op]) h := by
  induction h1 with
  | nil => exact .cons h2 .nil
  | cons hs _ ih => exact .cons hs (ih h2)

theorem Spec.Reachable.step {env : FactoryEnv} {f g : Factory V K} {op : FOp V K} {r : Bool} (hf : Reachable env f)
    (h : FStep env f op g r) : Reachable env g := by
  obtain ⟨tables, f0, ops, h1, h2, h3⟩ := hf
  exact ⟨tables, f0, ops ++ [op], h1, h2, h3.snoc env h⟩

theorem Spec.Reachable.foldlM {env : FactoryEnv} {A : Type} (c : Factory V K → A → Option (Factory V K)) (op : A → FOp V K)
    (hc : ∀ f a g, c f a = some g → ∃ r, FStep env f (op a) g r) (l : List A) (f g : Factory V K) (hf : Reachable env f)
    (h : l.foldlM c f = some g) : Reachable env g := by
  induction l generalizing f with
  | nil =>
    simp only [List.foldlM_nil, Option.pure_def, Option.some.injEq] at h
    exact h ▸ hf
  | cons a l ih =>
    rw [List.foldlM_cons, Option.bind_eq_bind, Option.bind_eq_some_iff] at h
    obtain ⟨f1, h1, h2⟩ := h
    obtain ⟨r, h3⟩ := hc _ _ _ h1
    exact ih f1 (hf.step h3) h2

/-- A factory made by `create_from_full_schema` can be made by the other public calls. -/
theorem create_reachable (env : FactoryEnv) (fs : FullSchema) (hn : (keys fs.tables).Nodup) (g : Factory V K)
    (h : createFromFullSchema env fs = some g) : Reachable env g := by
  unfold createFromFullSchema at h
  simp only at h
  split at h
  · simp only [Option.bind_eq_bind, Option.bind_eq_some_iff] at h
    obtain ⟨f0, h0, f1, h1, f2, h2, f3, h3, f4, h4, f5, h5, h6⟩ := h
    have r0 : Reachable env f0 := ⟨fs.tables, f0, [], hn, h0, .nil⟩
    have r1 := Reachable.foldlM _ (fun k : FK => FOp.addFK k.native k.foreign k.mapping)
      (fun f k g e => ⟨false, .plain (by simp) (by simp only [Factory.apply, Factory.tryOp, e])⟩) _ _ _ r0 h1
    have r2 := Reachable.foldlM _ (fun p : String × String × TypeDict => FOp.setDataType p.1 p.2.1 p.2.2.toArgs)
      (fun f k g e => ⟨false, .plain (by simp) (by simp only [Factory.apply, Factory.tryOp, e])⟩) _ _ _ r1 h2
    have r3 := Reachable.foldlM _ (fun p : String × String × Cell => FOp.setDefault p.1 p.2.1 p.2.2)
      (fun f k g e => ⟨false, .plain (by simp) (by simp only [Factory.apply, Factory.tryOp, e])⟩) _ _ _ r2 h3
    have r4 := Reachable.foldlM _ (fun p : Cell × Option TypeDict × Cell => FOp.addParam p.1 p.2.2 (p.2.1.map TypeDict.toArgs))
      (fun f k g e => ⟨false, .plain (by simp) (by simp only [Factory.apply, Factory.tryOp, e])⟩) _ _ _ r3 h4
    have r5 : Reachable env f5 := by
      cases hx : fs.flag with
      | none =>
        simp only [hx, Factory.withFlag, Option.some.injEq] at h5
        exact h5 ▸ r4
      | some x =>
        simp only [hx, Factory.withFlag] at h5
        exact r4.step (op := .setFlag x.toCell) (r := false) (.plain (by simp) (by simp only [Factory.apply, Factory.tryOp, h5]))
    have r6 : Reachable env { f5 with prune := fs.prune.getD f5.prune } := by
      have : Factory.apply env f5 (.setTrailing (if fs.prune.getD f5.prune then "prune" else "ignore")) =
          ({ f5 with prune := fs.prune.getD f5.prune }, false) := by
        cases e : fs.prune.getD f5.prune <;> simp [Factory.apply, parseTrailing, Factory.tryOp]
      exact r5.step (.plain (by simp) this)
    have r7 : Reachable env { f5 with prune := fs.prune.getD f5.prune, dups := fs.dups.getD f5.dups } := by
      have : Factory.apply env { f5 with prune := fs.prune.getD f5.prune } (.setDups (match fs.dups.getD f5.dups with
          | .assert => "assert" | .warn => "warn" | .ignore => "ignore")) =
          ({ f5 with prune := fs.prune.getD f5.prune, dups := fs.dups.getD f5.dups }, false) := by
        cases e : fs.dups.getD f5.dups <;> simp [Factory.apply, parseDups, Factory.tryOp]
      exact r6.step (.plain (by simp) this)
    have r8 : Reachable env { f5 with prune := fs.prune.getD f5.prune, dups := fs.dups.getD f5.dups, automunge := fs.automunge.getD f5.automunge } :=
      r7.step (op := .setAutomunge (fs.automunge.getD f5.automunge)) (r := false) (.plain (by simp) rfl)
    exact Reachable.foldlM _ (fun p : String × String × String => FOp.setTooltip p.1 p.2.1 p.2.2)
      (fun f k g e => ⟨false, .plain (by simp) (by simp only [Factory.apply, Factory.tryOp, e])⟩) _ _ _ r8 h6
  · simp at h

theorem schema_isDict {env : FactoryEnv} {f : Factory V K} (h : Reachable env f) : IsSchemaDict f.schema := by
  have hi := reachable_inv env f h
  exact ⟨hi.tables_nodup, hi.defaults_dict, hi.types_dict, hi.params_nodup, friendlyTips_dict _⟩

theorem sameSchema_refl (fs : FullSchema) : SameSchema fs fs :=
  ⟨fun _ => rfl, fun _ => Iff.rfl, fun _ _ => rfl, fun _ _ => rfl, fun _ => rfl, rfl, rfl, rfl, rfl, fun _ _ => rfl⟩

/-- **C18.**  For every factory `f` that public calls lead to, whose foreign keys all have fields and whose parameters are
named by strings and have no containers as default values: from any dictionary `fs` equal to
`f.schema(include_ancillary_info=True)` (the order of entries is free) `create_from_full_schema` makes a factory with the
same full schema.  The new factory is unused; data row predicates, generator tables and foreign key links are not part of
a full schema, and it has none. -/
theorem schema_round_trip_partial (env : FactoryEnv) (f : Factory V K) (hr : Reachable env f) (he : Expressible env f) (fs : FullSchema)
    (hd : IsSchemaDict fs) (hs : SameSchema fs f.schema) :
    ∃ g : Factory V K, createFromFullSchema env fs = some g ∧ SameSchema g.schema f.schema ∧ g.used = false ∧
      g.preds = [] ∧ g.generators = [] ∧ g.links = false := by
  have hf := reachable_inv env f hr
  have ht : SameDict fs.tables f.tables := hs.tables
  obtain ⟨g, e, hc⟩ := create_ok (V := V) (K := K) env fs (validSchema_of_inv env f hf he fs hd hs)
  have gi := (reachable_inv env g (create_reachable env fs hd.tables g e)).tips_nodup
  refine ⟨g, e, ⟨?_, ?_, ?_, ?_, ?_, ?_, ?_, ?_, ?_, ?_⟩, hc.used, hc.preds, hc.generators, hc.links⟩
  · intro t
    simp only [Factory.schema]
    rw [hc.tables]
    exact ht t
  · intro k
    simp only [Factory.schema]
    rw [hc.fks]
    exact hs.fks k
  · intro t fld
    simp only [Factory.schema]
    rw [hc.defaults, hs.defaults]
    simp only [Factory.schema]
    cases h : get2 f.defaults t fld with
    | some c => rfl
    | none =>
      simp only
      rw [zeroDefaults_get2 hd.tables, if_neg]
      rintro ⟨pks, dfs, h1, h2⟩
      rw [ht] at h1
      have := hf.data_defaults _ _ _ _ h1 h2
      rw [h] at this
      simp at this
  · intro t fld
    simp only [Factory.schema]
    rw [hc.types, hs.types]
    rfl
  · intro n
    simp only [Factory.schema, Option.getD_some]
    rw [hc.params]
    exact hs.params n
  · simp only [Factory.schema]; rw [hc.flag, hs.flag]; rfl
  · simp only [Factory.schema]; rw [hc.prune, hs.prune]; rfl
  · simp only [Factory.schema]; rw [hc.dups, hs.dups]; rfl
  · simp only [Factory.schema]; rw [hc.automunge, hs.automunge]; rfl
  · intro t fld
    simp only [Factory.schema, Option.getD_some]
    rw [friendlyTips_get2 _ gi, hc.tooltips, hs.tooltips]
    rfl

theorem foldlM_none_of {A B : Type} (c : B → A → Option B) (l : List A) (a : A) (ha : a ∈ l) (hc : ∀ b, c b a = none) (b : B) :
    l.foldlM c b = none := by
  induction l generalizing b with
  | nil => simp at ha
  | cons x l ih =>
    rw [List.foldlM_cons]
    rcases List.mem_cons.1 ha with rfl | ha
    · rw [hc]; rfl
    · cases h : c b x with
      | none => rfl
      | some b' => exact ih ha b'

/-- **C18.**  The conditions on the factory cannot be dropped: for a reachable factory that does not satisfy them
`create_from_full_schema` raises. -/
theorem schema_round_trip_sharp (env : FactoryEnv) (f : Factory V K) (hr : Reachable env f) (fs : FullSchema)
    (hd : IsSchemaDict fs) (hs : SameSchema fs f.schema) :
    (createFromFullSchema env fs : Option (Factory V K)) = none ↔ ¬ Expressible env f := by
  constructor
  · intro h he
    obtain ⟨g, e, _⟩ := schema_round_trip_partial env f hr he fs hd hs
    rw [h] at e
    cases e
  · intro he
    have hpar : SameDict (fs.params.getD []) f.params := hs.params
    unfold createFromFullSchema
    simp only
    split
    · rename_i hall
      rw [List.all_eq_true] at hall
      have hmem : ∀ p ∈ f.params, p ∈ fs.params.getD [] := by
        intro p hp
        have := get?_of_mem (reachable_inv env f hr).params_nodup hp
        rw [← hpar] at this
        exact get?_mem this
      have : ∃ k ∈ f.fks, k.mapping = [] := by
        by_cases hx : ∃ k ∈ f.fks, k.mapping = []
        · exact hx
        · refine absurd ⟨fun k hk e => hx ⟨k, hk, e⟩, fun p hp => ?_, fun p hp => ?_⟩ he
          · have := hall p (hmem p hp)
            rw [Bool.and_eq_true] at this
            exact this.1
          · have := hall p (hmem p hp)
            rw [Bool.and_eq_true] at this
            simpa using this.2
      obtain ⟨k, hk, e⟩ := this
      have hk' := (hs.fks k).2 hk
      simp only [Option.bind_eq_bind]
      cases newFactory (V := V) (K := K) env fs.tables with
      | none => rfl
      | some f0 =>
        rw [Option.bind_some, foldlM_none_of _ _ k hk']
        · rfl
        · intro b
          unfold Factory.addFK
          rw [e]
          split
          · rfl
          · split
            · simp
            · rfl
    · rfl

/-! ### A case -/

/-- A factory environment with ASCII letters, in which object 0 is the only container. -/
def exEnv : FactoryEnv := ⟨⟨fun _ => none, fun _ => none, fun _ => ""⟩, asciiEnv, fun n => n = 0⟩

def exTables : PyDict String Decl :=
  [("parameters", .fields ["name"] ["value"]), ("foods", .fields ["name"] ["cost"]), ("log", .generic),
   ("links", .fields ["source", "dest"] ["cap", "kind"])]

def exArgs : TypeArgs := ⟨true, true, false, .num (.fin 0), .num .pinf, false, .coll [], false, false⟩

def exOps : List (FOp Nat Nat) :=
  [.addFK "links" "foods" [("source", "name")], .setDataType "links" "cap" exArgs, .setDefault "foods" "cost" .none,
   .addParam (.str "p") (.num (.fin 3)) (some exArgs), .addParam (.str "q") (.str "x") none, .setTooltip "foods" "" "eat",
   .setTooltip "foods" "cost" "in euros", .setFlag (.num (.fin 1000)), .setDups "warn", .setGenerators ["links"], .use]

/-- The calls one after the other, none of them `add_implied_foreign_keys`. -/
def Factory.applyAll (env : FactoryEnv) (f : Factory V K) (ops : List (FOp V K)) : Factory V K :=
  ops.foldl (fun f op => (f.apply env op).1) f

theorem applyAll_run (env : FactoryEnv) (f : Factory V K) (ops : List (FOp V K)) (h : ∀ op ∈ ops, op ≠ .addImplied) :
    FRun env f ops (f.applyAll env ops) := by
  induction ops generalizing f with
  | nil => exact .nil
  | cons op ops ih =>
    exact .cons (.plain (h op List.mem_cons_self) rfl) (ih _ (fun o ho => h o (List.mem_cons_of_mem _ ho)))

def exFactory0 : Factory Nat Nat :=
  { tables := exTables, defaults := zeroDefaults exTables, types := [], preds := [], tooltips := [], generators := [],
    fks := [], links := false, params := [], flag := .na, prune := true, dups := .assert, automunge := true, used := false }

def exFactory : Factory Nat Nat := exFactory0.applyAll exEnv exOps

theorem exFactory0_new : newFactory exEnv exTables = some exFactory0 := by
  unfold newFactory
  rw [if_pos (by decide +kernel)]
  rfl

theorem exFactory_reachable : Reachable exEnv exFactory :=
  ⟨exTables, exFactory0, exOps, by decide +kernel, exFactory0_new, applyAll_run _ _ _ (by simp [exOps])⟩

/-- A factory with foreign keys, data types, parameters, tooltips and flags meets the conditions of
`schema_round_trip_partial`. -/
example : Reachable exEnv exFactory ∧ Expressible exEnv exFactory ∧ IsSchemaDict exFactory.schema ∧
    exFactory.fks ≠ [] ∧ exFactory.params.length = 2 ∧ exFactory.types ≠ [] ∧ exFactory.tooltips.length = 2 ∧
    exFactory.used = true := by
  have hi := reachable_inv exEnv exFactory exFactory_reachable
  refine ⟨exFactory_reachable, ⟨by decide +kernel, by decide +kernel, by decide +kernel⟩,
    ⟨hi.tables_nodup, hi.defaults_dict, hi.types_dict, hi.params_nodup, friendlyTips_dict _⟩,
    by decide +kernel, by decide +kernel, by decide +kernel, by decide +kernel, by decide +kernel⟩

/-- **Finding (C18).**  `add_implied_foreign_keys` can add a key without fields (see C06); the factory then cannot be rebuilt
from its own schema. -/
theorem implied_key_breaks_schema : ∃ f : Factory Nat Nat, Reachable exEnv f ∧ f.params = [] ∧
    (createFromFullSchema exEnv f.schema : Option (Factory Nat Nat)) = none := by
  let tables : PyDict String Decl := [("a", .fields ["x"] []), ("b", .fields ["x", "y"] []), ("c", .fields [] ["y"])]
  let f0 : Factory Nat Nat :=
    { tables := tables, defaults := zeroDefaults tables, types := [], preds := [], tooltips := [], generators := [],
      fks := [], links := false, params := [], flag := .na, prune := true, dups := .assert, automunge := true, used := false }
  have h0 : newFactory exEnv tables = some f0 := by
    unfold newFactory
    rw [if_pos (by decide +kernel)]
  let f1 := f0.applyAll exEnv [.addFK "a" "b" [("x", "x")], .addFK "b" "c" [("y", "y")]]
  let f2 : Factory Nat Nat := { f1 with fks := ⟨"a", "c", []⟩ :: f1.fks }
  have r1 : Reachable exEnv f1 := ⟨tables, f0, _, by decide +kernel, h0, applyAll_run _ _ _ (by simp)⟩
  have r2 : Reachable exEnv f2 := by
    refine r1.step (op := .addImplied) (r := false) (.implied (n := 1) (by decide +kernel) ?_)
    exact .step ⟨⟨"a", "c", []⟩, by decide +kernel, rfl⟩ (.stop (by decide +kernel))
  refine ⟨f2, r2, by decide +kernel, ?_⟩
  rw [schema_round_trip_sharp exEnv f2 r2 _
    (schema_isDict ‹_›) (sameSchema_refl _)]
  intro he
  exact he.fks ⟨"a", "c", []⟩ List.mem_cons_self rfl

/-- **Finding (C18).**  `add_parameter` accepts a name that is no string, and `create_from_full_schema` does not. -/
theorem number_parameter_breaks_schema : ∃ f : Factory Nat Nat, Reachable exEnv f ∧ f.fks = [] ∧
    (createFromFullSchema exEnv f.schema : Option (Factory Nat Nat)) = none := by
  have r1 : Reachable exEnv (exFactory0.applyAll exEnv [.addParam (.num (.fin 1)) (.num (.fin 2)) (some exArgs)]) :=
    ⟨exTables, exFactory0, _, by decide +kernel, exFactory0_new, applyAll_run _ _ _ (by simp)⟩
  refine ⟨_, r1, by decide +kernel, ?_⟩
  rw [schema_round_trip_sharp exEnv _ r1 _
    (schema_isDict ‹_›) (sameSchema_refl _)]
  intro he
  have := he.names (.num (.fin 1), some (TypeDict.safeCreator exArgs |>.get (by decide +kernel)), .num (.fin 2)) (by decide +kernel)
  exact absurd this (by decide +kernel)

/-- **Finding (C18).**  After `clear_data_type` the table keeps an empty entry in `data_types`, which the rebuilt factory
does not have: the two schemas differ as Python dictionaries (and only in such empty entries, by `schema_round_trip_partial`). -/
theorem cleared_type_entry_lost : ∃ f g : Factory Nat Nat, Reachable exEnv f ∧ createFromFullSchema exEnv f.schema = some g ∧
    ¬ SameDict g.schema.types f.schema.types := by
  have r1 : Reachable exEnv (exFactory0.applyAll exEnv [.setDataType "foods" "cost" exArgs, .clearDataType "foods" "cost"]) :=
    ⟨exTables, exFactory0, _, by decide +kernel, exFactory0_new, applyAll_run _ _ _ (by simp)⟩
  obtain ⟨g, e, _⟩ := schema_round_trip_partial exEnv _ r1 ⟨by decide +kernel, by decide +kernel, by decide +kernel⟩ _
    (schema_isDict ‹_›) (sameSchema_refl _)
  refine ⟨_, g, r1, e, ?_⟩
  intro h
  have h1 := h "foods"
  have h2 : (createFromFullSchema exEnv (exFactory0.applyAll exEnv [.setDataType "foods" "cost" exArgs,
      .clearDataType "foods" "cost"]).schema : Option (Factory Nat Nat)).map (fun g => get? g.types "foods") = some none := by
    decide +kernel
  rw [e] at h2
  simp only [Option.map_some, Option.some.injEq] at h2
  simp only [Factory.schema] at h1
  rw [h2] at h1
  exact absurd h1 (by decide +kernel)

end Ticdat

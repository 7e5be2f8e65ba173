import Verif.Model.Reserved
import Verif.Spec.Reserved
import Verif.Props.SchemaTrip
import Verif.Props.Init
import Verif.Props.AsDict
/-!
# C79: renaming fields that are reserved words, and fields equal up to case and blanks
-/
set_option linter.unusedSectionVars false
namespace Ticdat
open Spec PyDict
variable {V K : Type}

/-! ## Names -/

theorem underStart_iff (s : String) : underStart s = true ↔ StartsUnder s := by
  unfold underStart StartsUnder
  rw [decide_eq_true_iff]
  constructor
  · intro h
    cases e : s.toList with
    | nil => rw [e] at h; cases h
    | cons c l =>
      rw [e] at h
      cases h
      exact ⟨String.ofList l, by apply String.toList_injective; simp [e]⟩
  · rintro ⟨r, rfl⟩
    simp

theorem dropFirst_under (r : String) : dropFirst ("_" ++ r) = r := by
  apply String.toList_injective
  simp [dropFirst]

/-- The new name as a function. -/
def newFieldName (env : CaseEnv) (reserved : List (List Char)) (undo : Bool) (x : String) : String :=
  (reservedField env reserved undo x).getD x

theorem escaped_iff (env : CaseEnv) (reserved : List (List Char)) (x y : String) (h : ¬ StartsUnder x) :
    reservedField env reserved false x = some (newFieldName env reserved false x) ∧
    (Escaped env reserved x y ↔ y = newFieldName env reserved false x) := by
  have hu : underStart x = false := by
    cases e : underStart x with
    | false => rfl
    | true => exact absurd ((underStart_iff x).1 e) h
  unfold newFieldName reservedField Escaped
  by_cases hm : env.lower x.toList ∈ reserved <;> simp [hu, hm]

theorem unescaped_iff (env : CaseEnv) (reserved : List (List Char)) (x y : String) :
    reservedField env reserved true x = some (newFieldName env reserved true x) ∧
    (Unescaped x y ↔ y = newFieldName env reserved true x) := by
  unfold newFieldName reservedField Unescaped
  cases e : underStart x with
  | false =>
    have h : ¬ StartsUnder x := fun h => by rw [(underStart_iff x).2 h] at e; cases e
    have h' : x ≠ "_" ++ y := fun hx => h ⟨y, hx⟩
    simp [h, h']
  | true =>
    obtain ⟨r, rfl⟩ := (underStart_iff x).1 e
    have h : StartsUnder ("_" ++ r) := ⟨r, rfl⟩
    simp only [h, not_true, false_and, or_false, if_true, dropFirst_under, Option.getD_some, true_and]
    constructor
    · intro h
      have h := congrArg dropFirst h
      rw [dropFirst_under, dropFirst_under] at h
      exact h.symm
    · rintro rfl; rfl

/-! ## Tables -/

/-- A declaration with new field names. -/
def Decl.rename (r : String → String) : Decl → Decl
  | .generic => .generic
  | .fields pks dfs => .fields (pks.map r) (dfs.map r)

theorem reserved_tables (env : CaseEnv) (reserved : List (List Char)) (undo : Bool) (tables : PyDict String Decl)
    (hg : ∀ p ∈ tables, p.2 ≠ .generic)
    (h : ∀ p ∈ tables, ∀ x ∈ p.2.pks ++ p.2.dfs, reservedField env reserved undo x = some (newFieldName env reserved undo x)) :
    tables.mapM (reservedDecl env reserved undo) = some (tables.map (fun p => (p.1, p.2.rename (newFieldName env reserved undo)))) := by
  apply mapM_eq_map
  rintro ⟨t, d⟩ hp
  cases d with
  | generic => exact absurd rfl (hg _ hp)
  | fields pks dfs =>
    have h' : ∀ x ∈ pks ++ dfs, reservedField env reserved undo x = some (newFieldName env reserved undo x) := h _ hp
    unfold reservedDecl
    simp only
    rw [mapM_eq_map (k := newFieldName env reserved undo) (fun a ha => h' a (List.mem_append_left _ ha)),
      mapM_eq_map (k := newFieldName env reserved undo) (fun a ha => h' a (List.mem_append_right _ ha))]
    rfl

theorem reserved_mapping (r : String → String) (tables : PyDict String Decl) :
    reservedMapping tables (tables.map (fun p => (p.1, p.2.rename r))) =
      tables.flatMap (fun p => (p.2.pks ++ p.2.dfs).map (fun x => (p.1, x, r x))) := by
  unfold reservedMapping
  rw [List.zip_map_right, List.flatMap_map]
  have : ∀ l : List (String × Decl), (l.zip l).flatMap (fun a =>
      ((a.1.2.pks ++ a.1.2.dfs).zip ((a.2.2.rename r).pks ++ (a.2.2.rename r).dfs)).map (fun m => (a.1.1, m.1, m.2))) =
      l.flatMap (fun p => (p.2.pks ++ p.2.dfs).map (fun x => (p.1, x, r x))) := by
    intro l
    induction l with
    | nil => rfl
    | cons p l ih =>
      rw [List.zip_cons_cons, List.flatMap_cons, List.flatMap_cons, ih]
      congr 1
      have e : (p.2.rename r).pks ++ (p.2.rename r).dfs = (p.2.pks ++ p.2.dfs).map r := by
        cases p.2 <;> simp [Decl.rename, Decl.pks, Decl.dfs]
      simp only [e]
      rw [List.zip_map_right, List.map_map]
      generalize p.2.pks ++ p.2.dfs = q
      induction q with
      | nil => rfl
      | cons a q ih => simp [ih]
  exact this tables

/-! ## Copying default values and data types -/

/-- `set2` if there is something to set. -/
def setOpt2 {C : Type} (d : PyDict String (PyDict String C)) (t x : String) : Option C → PyDict String (PyDict String C)
  | some c => set2 d t x c
  | none => d

theorem get2_setOpt2 {C : Type} (d : PyDict String (PyDict String C)) (t x : String) (o : Option C) (t' x' : String) :
    get2 (setOpt2 d t x o) t' x' = if t = t' ∧ x = x' then o.or (get2 d t x) else get2 d t' x' := by
  cases o with
  | none =>
    show get2 d t' x' = _
    split
    · rename_i h; rw [h.1, h.2]; rfl
    · rfl
  | some c => exact get2_set2 ..

theorem copy_loop (f : Factory V K) (L : List (String × String × String)) (g : Factory V K) (hu : g.used = false) (hp : g.params = [])
    (hL : ∀ m ∈ L, HasField g.tables m.1 m.2.2) (hn : (L.map (fun m => (m.1, m.2.2))).Nodup)
    (hd : ∀ m ∈ L, ∀ c, get2 f.defaults m.1 m.2.1 = some c → acceptableDefault c = true)
    (ht : ∀ m ∈ L, ∀ td, get2 f.types m.1 m.2.1 = some td → GoodType td) :
    ∃ D T, L.foldlM (reservedCopy f) g = some { g with defaults := D, types := T } ∧
      (∀ m ∈ L, get2 D m.1 m.2.2 = (get2 f.defaults m.1 m.2.1).or (get2 g.defaults m.1 m.2.2) ∧
        get2 T m.1 m.2.2 = (get2 f.types m.1 m.2.1).or (get2 g.types m.1 m.2.2)) ∧
      ∀ t x, (t, x) ∉ L.map (fun m => (m.1, m.2.2)) → get2 D t x = get2 g.defaults t x ∧ get2 T t x = get2 g.types t x := by
  induction L generalizing g with
  | nil => exact ⟨g.defaults, g.types, rfl, by simp, fun _ _ _ => ⟨rfl, rfl⟩⟩
  | cons m L ih =>
    have h1 := hL m List.mem_cons_self
    have h2 : g.copyDefault m.1 m.2.2 (get2 f.defaults m.1 m.2.1) = some { g with defaults := setOpt2 g.defaults m.1 m.2.2 (get2 f.defaults m.1 m.2.1) } := by
      cases e : get2 f.defaults m.1 m.2.1 with
      | none => rfl
      | some c =>
        show g.setDefault m.1 m.2.2 c = _
        unfold Factory.setDefault
        rw [(hasField_iff g _ _).2 h1, hd m List.mem_cons_self c e, hu]
        rfl
    generalize hD0 : setOpt2 g.defaults m.1 m.2.2 (get2 f.defaults m.1 m.2.1) = D0 at h2
    have h3 : Factory.copyType { g with defaults := D0 } m.1 m.2.2 (get2 f.types m.1 m.2.1) = some { g with defaults := D0, types := setOpt2 g.types m.1 m.2.2 (get2 f.types m.1 m.2.1) } := by
      cases e : get2 f.types m.1 m.2.1 with
      | none => rfl
      | some td =>
        show Factory.setDataType { g with defaults := D0 } m.1 m.2.2 td.toArgs = _
        unfold Factory.setDataType
        rw [if_pos (by rw [(hasField_iff { g with defaults := D0 } _ _).2 h1]; simp [hu, hp]),
          show TypeDict.safeCreator td.toArgs = some td from ht m List.mem_cons_self td e]
        rfl
    generalize hT0 : setOpt2 g.types m.1 m.2.2 (get2 f.types m.1 m.2.1) = T0 at h3
    have gD : ∀ t x, get2 D0 t x = if m.1 = t ∧ m.2.2 = x then (get2 f.defaults m.1 m.2.1).or (get2 g.defaults m.1 m.2.2) else get2 g.defaults t x := by
      intro t x
      rw [← hD0, get2_setOpt2]
    have gT : ∀ t x, get2 T0 t x = if m.1 = t ∧ m.2.2 = x then (get2 f.types m.1 m.2.1).or (get2 g.types m.1 m.2.2) else get2 g.types t x := by
      intro t x
      rw [← hT0, get2_setOpt2]
    rw [List.map_cons, List.nodup_cons] at hn
    obtain ⟨D, T, e, hm, ho⟩ := ih { g with defaults := D0, types := T0 } hu hp (fun k hk => hL k (List.mem_cons_of_mem _ hk)) hn.2
      (fun k hk => hd k (List.mem_cons_of_mem _ hk)) (fun k hk => ht k (List.mem_cons_of_mem _ hk))
    refine ⟨D, T, ?_, ?_, ?_⟩
    · rw [List.foldlM_cons]
      have : reservedCopy f g m = some { g with defaults := D0, types := T0 } := by
        unfold reservedCopy
        rw [h2, Option.bind_some, h3]
      rw [this]
      exact e
    · intro k hk
      rcases List.mem_cons.1 hk with rfl | hk
      · have := ho k.1 k.2.2 hn.1
        rw [this.1, this.2]
        simp only [gD, gT, and_self, if_true]
      · have hne : ¬ (m.1 = k.1 ∧ m.2.2 = k.2.2) := by
          intro h
          apply hn.1
          rw [h.1, h.2]
          exact List.mem_map_of_mem (f := fun m : String × String × String => (m.1, m.2.2)) hk
        have := hm k hk
        rw [this.1, this.2]
        simp only [gD, gT, if_neg hne, and_self]
    · intro t x hx
      rw [List.map_cons, List.mem_cons, not_or] at hx
      have := ho t x hx.2
      have hne : ¬ (m.1 = t ∧ m.2.2 = x) := fun h => hx.1 (by rw [h.1, h.2])
      rw [this.1, this.2]
      simp only [gD, gT, if_neg hne, and_self]

/-! ## The renamed factory -/

theorem get?_rename (r : String → String) (tables : PyDict String Decl) (t : String) :
    get? (tables.map (fun p => (p.1, p.2.rename r)) : PyDict String Decl) t = (get? tables t).map (Decl.rename r) :=
  get?_map_second (Decl.rename r) tables t

theorem keys_rename (r : String → String) (tables : PyDict String Decl) :
    keys (tables.map (fun p => (p.1, p.2.rename r)) : PyDict String Decl) = keys tables := by
  unfold keys
  rw [List.map_map]
  rfl

theorem mem_fields {tables : PyDict String Decl} (hn : (keys tables).Nodup) (t x : String) :
    HasField tables t x ↔ ∃ p ∈ tables, p.1 = t ∧ x ∈ p.2.pks ++ p.2.dfs := by
  constructor
  · rintro ⟨pks, dfs, h, hx⟩
    exact ⟨_, get?_mem h, rfl, hx⟩
  · rintro ⟨⟨t', d⟩, hp, rfl, hx⟩
    cases d with
    | generic => simp [Decl.pks, Decl.dfs] at hx
    | fields pks dfs => exact ⟨pks, dfs, get?_of_mem hn hp, hx⟩

theorem hasField_rename (r : String → String) (tables : PyDict String Decl) (t y : String) :
    HasField (tables.map (fun p => (p.1, p.2.rename r))) t y ↔ ∃ x, HasField tables t x ∧ r x = y := by
  unfold HasField
  rw [get?_rename]
  constructor
  · rintro ⟨a, b, h, hy⟩
    rw [Option.map_eq_some_iff] at h
    obtain ⟨d, hd, h⟩ := h
    cases d with
    | generic => cases h
    | fields pks dfs =>
      cases h
      rw [← List.map_append, List.mem_map] at hy
      obtain ⟨x, hx, rfl⟩ := hy
      exact ⟨x, ⟨pks, dfs, hd, hx⟩, rfl⟩
  · rintro ⟨x, ⟨pks, dfs, h, hx⟩, rfl⟩
    exact ⟨pks.map r, dfs.map r, by rw [h]; rfl, by rw [← List.map_append]; exact List.mem_map_of_mem hx⟩

theorem goodDecl_rename {env : CaseEnv} {r : String → String} {d : Decl} (h : goodDecl env (d.rename r) = true) :
    ((d.pks ++ d.dfs).map r).Nodup := by
  cases d with
  | generic => simp [Decl.pks, Decl.dfs]
  | fields pks dfs =>
    simp only [Decl.rename, goodDecl, Bool.and_eq_true, decide_eq_true_eq, ← List.map_append] at h
    exact h.1.2

/-- A new factory. -/
def bareFactory (tables : PyDict String Decl) : Factory V K :=
  { tables := tables, defaults := zeroDefaults tables, types := [], preds := [], tooltips := [], generators := [],
    fks := [], links := false, params := [], flag := .na, prune := true, dups := .assert, automunge := true, used := false }

theorem newFactory_eq (env : FactoryEnv) (tables : PyDict String Decl)
    (hn : goodTableNames env.case ((keys tables).map String.toList) = true) (hd : ∀ p ∈ tables, goodDecl env.case p.2 = true) :
    newFactory env tables = some (bareFactory tables : Factory V K) := by
  unfold newFactory
  rw [hn, (List.all_eq_true).2 hd]
  rfl

theorem nodup_mapping {tables : PyDict String Decl} (hn : (keys tables).Nodup) (r : String → String)
    (h : ∀ p ∈ tables, ((p.2.pks ++ p.2.dfs).map r).Nodup) :
    ((tables.flatMap (fun p => (p.2.pks ++ p.2.dfs).map (fun x => (p.1, x, r x)))).map (fun m => (m.1, m.2.2))).Nodup := by
  induction tables with
  | nil => exact List.nodup_nil
  | cons p l ih =>
    have hn' : p.1 ∉ keys l ∧ (keys l).Nodup := List.nodup_cons.1 hn
    rw [List.flatMap_cons, List.map_append, List.nodup_append]
    refine ⟨?_, ih hn'.2 (fun q hq => h q (List.mem_cons_of_mem _ hq)), ?_⟩
    · rw [List.map_map]
      have := h p List.mem_cons_self
      refine nodup_of_map Prod.snd (l := List.map _ _) ?_
      rw [List.map_map]
      exact this
    · intro a ha b hb e
      subst e
      rw [List.map_map, List.mem_map] at ha
      obtain ⟨x, _, rfl⟩ := ha
      rw [List.mem_map] at hb
      obtain ⟨m, hm, e⟩ := hb
      rw [List.mem_flatMap] at hm
      obtain ⟨q, hq, hm⟩ := hm
      rw [List.mem_map] at hm
      obtain ⟨z, _, rfl⟩ := hm
      apply hn'.1
      have : q.1 = p.1 := (Prod.mk.inj e).1
      rw [← this]
      exact List.mem_map_of_mem hq

theorem change_core (env : FactoryEnv) (reserved : List (List Char)) (undo : Bool) (f : Factory V K) (hf : FInv env f)
    (hg : ¬ HasGeneric f.tables) (rel : String → String → Prop)
    (h : ∀ t x, HasField f.tables t x → reservedField env.case reserved undo x = some (newFieldName env.case reserved undo x))
    (hrel : ∀ t x y, HasField f.tables t x → (rel x y ↔ y = newFieldName env.case reserved undo x))
    (hd : ∀ p ∈ f.tables, goodDecl env.case (p.2.rename (newFieldName env.case reserved undo)) = true) :
    ∃ g, changeReserved env reserved undo f = some g ∧ Renamed rel f g ∧ Bare g ∧
      g.tables = f.tables.map (fun p => (p.1, p.2.rename (newFieldName env.case reserved undo))) := by
  generalize hr : newFieldName env.case reserved undo = r at *
  have hn := hf.tables_nodup
  have hts := reserved_tables env.case reserved undo f.tables
    (fun p hp e => hg ⟨p.1, by rw [← e]; exact get?_of_mem hn hp⟩)
    (fun p hp x hx => by rw [hr]; exact h p.1 x ((mem_fields hn _ _).2 ⟨p, hp, rfl, hx⟩))
  rw [hr] at hts
  have hnew := newFactory_eq (V := V) (K := K) env (f.tables.map (fun p => (p.1, p.2.rename r)))
    (by rw [keys_rename]; exact hf.names) (by
      intro q hq
      rw [List.mem_map] at hq
      obtain ⟨p, hp, rfl⟩ := hq
      exact hd p hp)
  have hmem : ∀ t x y, (t, x, y) ∈ f.tables.flatMap (fun p => (p.2.pks ++ p.2.dfs).map (fun x => (p.1, x, r x))) ↔
      HasField f.tables t x ∧ y = r x := by
    intro t x y
    rw [List.mem_flatMap, mem_fields hn]
    constructor
    · rintro ⟨p, hp, hm⟩
      rw [List.mem_map] at hm
      obtain ⟨z, hz, e⟩ := hm
      cases e
      exact ⟨⟨p, hp, rfl, hz⟩, rfl⟩
    · rintro ⟨⟨p, hp, rfl, hx⟩, rfl⟩
      exact ⟨p, hp, List.mem_map_of_mem (f := fun x => (p.1, x, r x)) hx⟩
  obtain ⟨D, T, e, hm, ho⟩ := copy_loop f (f.tables.flatMap (fun p => (p.2.pks ++ p.2.dfs).map (fun x => (p.1, x, r x))))
    (bareFactory (f.tables.map (fun p => (p.1, p.2.rename r)))) rfl rfl
    (by
      rintro ⟨t, x, y⟩ hk
      obtain ⟨h1, rfl⟩ := (hmem t x y).1 hk
      exact (hasField_rename r f.tables t _).2 ⟨x, h1, rfl⟩)
    (nodup_mapping hn r (fun p hp => goodDecl_rename (hd p hp)))
    (fun m _ c hc => (hf.defaults _ _ c hc).2) (fun m _ td ht => (hf.types _ _ td ht).2.1)
  have hmiss : ∀ t y, (∀ x, HasField f.tables t x → ¬ rel x y) →
      (t, y) ∉ (f.tables.flatMap (fun p => (p.2.pks ++ p.2.dfs).map (fun x => (p.1, x, r x)))).map (fun m => (m.1, m.2.2)) := by
    intro t y hno hk
    rw [List.mem_map] at hk
    obtain ⟨⟨t', x, y'⟩, hk, e⟩ := hk
    obtain ⟨h1, h2⟩ := (hmem _ _ _).1 hk
    cases e
    exact hno x h1 ((hrel _ _ _ h1).2 h2)
  refine ⟨{ (bareFactory (f.tables.map (fun p => (p.1, p.2.rename r))) : Factory V K) with defaults := D, types := T }, ?_,
    ⟨?_, ?_, ?_, ?_, ?_, ?_⟩, ⟨rfl, rfl, rfl, rfl, rfl, rfl, rfl, rfl, rfl, rfl, rfl⟩, rfl⟩
  · unfold changeReserved
    rw [hts, Option.bind_some, hnew, Option.bind_some, reserved_mapping]
    exact e
  · exact keys_rename r f.tables
  · intro t pks dfs ht
    refine ⟨pks.map r, dfs.map r, ?_, by simp, by simp, ?_, ?_⟩
    · show get? (f.tables.map (fun p => (p.1, p.2.rename r)) : PyDict String Decl) t = _
      rw [get?_rename, ht]
      rfl
    · intro i x y hx hy
      rw [List.getElem?_map, hx] at hy
      cases hy
      exact (hrel t x _ ⟨pks, dfs, ht, List.mem_append_left _ (List.mem_of_getElem? hx)⟩).2 rfl
    · intro i x y hx hy
      rw [List.getElem?_map, hx] at hy
      cases hy
      exact (hrel t x _ ⟨pks, dfs, ht, List.mem_append_right _ (List.mem_of_getElem? hx)⟩).2 rfl
  · intro t x y hx hxy
    have hy := (hrel t x y hx).1 hxy
    have := (hm (t, x, y) ((hmem t x y).2 ⟨hx, hy⟩)).1
    show get2 D t y = _
    rw [this]
    cases e1 : get2 f.defaults t x with
    | some c => rfl
    | none =>
      show get2 (zeroDefaults _) t y = none
      rw [zeroDefaults_get2 (by rw [keys_rename]; exact hn), if_neg]
      rintro ⟨a, b, hab, hyb⟩
      rw [get?_rename] at hab
      obtain ⟨pks, dfs, hg1, hx1⟩ := hx
      rw [hg1] at hab
      cases hab
      rw [List.mem_map] at hyb
      obtain ⟨z, hz, hzy⟩ := hyb
      have hinj := goodDecl_rename (hd _ (get?_mem hg1))
      have : x = z := inj_of_nodup_map r hinj hx1 (List.mem_append_right _ hz) (by rw [hzy, hy])
      subst this
      have := hf.data_defaults t pks dfs x hg1 hz
      rw [e1] at this
      cases this
  · intro t x y hx hxy
    have hy := (hrel t x y hx).1 hxy
    have := (hm (t, x, y) ((hmem t x y).2 ⟨hx, hy⟩)).2
    show get2 T t y = _
    rw [this]
    cases e1 : get2 f.types t x <;> rfl
  · intro t y hno
    have := (ho t y (hmiss t y hno)).1
    show get2 D t y = _
    rw [this]
    show get2 (zeroDefaults _) t y = none
    rw [zeroDefaults_get2 (by rw [keys_rename]; exact hn), if_neg]
    rintro ⟨a, b, hab, hyb⟩
    obtain ⟨x, hx, hxy⟩ := (hasField_rename r f.tables t y).1 ⟨a, b, hab, List.mem_append_right _ hyb⟩
    exact hno x hx ((hrel t x y hx).2 hxy.symm)
  · intro t y hno
    have := (ho t y (hmiss t y hno)).2
    show get2 T t y = _
    rw [this]
    rfl

theorem change_reachable (env : FactoryEnv) (reserved : List (List Char)) (undo : Bool) (f g : Factory V K)
    (hn : (keys f.tables).Nodup) (h : changeReserved env reserved undo f = some g) : Reachable env g := by
  unfold changeReserved at h
  rw [Option.bind_eq_some_iff] at h
  obtain ⟨ts, hts, h⟩ := h
  rw [Option.bind_eq_some_iff] at h
  obtain ⟨g0, h0, h⟩ := h
  have hk : keys ts = keys f.tables := by
    rw [mapM_eq_some_iff] at hts
    unfold keys
    have : ∀ (l : List (String × Decl)) (l' : List (String × Decl)), l.map (reservedDecl env.case reserved undo) = l'.map some →
        l'.map Prod.fst = l.map Prod.fst := by
      intro l
      induction l with
      | nil => intro l' h; cases l' with
        | nil => rfl
        | cons => cases h
      | cons p l ih =>
        intro l' h
        cases l' with
        | nil => cases h
        | cons q l' =>
          rw [List.map_cons, List.map_cons, List.cons.injEq] at h
          rw [List.map_cons, List.map_cons, ih _ h.2]
          congr 1
          have h1 := h.1
          unfold reservedDecl at h1
          split at h1
          · cases h1
          · rw [Option.bind_eq_some_iff] at h1
            obtain ⟨a, _, h1⟩ := h1
            rw [Option.map_eq_some_iff] at h1
            obtain ⟨b, _, rfl⟩ := h1
            rfl
    exact this _ _ hts
  have r0 : Reachable env g0 := ⟨ts, g0, [], by rw [hk]; exact hn, h0, .nil⟩
  generalize reservedMapping f.tables ts = L at h
  clear h0
  induction L generalizing g0 with
  | nil =>
    simp only [List.foldlM_nil, Option.pure_def, Option.some.injEq] at h
    exact h ▸ r0
  | cons m L ih =>
    rw [List.foldlM_cons, Option.bind_eq_bind, Option.bind_eq_some_iff] at h
    obtain ⟨g1, h1, h2⟩ := h
    refine ih g1 ?_ h2
    unfold reservedCopy at h1
    rw [Option.bind_eq_some_iff] at h1
    obtain ⟨g2, h3, h4⟩ := h1
    have r2 : Reachable env g2 := by
      cases e : get2 f.defaults m.1 m.2.1 with
      | none => rw [e] at h3; cases h3; exact r0
      | some c =>
        rw [e] at h3
        exact r0.step (op := .setDefault m.1 m.2.2 c) (r := false) (.plain (by simp)
          (by simp only [Factory.apply, Factory.tryOp, show g0.setDefault m.1 m.2.2 c = some g2 from h3]))
    cases e : get2 f.types m.1 m.2.1 with
    | none => rw [e] at h4; cases h4; exact r2
    | some td =>
      rw [e] at h4
      exact r2.step (op := .setDataType m.1 m.2.2 td.toArgs) (r := false) (.plain (by simp)
        (by simp only [Factory.apply, Factory.tryOp, show g2.setDataType m.1 m.2.2 td.toArgs = some g1 from h4]))

theorem change_generic (env : FactoryEnv) (reserved : List (List Char)) (undo : Bool) (f : Factory V K) (h : HasGeneric f.tables) :
    changeReserved env reserved undo f = none := by
  obtain ⟨t, ht⟩ := h
  unfold changeReserved
  rw [mapM_none_of (get?_mem ht) rfl]
  rfl

/-! ## Renaming and back -/

theorem lower_under {env : CaseEnv} (hl : UnderLaws env) (s : String) :
    env.lower ("_" ++ s).toList = '_' :: env.lower s.toList := by
  unfold CaseEnv.lower
  rw [String.toList_append, List.flatMap_append]
  show (env.lo '_' ++ []) ++ _ = _
  rw [hl.under]
  rfl

theorem lower_not_under {env : CaseEnv} (hl : UnderLaws env) (s : String) (h : ¬ StartsUnder s) (l : List Char) :
    env.lower s.toList ≠ '_' :: l := by
  intro e
  apply h
  rw [← underStart_iff]
  unfold underStart
  rw [decide_eq_true_iff]
  unfold CaseEnv.lower at e
  cases hs : s.toList with
  | nil => rw [hs] at e; cases e
  | cons c r =>
    rw [hs, List.flatMap_cons] at e
    cases hc : env.lo c with
    | nil => exact absurd hc (hl.nonempty c)
    | cons d m =>
      rw [hc] at e
      cases e
      rw [hl.only c (by rw [hc]; exact List.mem_cons_self)]
      rfl

/-- Distinct lower case names stay distinct. -/
theorem good_escaped {env : CaseEnv} (hl : UnderLaws env) (reserved : List (List Char)) (d : Decl) (hd : goodDecl env d = true)
    (hu : ∀ x ∈ d.pks ++ d.dfs, ¬ StartsUnder x) : goodDecl env (d.rename (newFieldName env reserved false)) = true := by
  cases d with
  | generic => rfl
  | fields pks dfs =>
    simp only [Decl.rename, goodDecl, Bool.and_eq_true, decide_eq_true_eq, ← List.map_append, Decl.pks, Decl.dfs] at hd hu ⊢
    generalize pks ++ dfs = q at *
    have hlow : ((q.map (newFieldName env reserved false)).map (fun f => env.lower f.toList)).Nodup := by
      rw [List.map_map]
      refine nodup_map_of_inj _ hd.1.2 ?_
      intro a ha b hb e
      refine inj_of_nodup_map (fun f : String => env.lower f.toList) hd.2 ha hb ?_
      have ea := (escaped_iff env reserved a _ (hu a ha)).2.2 rfl
      have eb := (escaped_iff env reserved b _ (hu b hb)).2.2 rfl
      simp only [Function.comp] at e
      rcases ea with ⟨_, ea⟩ | ⟨_, ea⟩ <;> rcases eb with ⟨_, eb⟩ | ⟨_, eb⟩ <;> rw [ea, eb] at e
      · rw [lower_under hl, lower_under hl] at e
        exact (List.cons.inj e).2
      · rw [lower_under hl] at e
        exact absurd e.symm (lower_not_under hl b (hu b hb) _)
      · rw [lower_under hl] at e
        exact absurd e (lower_not_under hl a (hu a ha) _)
      · exact e
    exact ⟨⟨by simpa using hd.1.1, nodup_of_map _ hlow⟩, hlow⟩

/-- **C79, renaming.**  `change_fields_with_reserved_keywords` raises exactly if there is a generic table or a field that
begins with an underscore.  Otherwise the new factory has the same tables with the same fields in the same places, where a
field whose lower case is a reserved word has an underscore in front; every default value and every data type is that of the
field it came from.  Nothing else is copied. -/
theorem reserved_renamed (env : FactoryEnv) (hl : UnderLaws env.case) (reserved : List (List Char)) (f : Factory V K)
    (hf : Reachable env f) :
    (changeReserved env reserved false f = none ↔ HasGeneric f.tables ∨ ∃ t x, HasField f.tables t x ∧ StartsUnder x) ∧
    ∀ g, changeReserved env reserved false f = some g → Renamed (Escaped env.case reserved) f g ∧ Bare g ∧ Reachable env g := by
  have hi := reachable_inv env f hf
  by_cases hg : HasGeneric f.tables
  · rw [change_generic env reserved false f hg]
    exact ⟨⟨fun _ => .inl hg, fun _ => rfl⟩, fun g h => by cases h⟩
  by_cases hu : ∃ t x, HasField f.tables t x ∧ StartsUnder x
  · have : changeReserved env reserved false f = none := by
      obtain ⟨t, x, ⟨pks, dfs, h1, h2⟩, h3⟩ := hu
      have hx : reservedField env.case reserved false x = none := by
        unfold reservedField
        rw [(underStart_iff x).2 h3]
        rfl
      unfold changeReserved
      rw [mapM_none_of (get?_mem h1)]
      · rfl
      · unfold reservedDecl
        simp only
        rcases List.mem_append.1 h2 with h2 | h2
        · rw [mapM_none_of h2 hx]
          rfl
        · rw [mapM_none_of h2 hx]
          cases pks.mapM (reservedField env.case reserved false) <;> rfl
    rw [this]
    exact ⟨⟨fun _ => .inr hu, fun _ => rfl⟩, fun g h => by cases h⟩
  · have hu' : ∀ t x, HasField f.tables t x → ¬ StartsUnder x := fun t x h1 h2 => hu ⟨t, x, h1, h2⟩
    obtain ⟨g, e, h1, h2, _⟩ := change_core env reserved false f hi hg (Escaped env.case reserved)
      (fun t x hx => (escaped_iff env.case reserved x x (hu' t x hx)).1)
      (fun t x y hx => (escaped_iff env.case reserved x y (hu' t x hx)).2)
      (fun p hp => good_escaped hl reserved p.2 (hi.decls p hp) (fun x hx =>
        hu' p.1 x ((mem_fields hi.tables_nodup _ _).2 ⟨p, hp, rfl, hx⟩)))
    have hr := change_reachable env reserved false f g hi.tables_nodup e
    rw [e]
    refine ⟨⟨fun h => (by cases h), fun h => absurd h ?_⟩, fun g' h => by cases h; exact ⟨h1, h2, hr⟩⟩
    rintro (h | h)
    · exact hg h
    · exact hu h

/-- **C79, undoing.**  With `undo=True` it raises exactly if there is a generic table or two fields of a table have, without
their underscore in front, the same name up to case.  Otherwise the new factory has the fields without one underscore in
front, with their default values and data types, and nothing else. -/
theorem reserved_undone (env : FactoryEnv) (reserved : List (List Char)) (f : Factory V K) (hf : Reachable env f) :
    (changeReserved env reserved true f = none ↔ HasGeneric f.tables ∨ ∃ t x y x' y', HasField f.tables t x ∧ HasField f.tables t y ∧
      x ≠ y ∧ Unescaped x x' ∧ Unescaped y y' ∧ env.case.lower x'.toList = env.case.lower y'.toList) ∧
    ∀ g, changeReserved env reserved true f = some g → Renamed Unescaped f g ∧ Bare g ∧ Reachable env g := by
  have hi := reachable_inv env f hf
  by_cases hg : HasGeneric f.tables
  · rw [change_generic env reserved true f hg]
    exact ⟨⟨fun _ => .inl hg, fun _ => rfl⟩, fun g h => by cases h⟩
  generalize hr : newFieldName env.case reserved true = r
  have hun : ∀ x y, Unescaped x y ↔ y = r x := fun x y => by rw [← hr]; exact (unescaped_iff env.case reserved x y).2
  by_cases hd : ∀ p ∈ f.tables, goodDecl env.case (p.2.rename r) = true
  · obtain ⟨g, e, h1, h2, _⟩ := change_core env reserved true f hi hg Unescaped
      (fun t x hx => (unescaped_iff env.case reserved x x).1)
      (fun t x y hx => (unescaped_iff env.case reserved x y).2) (by rw [hr]; exact hd)
    have hreach := change_reachable env reserved true f g hi.tables_nodup e
    rw [e]
    refine ⟨⟨fun h => (by cases h), fun h => absurd h ?_⟩, fun g' h => by cases h; exact ⟨h1, h2, hreach⟩⟩
    rintro (h | ⟨t, x, y, x', y', hx, hy, hxy, h1, h2, h3⟩)
    · exact hg h
    · rw [hun] at h1 h2
      obtain ⟨pks, dfs, ht, hx⟩ := hx
      obtain ⟨_, _, ht', hy⟩ := hy
      rw [ht] at ht'
      cases ht'
      have hgd := hd _ (get?_mem ht)
      simp only [Decl.rename, goodDecl, Bool.and_eq_true, decide_eq_true_eq, ← List.map_append, List.map_map] at hgd
      exact hxy (inj_of_nodup_map _ hgd.2 hx hy (by simp only [Function.comp]; rw [← h1, ← h2, h3]))
  · have : changeReserved env reserved true f = none := by
      have hts := reserved_tables env.case reserved true f.tables
        (fun p hp e => hg ⟨p.1, by rw [← e]; exact get?_of_mem hi.tables_nodup hp⟩)
        (fun p hp x hx => (unescaped_iff env.case reserved x x).1)
      rw [hr] at hts
      unfold changeReserved
      rw [hts, Option.bind_some]
      unfold newFactory
      rw [if_neg]
      · rfl
      · intro h
        rw [Bool.and_eq_true, List.all_eq_true] at h
        exact hd (fun p hp => h.2 _ (List.mem_map_of_mem (f := fun p : String × Decl => (p.1, p.2.rename r)) hp))
    rw [this]
    refine ⟨⟨fun _ => .inr ?_, fun _ => rfl⟩, fun g h => by cases h⟩
    refine Classical.byContradiction fun hno => hd fun p hp => ?_
    have hgd := hi.decls p hp
    obtain ⟨t, d⟩ := p
    cases d with
    | generic => rfl
    | fields pks dfs =>
      simp only [Decl.rename, goodDecl, Bool.and_eq_true, decide_eq_true_eq, ← List.map_append] at hgd ⊢
      have hlow : (((pks ++ dfs).map r).map (fun f => env.case.lower f.toList)).Nodup := by
        rw [List.map_map]
        refine nodup_map_of_inj _ hgd.1.2 ?_
        intro a ha b hb e
        refine Classical.byContradiction fun hab => hno ⟨t, a, b, r a, r b, ⟨pks, dfs, get?_of_mem hi.tables_nodup hp, ha⟩,
          ⟨pks, dfs, get?_of_mem hi.tables_nodup hp, hb⟩, hab, (hun _ _).2 rfl, (hun _ _).2 rfl, e⟩
      exact ⟨⟨by simpa using hgd.1.1, nodup_of_map _ hlow⟩, hlow⟩

/-- **C79, round trip.**  Undoing the renaming, with whatever list of words, always works, and gives back the tables with
their fields, the default values and the data types.  (Foreign keys, predicates, parameters etc. are not given back.) -/
theorem reserved_round_trip (env : FactoryEnv) (hl : UnderLaws env.case) (reserved reserved' : List (List Char)) (f g : Factory V K)
    (hf : Reachable env f) (h : changeReserved env reserved false f = some g) :
    ∃ k, changeReserved env reserved' true g = some k ∧ k.tables = f.tables ∧ SameDict2 k.defaults f.defaults ∧
      SameDict2 k.types f.types ∧ Bare k := by
  have hi := reachable_inv env f hf
  obtain ⟨hn, hg⟩ := reserved_renamed env hl reserved f hf
  have hno : ¬ (HasGeneric f.tables ∨ ∃ t x, HasField f.tables t x ∧ StartsUnder x) := fun hx => by
    rw [hn.2 hx] at h
    cases h
  have hu : ∀ t x, HasField f.tables t x → ¬ StartsUnder x := fun t x h1 h2 => hno (.inr ⟨t, x, h1, h2⟩)
  have hgen : ¬ HasGeneric f.tables := fun h => hno (.inl h)
  obtain ⟨g', e, h1, h2, ht⟩ := change_core env reserved false f hi hgen (Escaped env.case reserved)
    (fun t x hx => (escaped_iff env.case reserved x x (hu t x hx)).1)
    (fun t x y hx => (escaped_iff env.case reserved x y (hu t x hx)).2)
    (fun p hp => good_escaped hl reserved p.2 (hi.decls p hp) (fun x hx =>
      hu p.1 x ((mem_fields hi.tables_nodup _ _).2 ⟨p, hp, rfl, hx⟩)))
  rw [h] at e
  cases e
  have hig := reachable_inv env g (hg g h).2.2
  have hback : ∀ t x, HasField f.tables t x →
      newFieldName env.case reserved' true (newFieldName env.case reserved false x) = x := by
    intro t x hx
    have := (escaped_iff env.case reserved x _ (hu t x hx)).2.2 rfl
    refine ((unescaped_iff env.case reserved' _ x).2.1 ?_).symm
    rcases this with ⟨_, e⟩ | ⟨_, e⟩ <;> rw [e]
    · exact .inl rfl
    · exact .inr ⟨hu t x hx, rfl⟩
  have hbackd : ∀ p ∈ f.tables, (p.2.rename (newFieldName env.case reserved false)).rename (newFieldName env.case reserved' true) = p.2 := by
    intro p hp
    have hx : ∀ x ∈ p.2.pks ++ p.2.dfs, newFieldName env.case reserved' true (newFieldName env.case reserved false x) = x :=
      fun x hx => hback p.1 x ((mem_fields hi.tables_nodup _ _).2 ⟨p, hp, rfl, hx⟩)
    cases hd : p.2 with
    | generic => rfl
    | fields pks dfs =>
      rw [hd] at hx
      simp only [Decl.rename, List.map_map, Decl.fields.injEq]
      have hid : ∀ l : List String, (∀ x ∈ l, newFieldName env.case reserved' true (newFieldName env.case reserved false x) = x) →
          l.map (newFieldName env.case reserved' true ∘ newFieldName env.case reserved false) = l := by
        intro l hl
        induction l with
        | nil => rfl
        | cons a l ih =>
          rw [List.map_cons, ih (fun x hx => hl x (List.mem_cons_of_mem _ hx))]
          show newFieldName env.case reserved' true (newFieldName env.case reserved false a) :: l = _
          rw [hl a List.mem_cons_self]
      exact ⟨hid pks (fun x h => hx x (List.mem_append_left _ h)), hid dfs (fun x h => hx x (List.mem_append_right _ h))⟩
  obtain ⟨k, ek, hk1, hk2, hkt⟩ := change_core env reserved' true g hig (by
      rintro ⟨t, hgt⟩
      rw [ht, get?_rename, Option.map_eq_some_iff] at hgt
      obtain ⟨d, hd, e⟩ := hgt
      cases d with
      | generic => exact hgen ⟨t, hd⟩
      | fields => cases e) Unescaped
    (fun t x hx => (unescaped_iff env.case reserved' x x).1)
    (fun t x y hx => (unescaped_iff env.case reserved' x y).2) (by
      intro q hq
      rw [ht, List.mem_map] at hq
      obtain ⟨p, hp, rfl⟩ := hq
      rw [hbackd p hp]
      exact hi.decls p hp)
  have hkeq : k.tables = f.tables := by
    rw [hkt, ht, List.map_map]
    refine (List.map_congr_left ?_).trans (List.map_id _)
    intro p hp
    show (p.1, _) = p
    rw [hbackd p hp]
  have hik := reachable_inv env k (change_reachable env reserved' true g k hig.tables_nodup ek)
  have hchain : ∀ t x, HasField f.tables t x → HasField g.tables t (newFieldName env.case reserved false x) ∧
      Escaped env.case reserved x (newFieldName env.case reserved false x) ∧ Unescaped (newFieldName env.case reserved false x) x := by
    intro t x hx
    refine ⟨by rw [ht]; exact (hasField_rename _ _ _ _).2 ⟨x, hx, rfl⟩, (escaped_iff env.case reserved x _ (hu t x hx)).2.2 rfl,
      (unescaped_iff env.case reserved' _ x).2.2 (hback t x hx).symm⟩
  refine ⟨k, ek, hkeq, fun t x => ?_, fun t x => ?_, hk2⟩
  · by_cases hx : HasField f.tables t x
    · obtain ⟨a, b, c⟩ := hchain t x hx
      rw [hk1.defaults t _ x a c, h1.defaults t x _ hx b]
    · cases e1 : get2 k.defaults t x with
      | some c => exact absurd (hkeq ▸ (hik.defaults t x c e1).1) hx
      | none =>
        cases e2 : get2 f.defaults t x with
        | some c => exact absurd (hi.defaults t x c e2).1 hx
        | none => rfl
  · by_cases hx : HasField f.tables t x
    · obtain ⟨a, b, c⟩ := hchain t x hx
      rw [hk1.types t _ x a c, h1.types t x _ hx b]
    · cases e1 : get2 k.types t x with
      | some c => exact absurd (hkeq ▸ (hik.types t x c e1).1) hx
      | none =>
        cases e2 : get2 f.types t x with
        | some c => exact absurd (hi.types t x c e2).1 hx
        | none => rfl

/-! ## Fields equal up to case and blanks -/

theorem mem_distinct_go {A : Type} [DecidableEq A] (l s : List A) (hs : s.Nodup) :
    (l.foldl (fun s a => if a ∈ s then s else s ++ [a]) s).Nodup ∧
      ∀ a, a ∈ l.foldl (fun s a => if a ∈ s then s else s ++ [a]) s ↔ a ∈ s ∨ a ∈ l := by
  induction l generalizing s with
  | nil => exact ⟨hs, by simp⟩
  | cons x l ih =>
    rw [List.foldl_cons]
    by_cases hx : x ∈ s
    · rw [if_pos hx]
      refine ⟨(ih s hs).1, fun a => ?_⟩
      rw [(ih s hs).2 a, List.mem_cons]
      constructor
      · rintro (h | h)
        · exact .inl h
        · exact .inr (.inr h)
      · rintro (h | rfl | h)
        · exact .inl h
        · exact .inl hx
        · exact .inr h
    · rw [if_neg hx]
      have hn : (s ++ [x]).Nodup := by
        rw [List.nodup_append]
        refine ⟨hs, by simp, fun a ha b hb e => ?_⟩
        rw [List.mem_singleton] at hb
        subst hb e
        exact hx ha
      refine ⟨(ih _ hn).1, fun a => ?_⟩
      rw [(ih _ hn).2 a, List.mem_append, List.mem_singleton, List.mem_cons, or_assoc]

theorem distinctOf_spec {A : Type} [DecidableEq A] (l : List A) : (distinctOf l).Nodup ∧ ∀ a, a ∈ distinctOf l ↔ a ∈ l := by
  have := mem_distinct_go l [] List.nodup_nil
  exact ⟨this.1, fun a => by unfold distinctOf; rw [this.2]; simp⟩

theorem shorter_cover {A : Type} [DecidableEq A] (m : List A) (h : ¬ m.Nodup) :
    ∃ m' : List A, m'.length < m.length ∧ ∀ a ∈ m, a ∈ m' := by
  induction m with
  | nil => exact absurd List.nodup_nil h
  | cons x m ih =>
    by_cases hx : x ∈ m
    · refine ⟨m, by simp, fun a ha => ?_⟩
      rcases List.mem_cons.1 ha with rfl | ha
      · exact hx
      · exact ha
    · obtain ⟨m', h1, h2⟩ := ih (fun hn => h (List.nodup_cons.2 ⟨hx, hn⟩))
      refine ⟨x :: m', by simpa using h1, fun a ha => ?_⟩
      rcases List.mem_cons.1 ha with rfl | ha
      · exact List.mem_cons_self
      · exact List.mem_cons_of_mem _ (h2 a ha)

theorem distinct_map_length {A B : Type} [DecidableEq B] (g : A → B) (l : List A) (hn : l.Nodup) :
    l.length = (distinctOf (l.map g)).length ↔ (l.map g).Nodup := by
  have hs := distinctOf_spec (l.map g)
  constructor
  · intro h
    refine Classical.byContradiction fun hno => ?_
    obtain ⟨m', h1, h2⟩ := shorter_cover _ hno
    have := nodup_length_le _ m' hs.1 (fun a ha => h2 a ((hs.2 a).1 ha))
    rw [List.length_map] at h1
    omega
  · intro h
    have h1 := nodup_length_le _ _ hs.1 (fun a ha => (hs.2 a).1 ha)
    have h2 := nodup_length_le _ _ h (fun a ha => (hs.2 a).2 ha)
    rw [List.length_map] at h1 h2
    omega

/-- **C79, fields equal up to case and blanks.**  `find_case_space_duplicates` raises exactly if there is a generic table.
Otherwise it lists exactly the tables that have two different fields whose names are the same in lower case with
underscores for blanks, each with all its fields. -/
theorem case_space_duplicates_iff (env : FactoryEnv) (f : Factory V K) (hf : Reachable env f) :
    (findCaseSpaceDups env.case f = none ↔ HasGeneric f.tables) ∧
    ∀ r, findCaseSpaceDups env.case f = some r → (PyDict.keys r).Nodup ∧ ∀ t,
      (t ∈ PyDict.keys r ↔ ∃ x y, HasField f.tables t x ∧ HasField f.tables t y ∧ x ≠ y ∧
        unblank (env.case.lower x.toList) = unblank (env.case.lower y.toList)) ∧
      ∀ l, PyDict.get? r t = some l → l.Nodup ∧ ∀ x, x ∈ l ↔ HasField f.tables t x := by
  have hi := reachable_inv env f hf
  by_cases hg : HasGeneric f.tables
  · obtain ⟨t, ht⟩ := hg
    have : findCaseSpaceDups env.case f = none := by
      unfold findCaseSpaceDups
      rw [mapM_none_of (get?_mem ht) rfl]
      rfl
    rw [this]
    exact ⟨⟨fun _ => ⟨t, ht⟩, fun _ => rfl⟩, fun r h => by cases h⟩
  · let e : String × Decl → List (String × List String) := fun p =>
      if (distinctOf (p.2.pks ++ p.2.dfs)).length ≠ (distinctOf ((distinctOf (p.2.pks ++ p.2.dfs)).map (caseSpaceKey env.case))).length then
        [(p.1, distinctOf (p.2.pks ++ p.2.dfs))] else []
    have hres : findCaseSpaceDups env.case f = some (f.tables.map e).flatten := by
      unfold findCaseSpaceDups
      rw [mapM_eq_map (k := e)]
      · rfl
      · rintro ⟨t, d⟩ hp
        cases d with
        | generic => exact absurd ⟨t, get?_of_mem hi.tables_nodup hp⟩ hg
        | fields pks dfs => rfl
    rw [hres]
    refine ⟨⟨fun h => (by cases h), fun h => absurd h hg⟩, fun r h => ?_⟩
    cases h
    have hkeys : ∀ (l : List (String × Decl)), (keys (l.map e).flatten).Sublist (keys l) := by
      intro l
      induction l with
      | nil => exact List.Sublist.refl _
      | cons p l ih =>
        rw [List.map_cons, List.flatten_cons]
        unfold keys at ih ⊢
        rw [List.map_append, List.map_cons]
        show (List.map Prod.fst (e p) ++ _).Sublist _
        unfold e
        split
        · exact List.Sublist.cons₂ _ ih
        · exact List.Sublist.cons _ ih
    have hnd := List.Nodup.sublist (hkeys f.tables) hi.tables_nodup
    have hmem : ∀ t l, (t, l) ∈ (f.tables.map e).flatten ↔ ∃ p ∈ f.tables, p.1 = t ∧ l = distinctOf (p.2.pks ++ p.2.dfs) ∧
        ¬ ((distinctOf (p.2.pks ++ p.2.dfs)).map (caseSpaceKey env.case)).Nodup := by
      intro t l
      rw [← List.flatMap_def, List.mem_flatMap]
      refine exists_congr fun p => and_congr_right fun _ => ?_
      unfold e
      have hdm := distinct_map_length (caseSpaceKey env.case) _ (distinctOf_spec (p.2.pks ++ p.2.dfs)).1
      split
      · rename_i h
        rw [ne_eq, hdm] at h
        rw [List.mem_singleton, Prod.mk.injEq]
        exact ⟨fun h' => ⟨h'.1.symm, h'.2, h⟩, fun h' => ⟨h'.1.symm, h'.2.1⟩⟩
      · rename_i h
        rw [ne_eq, hdm] at h
        exact ⟨fun h' => absurd h' (by simp), fun h' => absurd h'.2.2 h⟩
    refine ⟨hnd, fun t => ⟨?_, ?_⟩⟩
    · constructor
      · intro ht
        unfold keys at ht
        rw [List.mem_map] at ht
        obtain ⟨⟨t', l⟩, hm, rfl⟩ := ht
        obtain ⟨p, hp, rfl, _, hno⟩ := (hmem _ _).1 hm
        refine Classical.byContradiction fun hcon => hno ?_
        refine nodup_map_of_inj _ (distinctOf_spec _).1 ?_
        intro a ha b hb hab
        rw [(distinctOf_spec _).2] at ha hb
        refine Classical.byContradiction fun hne => hcon ⟨a, b, (mem_fields hi.tables_nodup _ _).2 ⟨p, hp, rfl, ha⟩,
          (mem_fields hi.tables_nodup _ _).2 ⟨p, hp, rfl, hb⟩, hne, hab⟩
      · rintro ⟨x, y, ⟨pks, dfs, h1, hx⟩, ⟨_, _, h1', hy⟩, hxy, heq⟩
        rw [h1] at h1'
        cases h1'
        unfold keys
        rw [List.mem_map]
        refine ⟨(t, distinctOf (pks ++ dfs)), (hmem _ _).2 ⟨_, get?_mem h1, rfl, rfl, fun hno => hxy ?_⟩, rfl⟩
        exact inj_of_nodup_map _ hno (((distinctOf_spec _).2 x).2 hx) (((distinctOf_spec _).2 y).2 hy) heq
    · intro l hl
      obtain ⟨p, hp, rfl, rfl, _⟩ := (hmem _ _).1 (get?_mem hl)
      refine ⟨(distinctOf_spec _).1, fun x => ?_⟩
      rw [(distinctOf_spec _).2, mem_fields hi.tables_nodup]
      constructor
      · intro h
        exact ⟨p, hp, rfl, h⟩
      · rintro ⟨q, hq, hqt, hx⟩
        obtain ⟨t, d⟩ := p
        obtain ⟨t', d'⟩ := q
        simp only at hqt
        subst hqt
        have e1 := get?_of_mem hi.tables_nodup hp
        have e2 := get?_of_mem hi.tables_nodup hq
        rw [e1] at e2
        cases e2
        exact hx

/-! ### A case -/

theorem ascii_under : UnderLaws asciiEnv := by
  refine ⟨by decide, fun c h => ?_, fun c h => ?_⟩
  · simp only [asciiEnv, List.mem_singleton] at h
    have h' : (asciiLow c).toNat = 95 := by rw [← h]; rfl
    rw [asciiLow_toNat] at h'
    apply char_eq_of_toNat
    show c.toNat = 95
    split at h' <;> omega
  · cases h

def resTables : PyDict String Decl :=
  [("orders", .fields ["Order", "item"] ["date", "unit price"]), ("items", .fields ["item"] [])]

def resOps : List (FOp Nat Nat) :=
  [.addFK "orders" "items" [("item", "item")], .setDefault "orders" "Order" (.str "none"), .setDefault "orders" "date" .none,
   .setDataType "orders" "date" exArgs]

def resFactory0 : Factory Nat Nat := bareFactory resTables

def resFactory : Factory Nat Nat := resFactory0.applyAll exEnv resOps

theorem resFactory_reachable : Reachable exEnv resFactory :=
  ⟨resTables, resFactory0, resOps, by decide +kernel,
    newFactory_eq exEnv resTables (by decide +kernel) (by
      intro p hp
      simp only [resTables, List.mem_cons, List.not_mem_nil, or_false] at hp
      rcases hp with rfl | rfl <;> decide +kernel), applyAll_run _ _ _ (by simp [resOps])⟩

/-- "Order" and "date" are renamed. -/
example : (changeReserved exEnv ["order".toList, "date".toList] false resFactory).map (fun g => (g.tables, g.fks)) =
    some ([("orders", .fields ["_Order", "item"] ["_date", "unit price"]), ("items", .fields ["item"] [])], []) := by
  decide +kernel

example : ∃ g, changeReserved exEnv ["order".toList, "date".toList] false resFactory = some g ∧ g.fks ≠ resFactory.fks ∧
    get2 g.defaults "orders" "_Order" = some (.str "none") ∧
    ∃ k, changeReserved exEnv [] true g = some k ∧ k.tables = resFactory.tables := by
  have h := reserved_renamed exEnv ascii_under ["order".toList, "date".toList] resFactory resFactory_reachable
  cases e : changeReserved exEnv ["order".toList, "date".toList] false resFactory with
  | none =>
    have : (changeReserved exEnv ["order".toList, "date".toList] false resFactory).isSome = true := by decide +kernel
    rw [e] at this
    cases this
  | some g =>
    obtain ⟨h1, h2, _⟩ := h.2 g e
    obtain ⟨k, hk, hkt, _⟩ := reserved_round_trip exEnv ascii_under _ [] _ g resFactory_reachable e
    refine ⟨g, rfl, ?_, ?_, k, hk, hkt⟩
    · rw [h2.fks]
      decide +kernel
    · rw [h1.defaults "orders" "Order" "_Order" ⟨_, _, rfl, by decide +kernel⟩ (.inl ⟨by decide +kernel, rfl⟩)]
      decide +kernel

/-- A field that begins with an underscore already. -/
example : changeReserved exEnv [] false (bareFactory [("t", .fields ["_a"] [])] : Factory Nat Nat) = none := by
  unfold changeReserved; decide +kernel

/-- Undoing can fail. -/
example : changeReserved exEnv [] true (bareFactory [("t", .fields ["_a", "A"] [])] : Factory Nat Nat) = none := by
  rfl

example : findCaseSpaceDups asciiEnv (bareFactory [("t", .fields ["Unit price", "x"] ["unit_price"]), ("u", .fields ["a"] ["b"])] : Factory Nat Nat) =
    some [("t", ["Unit price", "x", "unit_price"])] := by decide +kernel

end Ticdat

import Verif.Spec.Factory
import Verif.Props.DataType
/-!
# `create_from_full_schema` on a full schema that describes a factory
-/
set_option linter.unusedSectionVars false
set_option linter.unusedSimpArgs false
namespace Ticdat
open Spec PyDict
variable {V K : Type}

theorem plainTables_get? (tables : PyDict String Decl) (t : String) :
    get? (plainTables tables) t = (get? tables t).bind (fun d => match d with
      | .generic => none
      | .fields pks dfs => some ⟨pks, dfs⟩) ∨ ¬ (keys tables).Nodup := by
  by_cases h : (keys tables).Nodup
  · left
    induction tables with
    | nil => rfl
    | cons p rest ih =>
      obtain ⟨a, d⟩ := p
      simp only [keys, List.map_cons, List.nodup_cons] at h
      have ih := ih h.2
      cases d with
      | generic =>
        simp only [plainTables, List.filterMap_cons, get?] at ih ⊢
        rw [ih]
        by_cases e : a = t
        · subst e
          have : get? rest a = none := (get?_eq_none rest a).2 h.1
          simp [this]
        · simp [e]
      | fields pks dfs =>
        simp only [plainTables, List.filterMap_cons, get?] at ih ⊢
        by_cases e : a = t
        · simp [e]
        · simp [e, ih]
  · exact .inr h

theorem plain_get? {tables : PyDict String Decl} (h : (keys tables).Nodup) (t : String) (ts : TSchema) :
    get? (plainTables tables) t = some ts ↔ get? tables t = some (.fields ts.pks ts.dfs) := by
  rcases plainTables_get? tables t with e | e
  · rw [e]
    cases hg : get? tables t with
    | none => simp
    | some d =>
      cases d with
      | generic => simp
      | fields pks dfs =>
        simp only [Option.bind_some, Option.some.injEq, Decl.fields.injEq]
        constructor
        · rintro rfl; exact ⟨rfl, rfl⟩
        · rintro ⟨rfl, rfl⟩; rfl
  · exact absurd h e

theorem hasField_iff (f : Factory V K) (t fld : String) : f.hasField t fld = true ↔ HasField f.tables t fld := by
  unfold Factory.hasField HasField
  cases h : get? f.tables t with
  | none => simp
  | some d =>
    cases d with
    | generic => simp
    | fields pks dfs =>
      simp only [decide_eq_true_eq, Option.some.injEq, Decl.fields.injEq]
      constructor
      · intro h; exact ⟨pks, dfs, ⟨rfl, rfl⟩, h⟩
      · rintro ⟨_, _, ⟨rfl, rfl⟩, h⟩; exact h

theorem fks_fold {tables : PyDict String Decl} (hd : (keys tables).Nodup) (l : List FK)
    (hl : ∀ k ∈ l, FKOK (plainTables tables) k) (f : Factory V K) (hf : f.tables = tables) (hu : f.used = false) :
    l.foldlM (fun f k => f.addFK k.native k.foreign k.mapping) f = some { f with fks := l.foldl setAdd f.fks } := by
  induction l generalizing f with
  | nil => rfl
  | cons k l ih =>
    have hk := hl k List.mem_cons_self
    have e : f.addFK k.native k.foreign k.mapping = some { f with fks := setAdd f.fks k } := by
      obtain ⟨ts, hts⟩ : ∃ ts, get? (plainTables tables) k.native = some ts := by
        have := (has_iff _ _).2 hk.native_mem
        exact Option.isSome_iff_exists.1 this
      obtain ⟨ts', hts'⟩ : ∃ ts, get? (plainTables tables) k.foreign = some ts := by
        have := (has_iff _ _).2 hk.foreign_mem
        exact Option.isSome_iff_exists.1 this
      have h1 := hk.native_fields
      have h2 := hk.foreign_fields
      simp only [Schema.pks, Schema.dfs, hts, hts'] at h1 h2
      unfold Factory.addFK
      rw [hf, (plain_get? hd _ _).1 hts, (plain_get? hd _ _).1 hts', ofList_of_nodup _ hk.native_nodup]
      simp only [hu, Bool.false_eq_true, if_false]
      rw [if_pos ⟨hk.nonempty, fun p hp => ⟨h1 p hp, h2 p hp⟩⟩]
    rw [List.foldlM_cons, e]
    exact ih (fun k h => hl k (List.mem_cons_of_mem _ h)) _ hf hu

theorem types_fold {tables : PyDict String Decl} (l : List (String × String × TypeDict))
    (hl : ∀ p ∈ l, HasField tables p.1 p.2.1 ∧ GoodType p.2.2)
    (f : Factory V K) (hf : f.tables = tables) (hu : f.used = false) (hp : f.params = []) :
    l.foldlM (fun f p => f.setDataType p.1 p.2.1 p.2.2.toArgs) f =
      some { f with types := l.foldl (fun d p => set2 d p.1 p.2.1 p.2.2) f.types } := by
  induction l generalizing f with
  | nil => rfl
  | cons p l ih =>
    obtain ⟨h1, h2⟩ := hl p List.mem_cons_self
    have e : f.setDataType p.1 p.2.1 p.2.2.toArgs = some { f with types := set2 f.types p.1 p.2.1 p.2.2 } := by
      unfold Factory.setDataType
      rw [(hasField_iff f _ _).2 (hf ▸ h1), h2]
      simp [hu, hp]
    rw [List.foldlM_cons, e]
    exact ih (fun k h => hl k (List.mem_cons_of_mem _ h)) _ hf hu hp

theorem defaults_fold {tables : PyDict String Decl} (l : List (String × String × Cell))
    (hl : ∀ p ∈ l, HasField tables p.1 p.2.1 ∧ acceptableDefault p.2.2 = true)
    (f : Factory V K) (hf : f.tables = tables) (hu : f.used = false) :
    l.foldlM (fun f p => f.setDefault p.1 p.2.1 p.2.2) f =
      some { f with defaults := l.foldl (fun d p => set2 d p.1 p.2.1 p.2.2) f.defaults } := by
  induction l generalizing f with
  | nil => rfl
  | cons p l ih =>
    obtain ⟨h1, h2⟩ := hl p List.mem_cons_self
    have e : f.setDefault p.1 p.2.1 p.2.2 = some { f with defaults := set2 f.defaults p.1 p.2.1 p.2.2 } := by
      unfold Factory.setDefault
      rw [(hasField_iff f _ _).2 (hf ▸ h1), h2]
      simp [hu]
    rw [List.foldlM_cons, e]
    exact ih (fun k h => hl k (List.mem_cons_of_mem _ h)) _ hf hu

theorem params_fold (env : FactoryEnv) {pk df : String} (l : Params)
    (hl : ∀ p ∈ l, ∀ td, p.2.1 = some td → GoodType td ∧ td.validData env.text.parses p.2.2 = true)
    (f : Factory V K) (hf : l ≠ [] → get? f.tables "parameters" = some (.fields [pk] [df])) (hu : f.used = false)
    (ht : get2 f.types "parameters" df = none ∨ l = []) :
    l.foldlM (fun f p => f.addParam env p.1 p.2.2 (p.2.1.map TypeDict.toArgs)) f =
      some { f with params := l.foldl (fun d p => PyDict.set d p.1 p.2) f.params } := by
  induction l generalizing f with
  | nil => rfl
  | cons p l ih =>
    have h1 := hl p List.mem_cons_self
    replace ht : get2 f.types "parameters" df = none := ht.resolve_right (by simp)
    have e : f.addParam env p.1 p.2.2 (p.2.1.map TypeDict.toArgs) = some { f with params := PyDict.set f.params p.1 p.2 } := by
      unfold Factory.addParam
      rw [hf (by simp)]
      simp only [ht, hu, Option.isSome_none, Bool.or_false, Bool.false_eq_true, if_false]
      obtain ⟨n, t, d⟩ := p
      cases t with
      | none => rfl
      | some td =>
        obtain ⟨g1, g2⟩ := h1 td rfl
        simp only [Option.map_some, addParameter]
        rw [g1]
        simp [g2]
    rw [List.foldlM_cons, e]
    exact ih (fun k h => hl k (List.mem_cons_of_mem _ h)) _ (fun _ => hf (by simp)) hu (.inl ht)

theorem tips_fold {tables : PyDict String Decl} (l : List (String × String × String))
    (hl : ∀ p ∈ l, has tables p.1 = true ∧ (p.2.1 = "" ∨ HasField tables p.1 p.2.1) ∧ p.2.2 ≠ "")
    (f : Factory V K) (hf : f.tables = tables) :
    l.foldlM (fun f p => f.setTooltip p.1 p.2.1 p.2.2) f =
      some { f with tooltips := l.foldl (fun d p => PyDict.set d (p.1, p.2.1) p.2.2) f.tooltips } := by
  induction l generalizing f with
  | nil => rfl
  | cons p l ih =>
    obtain ⟨h1, h2, h3⟩ := hl p List.mem_cons_self
    have e : f.setTooltip p.1 p.2.1 p.2.2 = some { f with tooltips := PyDict.set f.tooltips (p.1, p.2.1) p.2.2 } := by
      unfold Factory.setTooltip
      have : (decide (p.2.1 = "") || f.hasField p.1 p.2.1) = true := by
        rcases h2 with h2 | h2
        · simp [h2]
        · simp [(hasField_iff f _ _).2 (hf ▸ h2)]
      rw [this, hf, h1]
      simp [h3]
    rw [List.foldlM_cons, e]
    exact ih (fun k h => hl k (List.mem_cons_of_mem _ h)) _ hf

theorem get?_foldl_flat {A B C : Type} [DecidableEq A] [DecidableEq B] (e : PyDict A (PyDict B C)) (he : IsDict2 e)
    (d : PyDict (A × B) C) (a : A) (b : B) :
    get? ((flat e).foldl (fun d p => PyDict.set d (p.1, p.2.1) p.2.2) d) (a, b) =
      match get2 e a b with
      | some v => some v
      | none => get? d (a, b) := by
  have hm : (flat e).foldl (fun d p => PyDict.set d (p.1, p.2.1) p.2.2) d =
      ((flat e).map (fun p => ((p.1, p.2.1), p.2.2))).foldl (fun d p => PyDict.set d p.1 p.2) d := by
    rw [List.foldl_map]
  rw [hm, get?_foldl_set]
  cases hf : ((flat e).map (fun p => ((p.1, p.2.1), p.2.2))).reverse.find? (fun p => decide (p.1 = (a, b))) with
  | some p =>
    have hm := List.mem_of_find?_eq_some hf
    have hp := List.find?_some hf
    simp only [decide_eq_true_eq] at hp
    rw [List.mem_reverse, List.mem_map] at hm
    obtain ⟨⟨a', b', v⟩, hq, rfl⟩ := hm
    simp only [Prod.mk.injEq] at hp
    obtain ⟨rfl, rfl⟩ := hp
    rw [(mem_flat he _ _ _).1 hq]
  | none =>
    rw [List.find?_eq_none] at hf
    cases hg : get2 e a b with
    | none => rfl
    | some v =>
      exact absurd (by simp) (hf ((a, b), v) (List.mem_reverse.2 (List.mem_map.2
        ⟨(a, b, v), (mem_flat he _ _ _).2 hg, rfl⟩)))

theorem friendlyTips_dict (tips : PyDict (String × String) String) : IsDict2 (friendlyTips tips) := by
  unfold friendlyTips
  have : ∀ (l : PyDict (String × String) String) (d : PyDict String (PyDict String String)), IsDict2 d →
      IsDict2 (l.foldl (fun d p => set2 d p.1.1 p.1.2 p.2) d) := by
    intro l
    induction l with
    | nil => intro d h; exact h
    | cons p l ih => intro d h; exact ih _ (isDict2_set2 h _ _ _)
  exact this tips [] isDict2_nil

theorem friendlyTips_get2 (tips : PyDict (String × String) String) (h : (keys tips).Nodup) (t fld : String) :
    get2 (friendlyTips tips) t fld = get? tips (t, fld) := by
  unfold friendlyTips
  have : ∀ (l : PyDict (String × String) String) (d : PyDict String (PyDict String String)), (keys l).Nodup →
      get2 (l.foldl (fun d p => set2 d p.1.1 p.1.2 p.2) d) t fld =
        match get? l (t, fld) with
        | some v => some v
        | none => get2 d t fld := by
    intro l
    induction l with
    | nil => intro d _; rfl
    | cons p l ih =>
      intro d h
      obtain ⟨⟨a, b⟩, v⟩ := p
      simp only [keys, List.map_cons, List.nodup_cons] at h
      rw [List.foldl_cons, ih _ h.2]
      simp only [get?, get2_set2, Prod.mk.injEq]
      by_cases e : a = t ∧ b = fld
      · obtain ⟨rfl, rfl⟩ := e
        have : get? l (a, b) = none := (get?_eq_none l _).2 h.1
        simp [this]
      · simp [e]
  rw [this tips [] h]
  cases get? tips (t, fld) <;> rfl

/-- What `create_from_full_schema` makes of a full schema. -/
structure Created (fs : FullSchema) (f : Factory V K) : Prop where
  tables : f.tables = fs.tables
  fks : ∀ k, k ∈ f.fks ↔ k ∈ fs.fks
  types : ∀ t fld, get2 f.types t fld = get2 fs.types t fld
  defaults : ∀ t fld, get2 f.defaults t fld = match get2 fs.defaults t fld with
    | some c => some c
    | none => get2 (zeroDefaults fs.tables) t fld
  params : ∀ n, get? f.params n = get? (fs.params.getD []) n
  flag : f.flag = fs.flag.getD .na
  prune : f.prune = fs.prune.getD true
  dups : f.dups = fs.dups.getD .assert
  automunge : f.automunge = fs.automunge.getD true
  tooltips : ∀ t fld, get? f.tooltips (t, fld) = get2 (fs.tooltips.getD []) t fld
  preds : f.preds = []
  generators : f.generators = []
  links : f.links = false
  used : f.used = false

theorem mem_foldl_setAdd {A : Type} [DecidableEq A] (l s : List A) (x : A) :
    x ∈ l.foldl setAdd s ↔ x ∈ s ∨ x ∈ l := by
  induction l generalizing s with
  | nil => simp
  | cons a l ih =>
    rw [List.foldl_cons, ih, mem_setAdd]
    simp only [List.mem_cons]
    constructor
    · rintro ((h | h) | h)
      · exact .inl h
      · exact .inr (.inl h)
      · exact .inr (.inr h)
    · rintro (h | h | h)
      · exact .inl (.inl h)
      · exact .inl (.inr h)
      · exact .inr h

theorem setInfFlag_toCell (x : InfFlag) (h : ∀ q, x = .num q → 0 < q) : setInfFlag x.toCell = some x := by
  cases x with
  | na => rfl
  | none => rfl
  | num q => simp [setInfFlag, InfFlag.toCell, h q rfl]

theorem create_ok (env : FactoryEnv) (fs : FullSchema) (h : ValidSchema env fs) :
    ∃ f : Factory V K, createFromFullSchema env fs = some f ∧ Created fs f := by
  have hpar : (fs.params.getD []).all (fun p => p.1.stringish && !env.containerish p.2.2) = true := by
    rw [List.all_eq_true]
    intro p hp
    obtain ⟨h1, h2, _⟩ := h.param p hp
    simp [h1, h2]
  have hnew : ∃ f0 : Factory V K, newFactory env fs.tables = some f0 ∧ f0 = { tables := fs.tables, defaults := zeroDefaults fs.tables, types := [], preds := [], tooltips := [], generators := [], fks := [], links := false, params := [], flag := .na, prune := true, dups := .assert, automunge := true, used := false } := by
    unfold newFactory
    have : fs.tables.all (fun p => goodDecl env.case p.2) = true := by
      rw [List.all_eq_true]; exact h.decls
    rw [h.names, this]
    exact ⟨_, rfl, rfl⟩
  obtain ⟨f0, e0, hf0⟩ := hnew
  obtain ⟨pk, df, hpt⟩ : ∃ pk df, fs.params.getD [] ≠ [] → get? fs.tables "parameters" = some (.fields [pk] [df]) := by
    by_cases hp : fs.params.getD [] = []
    · exact ⟨"", "", fun h => absurd hp h⟩
    · obtain ⟨pk, df, e⟩ := h.params hp
      exact ⟨pk, df, fun _ => e⟩
  unfold createFromFullSchema
  simp only [hpar, if_true, e0, Option.bind_eq_bind, Option.bind_some]
  rw [fks_fold h.dict.tables fs.fks h.fks f0 (by rw [hf0]) (by rw [hf0])]
  simp only [Option.bind_some]
  rw [types_fold (tables := fs.tables) _ (by
    rintro ⟨t, fld, td⟩ hm
    obtain ⟨g1, g2, _⟩ := h.types t fld td ((mem_flat h.dict.types _ _ _).1 hm)
    exact ⟨g1, g2⟩) _ (by simp [hf0]) (by simp [hf0]) (by simp [hf0])]
  simp only [Option.bind_some]
  rw [defaults_fold (tables := fs.tables) _ (by
    rintro ⟨t, fld, c⟩ hm
    exact h.defaults t fld c ((mem_flat h.dict.defaults _ _ _).1 hm)) _ (by simp [hf0]) (by simp [hf0])]
  simp only [Option.bind_some]
  rw [params_fold env (pk := pk) (df := df) _ (fun p hp => (h.param p hp).2.2) _ (by simpa [hf0] using hpt)
    (by simp [hf0]) (by
      by_cases hp : fs.params.getD [] = []
      · exact .inr hp
      · left
        simp only [hf0]
        rw [get2_foldl_flat _ h.dict.types]
        cases hg : get2 fs.types "parameters" df with
        | none => rfl
        | some td => exact absurd ⟨rfl, _, _, hpt hp, by simp⟩ ((h.types _ _ _ hg).2.2 hp))]
  simp only [Option.bind_some]
  have flg : ∀ f : Factory V K, f.flag = .na → f.withFlag fs.flag = some { f with flag := fs.flag.getD .na } := by
    intro f hf
    cases hx : fs.flag with
    | none => simp [Factory.withFlag, ← hf]
    | some x =>
      simp only [Factory.withFlag]
      rw [setInfFlag_toCell x (fun q e => h.flag q (by rw [hx, e]))]
      rfl
  rw [flg _ (by simp [hf0])]
  simp only [Option.bind_some]
  rw [tips_fold (tables := fs.tables) _ (by
    rintro ⟨t, fld, tip⟩ hm
    exact h.tooltips t fld tip ((mem_flat h.dict.tooltips _ _ _).1 hm)) _ (by simp [hf0])]
  refine ⟨_, rfl, ?_⟩
  rw [hf0]
  constructor
  · rfl
  · intro k; simp [mem_foldl_setAdd]
  · intro t fld
    simp only
    rw [get2_foldl_flat _ h.dict.types]
    cases get2 fs.types t fld <;> rfl
  · intro t fld
    simp only
    rw [get2_foldl_flat _ h.dict.defaults]
    cases get2 fs.defaults t fld <;> rfl
  · intro n
    simp only
    rw [get?_foldl_self _ h.dict.params]
    cases get? (fs.params.getD []) n <;> rfl
  · rfl
  · rfl
  · rfl
  · rfl
  · intro t fld
    simp only
    rw [get?_foldl_flat _ h.dict.tooltips]
    cases get2 (fs.tooltips.getD []) t fld <;> rfl
  all_goals rfl

end Ticdat

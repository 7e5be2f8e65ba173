import Verif.Lemmas.PanClone
/-!
# C69: a `PanDatFactory` keeps its rules like a `TicDatFactory`, and schemas move between the two
-/
set_option linter.unusedSectionVars false
set_option linter.unusedSimpArgs false
namespace Ticdat
open Spec PyDict
variable {V K : Type}

/-- **C69.**  Whatever calls are made on a `PanDatFactory`: leaving its data row predicates aside, its state is one that a
`TicDatFactory` can be brought to, without generator tables and foreign key links. -/
theorem pan_state_is_tic_state (env : FactoryEnv) (f : Factory V K) (h : PanReachable env f) :
    Reachable env ({ f with preds := [] } : Factory V K) ∧ f.generators = [] ∧ f.links = false ∧
      (∀ t n p, get2 f.preds t n = some p → has f.tables t = true) ∧ ∀ k ∈ f.fks, k.mapping ≠ [] :=
  have hi := pan_inv h
  ⟨hi.bare, hi.generators, hi.links, hi.preds, hi.fks⟩

/-! ### Once used -/

theorem pan_used_setters_raise_aux (env : FactoryEnv) (f : Factory V K) (op : FOp V K) (hu : f.used = true)
    (hop : SetsRules op) : (f.applyPan env op).1 = f ∧ ((f.applyPan env op).2 = true ∨ ClearsNothing f op) := by
  by_cases hs : SharedCall op
  · rw [shared_apply env f op hs]
    have hne : op ≠ .addImplied := by rintro rfl; exact hs
    exact used_setters_raise env f _ op _ hu hop (.plain hne rfl)
  · cases op with
    | setDefaults l => simp [Factory.applyPan, Factory.panSetDefaults, hu]
    | addImplied => exact ⟨rfl, .inl rfl⟩
    | setGenerators g => exact ⟨rfl, .inl rfl⟩
    | addRowPred c => simp [Factory.applyPan, Factory.panAddRowPred, hu, Factory.tryOp]
    | enableLinks => exact ⟨rfl, .inl rfl⟩
    | _ => exact absurd trivial hs

/-- **C69.**  Once a `PanDatFactory` has produced a data object, every call that sets foreign keys, default values, data
types or data row predicates or adds a parameter raises and leaves the factory as it was.  (The only such call that does not
raise clears the data type of a field that has none.) -/
theorem pan_used_setters_raise (env : FactoryEnv) (f g : Factory V K) (op : FOp V K) (r : Bool) (hu : f.used = true)
    (hop : SetsRules op) (h : f.applyPan env op = (g, r)) : g = f ∧ (r = true ∨ ClearsNothing f op) := by
  have := pan_used_setters_raise_aux env f op hu hop
  rw [h] at this
  exact this

/-- **C69.**  Whatever calls follow the first use of a `PanDatFactory`, raising or not: it stays used and keeps its tables,
foreign keys, default values, data types and data row predicates; no parameter is added or changed. -/
theorem pan_used_fixed (env : FactoryEnv) (f : Factory V K) (ops : List (FOp V K)) (hr : PanReachable env f)
    (hu : f.used = true) : (f.applyPanAll env ops).used = true ∧ SameRules f (f.applyPanAll env ops) ∧
      ∀ n v, get? (f.applyPanAll env ops).params n = some v → get? f.params n = some v := by
  induction ops generalizing f with
  | nil => exact ⟨hu, ⟨rfl, rfl, rfl, rfl, rfl, rfl⟩, fun _ _ h => h⟩
  | cons op ops ih =>
    have key : (f.applyPan env op).1.used = true ∧ SameRules f (f.applyPan env op).1 ∧
        ∀ n v, get? (f.applyPan env op).1.params n = some v → get? f.params n = some v := by
      by_cases hop : SetsRules op
      · rw [(pan_used_setters_raise_aux env f op hu hop).1]
        exact ⟨hu, ⟨rfl, rfl, rfl, rfl, rfl, rfl⟩, fun _ _ h => h⟩
      · by_cases hs : SharedCall op
        · rw [shared_apply env f op hs]
          have hne : op ≠ .addImplied := by rintro rfl; exact hs
          obtain ⟨u1, s1, _, p1⟩ := used_step env f _ op _ hu (.plain hne rfl)
          exact ⟨u1, s1, fun n v e => p1 n v (reachable_inv env _ (pan_inv hr).bare).params_nodup e⟩
        · cases op with
          | setDefaults l => exact absurd (.setDefaults l) hop
          | addImplied => exact absurd .addImplied hop
          | setGenerators g => exact absurd (.setGenerators g) hop
          | addRowPred c => exact absurd (.addRowPred c) hop
          | enableLinks => exact ⟨hu, ⟨rfl, rfl, rfl, rfl, rfl, rfl⟩, fun _ _ h => h⟩
          | _ => exact absurd trivial hs
    obtain ⟨u1, s1, p1⟩ := key
    obtain ⟨u2, s2, p2⟩ := ih _ (hr.step op) u1
    refine ⟨u2, ⟨s2.tables.trans s1.tables, s2.fks.trans s1.fks, s2.defaults.trans s1.defaults, s2.types.trans s1.types,
      s2.generators.trans s1.generators, s2.preds.trans s1.preds⟩, ?_⟩
    intro n v e
    exact p1 n v (p2 n v e)

/-! ### The full schema -/

/-- The parameters are named by strings and have no containers as default values. -/
def PlainParams (env : FactoryEnv) (f : Factory V K) : Prop :=
  ∀ p ∈ f.params, p.1.stringish = true ∧ env.containerish p.2.2 = false

theorem expressible_pan {env : FactoryEnv} {f : Factory V K} (h : PanReachable env f) :
    Expressible env f ↔ PlainParams env f :=
  ⟨fun he p hp => ⟨he.names p hp, he.defaults p hp⟩,
    fun hp => ⟨(pan_inv h).fks, fun p h => (hp p h).1, fun p h => (hp p h).2⟩⟩

theorem schema_dict_of {env : FactoryEnv} (k : FKind) {f : Factory V K} (h : FactoryOf env k f) : IsSchemaDict f.schema := by
  cases k with
  | tic => exact schema_isDict h
  | pan => exact schema_isDict (f := f.bare) (pan_inv h).bare

/-- **C69.**  From any dictionary equal to the full schema of a `PanDatFactory` both `create_from_full_schema` methods make
a factory with that same full schema, exactly when all parameters are named by strings and have no containers as default
values.  The new factory is unused; it has no data row predicates. -/
theorem pan_schema_round_trip (env : FactoryEnv) (f : Factory V K) (hr : PanReachable env f) (fs : FullSchema)
    (hd : IsSchemaDict fs) (hs : SameSchema fs f.schema) :
    (PlainParams env f → ∃ g : Factory V K, createFromFullSchema env fs = some g ∧ SameSchema g.schema f.schema ∧
      g.used = false ∧ g.preds = [] ∧ g.generators = [] ∧ g.links = false ∧ ∀ k, FactoryOf env k g) ∧
    (¬ PlainParams env f → (createFromFullSchema env fs : Option (Factory V K)) = none) := by
  have hb := (pan_inv hr).bare
  have ex : Expressible env f.bare ↔ PlainParams env f :=
    ⟨fun he p hp => ⟨he.names p hp, he.defaults p hp⟩,
      fun hp => ⟨(pan_inv hr).fks, fun p h => (hp p h).1, fun p h => (hp p h).2⟩⟩
  constructor
  · intro hp
    obtain ⟨g, e, h1, h2, h3, h4, h5⟩ := schema_round_trip_partial env f.bare hb (ex.2 hp) fs hd hs
    refine ⟨g, e, h1, h2, h3, h4, h5, ?_⟩
    intro k
    cases k with
    | tic => exact create_reachable env fs hd.tables g e
    | pan => exact create_pan_reachable hd.tables e
  · intro hp
    exact (schema_round_trip_sharp env f.bare hb fs hd hs).2 (fun he => hp (ex.1 he))

/-! ### `clone` -/

/-- When `clone` of a factory of the class `src` to one of the class `dst` works. -/
structure CanClone (env : FactoryEnv) (src dst : FKind) (convert : Bool) (f : Factory V K) : Prop where
  /-- the foreign keys have fields, the parameters are named by strings and have no containers as default values -/
  expressible : Expressible env f
  /-- a `TicDatFactory` with enabled foreign key links is not cloned to a `PanDatFactory` -/
  links : src = .tic → dst = .pan → f.links = false
  /-- a `TicDatFactory` takes no data row predicates on generic tables and generator tables -/
  preds : dst = .tic → ∀ t n p, get2 f.preds t n = some p → PredKept src dst convert p →
    (∃ pks dfs, get? f.tables t = some (.fields pks dfs)) ∧ t ∉ f.generators

theorem kept_iff (src dst : FKind) (convert : Bool) (p : RowPred V K) :
    (!((decide (src ≠ dst) && !convert) && p.maker.isSome)) = true ↔ PredKept src dst convert p := by
  unfold PredKept
  by_cases e : src = dst
  · simp [e]
  · cases convert <;> cases p.maker <;> simp [e]

/-- **C69.**  `clone(clone_factory=dst, convert_dat=...)` of a factory of either class: exactly when the conditions hold it
yields a factory of the class `dst` with the same full schema and the data row predicates that are kept, and otherwise it
raises. -/
theorem clone_between (env : FactoryEnv) (src dst : FKind) (convert : Bool) (f : Factory V K) (hr : FactoryOf env src f) :
    (CanClone env src dst convert f → ∃ g, f.cloneTo env src dst none convert = some g ∧ ClonedTo src dst convert f g ∧
      FactoryOf env dst g) ∧
    (¬ CanClone env src dst convert f → f.cloneTo env src dst none convert = none) := by
  have hb : Reachable env f.bare ∨ Reachable env f := by
    cases src with
    | tic => exact .inr hr
    | pan => exact .inl (pan_inv hr).bare
  have inv : ∃ f' : Factory V K, Reachable env f' ∧ f'.schema = f.schema ∧ f'.tables = f.tables ∧ f'.fks = f.fks ∧
      f'.params = f.params ∧ f'.defaults = f.defaults ∧ f'.tooltips = f.tooltips := by
    rcases hb with h | h
    · exact ⟨_, h, rfl, rfl, rfl, rfl, rfl, rfl⟩
    · exact ⟨_, h, rfl, rfl, rfl, rfl, rfl, rfl⟩
  obtain ⟨f', hr', s1, s2, s3, s4, s5, s6⟩ := inv
  have hi := reachable_inv env f' hr'
  have hpd : IsDict2 f.preds := by
    cases src with
    | tic => exact (reachable_inv env f hr).preds_dict
    | pan => exact (pan_inv hr).preds_dict
  have hpt : ∀ t n p, get2 f.preds t n = some p → has f.tables t = true := by
    cases src with
    | tic =>
      intro t n p h
      obtain ⟨_, _, h⟩ := (reachable_inv env f hr).preds t n p h
      exact (has_iff _ _).2 (List.mem_map.2 ⟨_, get?_mem h, rfl⟩)
    | pan => exact (pan_inv hr).preds
  have ex : Expressible env f' ↔ Expressible env f := by
    constructor
    · rintro ⟨a, b, c⟩
      exact ⟨fun k hk => a k (s3 ▸ hk), fun p hp => b p (s4 ▸ hp), fun p hp => c p (s4 ▸ hp)⟩
    · rintro ⟨a, b, c⟩
      exact ⟨fun k hk => a k (s3 ▸ hk), fun p hp => b p (s4 ▸ hp), fun p hp => c p (s4 ▸ hp)⟩
  have hdict : IsSchemaDict f.schema := s1 ▸ schema_isDict hr'
  by_cases he : Expressible env f
  · have hv : ValidSchema env f.schema :=
      validSchema_of_inv env f' hi (ex.2 he) _ hdict (s1 ▸ sameSchema_refl _)
    obtain ⟨g0, e0, c⟩ := create_ok (V := V) (K := K) env f.schema hv
    have hm : ((none : Option (List String)).elim (some f.schema) (fun ts => restrictSchema f.schema ts [])).bind
        (createFromFullSchema env) = some g0 := by simpa using e0
    have htab : g0.tables = f.tables := c.tables
    have hgen : cloneGens src dst f g0 = if src = .tic ∧ dst = .tic then f.generators else [] := by
      cases src <;> cases dst <;> simp [cloneGens, c.generators]
    have okp : (∀ t n p, get2 f.preds t n = some p → (none : Option (List String)).elim true (fun ts => decide (t ∈ ts)) = true →
        (!((decide (src ≠ dst) && !convert) && p.maker.isSome)) = true → AddOk dst g0.tables (cloneGens src dst f g0) t) ↔
        (dst = .tic → ∀ t n p, get2 f.preds t n = some p → PredKept src dst convert p →
          (∃ pks dfs, get? f.tables t = some (.fields pks dfs)) ∧ t ∉ f.generators) := by
      rw [htab, hgen]
      constructor
      · rintro h rfl t n p h1 h2
        have := h t n p h1 rfl ((kept_iff _ _ _ _).2 h2)
        refine ⟨this.1, ?_⟩
        intro hg
        cases src with
        | tic => exact this.2 (by rw [if_pos ⟨rfl, rfl⟩]; exact hg)
        | pan => rw [(pan_inv hr).generators] at hg; exact absurd hg List.not_mem_nil
      · intro h t n p h1 _ h3
        cases dst with
        | pan => exact hpt t n p h1
        | tic =>
          obtain ⟨a, b⟩ := h rfl t n p h1 ((kept_iff _ _ _ _).1 h3)
          refine ⟨a, ?_⟩
          split
          · exact b
          · exact List.not_mem_nil
    constructor
    · intro hc
      have hsome := cloneAs_some (src := src) (dst := dst) (f := f) (restr := none) (drop := decide (src ≠ dst) && !convert)
        (make := createFromFullSchema env) hm c.used hpd (by
          rintro rfl rfl t ht
          have := (reachable_inv env f hr).generators t ht
          unfold Factory.pkless at this ⊢
          rw [htab]
          exact this) (okp.2 hc.preds) hc.links
      refine ⟨_, hsome, ?_, ?_⟩
      · refine ⟨?_, ?_, ?_, ?_, ?_, ?_, ?_, ?_, ?_, ?_, ?_, ?_, ?_, c.used⟩
        · intro t
          simp only [htab]
        · intro k
          simp only [c.fks]
          rfl
        · intro t x
          simp only [c.types]
          rfl
        · intro t x
          simp only [c.defaults, Factory.schema]
          cases hg : get2 f.defaults t x with
          | some v => rfl
          | none =>
            simp only
            rw [zeroDefaults_get2 (s2 ▸ hi.tables_nodup), if_neg]
            rintro ⟨_, _, h1, h2⟩
            have := hi.data_defaults _ _ _ _ (s2 ▸ h1) h2
            rw [s5, hg] at this
            simp at this
        · intro n
          simp only [c.params]
          rfl
        · simp only [c.flag]; rfl
        · simp only [c.prune]; rfl
        · simp only [c.dups]; rfl
        · simp only [c.automunge]; rfl
        · rintro ⟨t, x⟩
          simp only [c.tooltips]
          have := friendlyTips_of_inv env hi t x
          rw [s6] at this
          simpa [Factory.schema] using this
        · intro t n p
          simp only
          rw [get2_foldl_flat _ (keptPreds_dict hpd _ _), c.preds]
          have hk := keptPreds_get2 hpd (fun t => (none : Option (List String)).elim true (fun ts => decide (t ∈ ts)))
            (fun p : RowPred V K => !((decide (src ≠ dst) && !convert) && p.maker.isSome)) t n
          constructor
          · intro h
            split at h
            · rename_i v hx
              rw [Option.some.injEq] at h
              subst h
              have := (hk v).1 hx
              exact ⟨this.1, (kept_iff _ _ _ _).1 this.2.2⟩
            · simp [get2, get?] at h
          · rintro ⟨h1, h2⟩
            rw [(hk p).2 ⟨h1, rfl, (kept_iff _ _ _ _).2 h2⟩]
        · exact hgen
        · cases src <;> cases dst <;> simp [cloneLink, c.links]
      · refine cloneAs_of env src dst f none _ _ ?_ _ hsome
        intro fs g h1 h2
        simp only [Option.elim, Option.some.injEq] at h1
        subst h1
        cases dst with
        | tic => exact create_reachable env _ hdict.tables g h2
        | pan => exact create_pan_reachable hdict.tables h2
    · intro hc
      unfold Factory.cloneTo
      by_cases hl : src = .tic → dst = .pan → f.links = false
      · refine cloneAs_none_pred hm c.used hpd ?_
        intro h
        exact hc ⟨he, hl, okp.1 h⟩
      · cases src <;> cases dst <;> simp at hl
        exact cloneAs_none_links hl
  · constructor
    · intro hc
      exact absurd hc.expressible he
    · intro _
      refine cloneAs_none_make ?_
      have := (schema_round_trip_sharp env f' hr' f.schema hdict (s1 ▸ sameSchema_refl _)).2 (fun h => he (ex.1 h))
      simpa using this

end Ticdat

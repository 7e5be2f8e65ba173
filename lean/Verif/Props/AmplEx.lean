import Verif.Props.AmplSend
/-!
# C70: AMPL variables into a `PanDat`; examples and findings
-/
set_option linter.unusedSectionVars false
set_option linter.unusedSimpArgs false
namespace Ticdat
open Spec PyDict

/-- The tables that `copy_from_ampl_variables` makes are as the schema says. -/
theorem ampl_result_shaped {case : CaseEnv} {schema : List (String × TabClass)} {es : List AmplEntry} (hv : AmplVars es)
    (hs : AmplSchema case schema) (hfit : ∀ e ∈ es, AmplFits case schema e) {out : PyDict String TabVal}
    (h : AmplResult schema es out) {tc : String × TabClass} (htc : tc ∈ schema) :
    ∃ tab, get? out tc.1 = some tab ∧ WellShaped tc.2 tab := by
  by_cases hp : tc.2.pks = []
  · exact ⟨_, h.plain tc htc hp, hp, fun row hr => absurd hr List.not_mem_nil⟩
  · obtain ⟨d, h1, h2⟩ := h.keyed tc htc hp
    refine ⟨_, h1, hp, h2.nodup, fun p hpm => ⟨?_, h2.fields p.1 p.2 (get?_of_mem h2.nodup hpm)⟩⟩
    obtain ⟨e, he, het, q, hq, hpass, hk⟩ := (h2.keys p.1).1 (List.mem_map.2 ⟨p, hpm, rfl⟩)
    obtain ⟨c, hc, _, _, hok⟩ := hfit e he
    rw [het, get?_of_mem (d := schema) hs.names htc, Option.some.injEq] at hc
    subst hc
    obtain ⟨_, _, _, h4⟩ := hok (List.ne_nil_of_mem hq)
    rcases h4 with h4 | h4
    · rw [← hk]
      exact indexKey_shape _ _ (by rw [hv.levels e he q hq, h4])
    · exact absurd hpass (h4.2 q hq)

/-- **C70.**  `PanDatFactory.copy_from_ampl_variables`, for a schema without generic tables: it works exactly if every entry
fits, and each DataFrame has the fields as its columns, no index, and the rows of the table that a `TicDatFactory` would
have made. -/
theorem pan_copy_from_ampl (penv : PandasEnv) (henv : KeepsRows penv) (case : CaseEnv) (policy : DupPolicy)
    (schema : List (String × TabClass)) (hs : AmplSchema case schema) (es : List AmplEntry) (hv : AmplVars es) :
    ((∀ e ∈ es, AmplFits case schema e) →
      ∃ out tabs, panCopyFromAmpl penv case policy (schema.map (fun tc => (tc.1, some tc.2))) es = some out ∧
        AmplResult schema es tabs ∧ keys out = schema.map Prod.fst ∧
        ∀ tc ∈ schema, ∃ tab v, get? tabs tc.1 = some tab ∧ get? out tc.1 = some v ∧ v.index = [] ∧
          v.cols = tc.2.fields.map .name ∧ Pairwise2 (Pairwise2 Stored) (tabRows tab) (v.rows.map Prod.snd)) ∧
    ((¬ ∀ e ∈ es, AmplFits case schema e) →
      panCopyFromAmpl penv case policy (schema.map (fun tc => (tc.1, some tc.2))) es = none) := by
  have hfm : (schema.map (fun tc => (tc.1, some tc.2))).filterMap (fun tc => tc.2.map (fun c => (tc.1, c))) = schema := by
    rw [List.filterMap_map]
    induction schema with
    | nil => rfl
    | cons tc l ih =>
      have h2 : AmplSchema case l := ⟨(List.nodup_cons.1 hs.names).2, fun x hx => hs.decls x (List.mem_cons_of_mem _ hx),
        fun x hx => hs.dict x (List.mem_cons_of_mem _ hx), fun x hx => hs.defaults x (List.mem_cons_of_mem _ hx)⟩
      rw [List.filterMap_cons]
      simp only [Function.comp, Option.map_some]
      exact congrArg _ (ih h2)
  obtain ⟨h1, h2⟩ := copy_from_ampl case policy schema hs es hv
  unfold panCopyFromAmpl
  rw [hfm]
  constructor
  · intro hfit
    obtain ⟨tabs, e1, hres⟩ := h1 hfit
    rw [e1]
    simp only [Option.bind_eq_bind, Option.bind_some]
    rw [List.mapM_map]
    obtain ⟨out, ho, hk, hP⟩ := sent_mapM schema hs.names
      ((fun (tc : String × Option TabClass) => tc.2.bind (fun c => (get? tabs tc.1).bind (fun tab =>
        (copyToPandas penv c (some false) false tab).bind (fun v => (panInit c v.dropIndex).bind (fun u => pure (tc.1, u))))))
        ∘ (fun tc => (tc.1, some tc.2)))
      (fun t c v => ∃ tab, get? tabs t = some tab ∧ v.index = [] ∧
          v.cols = c.fields.map .name ∧ Pairwise2 (Pairwise2 Stored) (tabRows tab) (v.rows.map Prod.snd))
      (by
        intro tc htc
        have hc := amplClass_of hs tc htc
        obtain ⟨tab, ht, hw⟩ := ampl_result_shaped hv hs hfit hres htc
        obtain ⟨v, hv1, hv2, hv3, hv4⟩ := to_pandas_columns penv henv tc.2 hc.nodup tab hw
        refine ⟨v.dropIndex, ?_, tab, ht, rfl, hv3, ?_⟩
        · simp only [Function.comp, Option.bind_some]
          rw [ht, Option.bind_some, hv1, Option.bind_some,
            pan_copy_same tc.2 (hs.dict tc htc) (fun f hf => List.mem_append_right _ ((hs.defaults tc htc f).1 hf)) v.dropIndex []
              (by rw [List.append_nil]; exact hv3)]
          rfl
        · have : v.dropIndex.rows.map Prod.snd = v.rows.map Prod.snd := by
            simp [Frame.dropIndex, List.map_map, Function.comp_def]
          rw [this]
          exact hv4)
    refine ⟨out, tabs, ho, hres, hk, fun tc htc => ?_⟩
    obtain ⟨v, h3, tab, h4, h5⟩ := hP tc htc
    exact ⟨tab, v, h4, h3, h5⟩
  · intro hfit
    rw [h2 hfit]
    rfl

/-- With a generic table in the schema it always raises. -/
theorem pan_copy_from_ampl_generic (penv : PandasEnv) (case : CaseEnv) (policy : DupPolicy)
    (schema : List (String × Option TabClass)) (hg : ∃ tc ∈ schema, tc.2 = none) (es : List AmplEntry) :
    panCopyFromAmpl penv case policy schema es = none := by
  obtain ⟨tc, h1, h2⟩ := hg
  unfold panCopyFromAmpl
  cases copyFromAmpl case policy _ es with
  | none => rfl
  | some tabs =>
    simp only [Option.bind_eq_bind, Option.bind_some]
    exact mapM_none_of h1 (by rw [h2]; rfl)

/-- A variable that only says which keys there are comes to the same as one that sets a field to its default value, for
every key. -/
theorem keys_only_sets_defaults (case : CaseEnv) (policy : DupPolicy) (schema : List (String × TabClass))
    (hs : AmplSchema case schema) (es : List AmplEntry) (hv : AmplVars es) (hfit : ∀ e ∈ es, AmplFits case schema e)
    (hko : ∀ e ∈ es, KeysOnly e) (t : String) (c : TabClass) (ht : (t, c) ∈ schema) (hp : c.pks ≠ []) :
    ∃ out d, copyFromAmpl case policy schema es = some out ∧ get? out t = some (.keyed d) ∧
      ∀ k row, get? d k = some row → ∀ f ∈ c.dfs, get? row f = some (defaultOf c f) := by
  obtain ⟨out, h1, h2⟩ := (copy_from_ampl case policy schema hs es hv).1 hfit
  obtain ⟨d, h3, h4⟩ := h2.keyed _ ht hp
  refine ⟨out, d, h1, h3, fun k row hk f hf => (h4.cells k row hk f hf _).2 (.inr ⟨?_, rfl⟩)⟩
  rintro y ⟨h5, e, he, _, h6, _⟩
  rcases hko e he with h | h <;> rw [h] at h6 <;> cases h6
  exact h5 rfl

/-! ### Examples -/

/-- A schema: `opened` with key `site`, `flow` with keys `from` and `to`, `log` without key. -/
def amplExSchema : List (String × TabClass) :=
  [("opened", ⟨["site"], ["cost"], [("cost", .num (.fin 5))]⟩),
   ("flow", ⟨["from", "to"], ["qty", "price"], [("qty", .num (.fin 0)), ("price", .num (.fin 1))]⟩),
   ("log", ⟨[], ["line"], [("line", .num (.fin 0))]⟩)]

/-- Variables: one that only gives keys, one with zeros that are not copied, one with a filter that takes everything. -/
def amplExVars : List AmplEntry :=
  [⟨"opened", none, 1, [([.str "a"], .num (.fin 1)), ([.str "b"], .num (.fin 0))], none⟩,
   ⟨"flow", some "qty", 2, [([.str "a", .str "x"], .num (.fin 3)), ([.str "b", .str "x"], .num (.fin 0))], none⟩,
   ⟨"flow", some "price", 2, [([.str "b", .str "x"], .num (.fin 0))], some (fun _ => true)⟩]

theorem amplExSchema_ok : AmplSchema asciiEnv amplExSchema :=
  ⟨by decide, by decide, by decide, fun tc h f => by
    simp only [amplExSchema, List.mem_cons, List.not_mem_nil, or_false] at h
    rcases h with rfl | rfl | rfl <;> simp [keys]⟩

theorem amplExVars_ok : AmplVars amplExVars := ⟨by decide, by decide, by decide⟩

theorem amplExVars_fit : ∀ e ∈ amplExVars, AmplFits asciiEnv amplExSchema e := by
  intro e he
  simp only [amplExVars, List.mem_cons, List.not_mem_nil, or_false] at he
  rcases he with rfl | rfl | rfl
  · exact ⟨_, rfl, by decide, .inl (.inl rfl), fun _ => ⟨by decide, fun h => absurd (.inl rfl) h, fun _ => by decide, .inl rfl⟩⟩
  · exact ⟨_, rfl, by decide, .inr ⟨"qty", by decide, rfl⟩, fun _ => ⟨by decide, fun _ => by decide,
      fun h => absurd h (by simp [KeysOnly]), .inl rfl⟩⟩
  · exact ⟨_, rfl, by decide, .inr ⟨"price", by decide, rfl⟩, fun _ => ⟨by decide, fun _ => by decide,
      fun h => absurd h (by simp [KeysOnly]), .inl rfl⟩⟩

/-- `copy_from_ampl` on it: rows of two variables are joined, and what no variable gives has its default value. -/
example : copyFromAmpl asciiEnv .assert amplExSchema amplExVars = some
    [("opened", .keyed [(.one (.str "a"), [("cost", .num (.fin 5))])]),
     ("flow", .keyed [(.tup [.str "a", .str "x"], [("qty", .num (.fin 3)), ("price", .num (.fin 1))]),
       (.tup [.str "b", .str "x"], [("qty", .num (.fin 0)), ("price", .num (.fin 0))])]),
     ("log", .plain [])] := by rfl

example : ∃ out, copyFromAmpl asciiEnv .assert amplExSchema amplExVars = some out ∧ AmplResult amplExSchema amplExVars out :=
  (copy_from_ampl asciiEnv .assert amplExSchema amplExSchema_ok amplExVars amplExVars_ok).1 amplExVars_fit

/-- An entry that does not fit: the index of `flow` has two entries. -/
example : copyFromAmpl asciiEnv .assert amplExSchema
    [⟨"flow", some "qty", 1, [([.str "a"], .num (.fin 3))], none⟩] = none := by rfl

example : ∃ out, panCopyFromAmpl plainPandas asciiEnv .assert (amplExSchema.map (fun tc => (tc.1, some tc.2))) amplExVars = some out := by
  obtain ⟨out, _, h, _⟩ := (pan_copy_from_ampl plainPandas plainPandas_keeps asciiEnv .assert amplExSchema amplExSchema_ok
    amplExVars amplExVars_ok).1 amplExVars_fit
  exact ⟨out, h⟩

/-- The hypotheses of `keys_only_sets_defaults`. -/
example : ∃ out d, copyFromAmpl asciiEnv .assert amplExSchema (amplExVars.take 1) = some out ∧ get? out "opened" = some (.keyed d) ∧
    ∀ k row, get? d k = some row → ∀ f ∈ ["cost"], get? row f = some (.num (.fin 5)) := by
  obtain ⟨out, d, h1, h2, h3⟩ := keys_only_sets_defaults asciiEnv .assert amplExSchema amplExSchema_ok (amplExVars.take 1)
    ⟨by decide, by decide, by decide⟩ (fun e he => amplExVars_fit e (List.mem_of_mem_take he)) (fun e he => by
      simp only [amplExVars, List.take, List.mem_cons, List.not_mem_nil, or_false] at he
      subst he
      exact .inl rfl) "opened" _ (by exact List.mem_cons_self) (by decide)
  refine ⟨out, d, h1, h2, fun k row hk f hf => ?_⟩
  rw [h3 k row hk f hf]
  rw [List.mem_singleton] at hf
  subst hf
  rfl

/-- `copy_to_ampl`: a table with a renamed key field and a data field left out. -/
def amplExSend : List (String × Option TabClass) := amplExSchema.map (fun tc => (tc.1, some tc.2))

def amplExDat (t : String) : TabVal :=
  if t = "opened" then .keyed [(.one (.str "a"), [("cost", .num (.fin 7))])]
  else if t = "flow" then .keyed [(.tup [.str "a", .str "x"], [("qty", .num (.fin 3)), ("price", .num (.fin 1))])]
  else .plain []

def amplExRen : Renamings := [(("flow", "from"), "source"), (("flow", "price"), "")]

theorem amplExDat_ok : ∀ t c, (t, some c) ∈ amplExSend → c.fields.Nodup ∧ WellShaped c (amplExDat t) := by
  intro t c h
  simp only [amplExSend, amplExSchema, List.map_cons, List.map_nil, List.mem_cons, List.not_mem_nil, or_false, Prod.mk.injEq,
    Option.some.injEq] at h
  rcases h with ⟨rfl, rfl⟩ | ⟨rfl, rfl⟩ | ⟨rfl, rfl⟩
  · refine ⟨by decide, by decide, by decide, ?_⟩
    intro p hp
    rw [List.mem_singleton] at hp
    subst hp
    exact ⟨rfl, rfl⟩
  · refine ⟨by decide, by decide, by decide, ?_⟩
    intro p hp
    rw [List.mem_singleton] at hp
    subst hp
    exact ⟨⟨rfl, by decide⟩, rfl⟩
  · exact ⟨by decide, rfl, fun row hr => absurd hr List.not_mem_nil⟩

example : copyToAmpl plainPandas amplExSend amplExDat amplExRen ["opened"] = some
    [("flow", ⟨["source", "to"], [("source", [.str "a"]), ("to", [.str "x"])], [("qty", [.num (.fin 3)])]⟩)] := by rfl

/-- The hypotheses of `copy_to_ampl`. -/
example : ∀ p ∈ amplExRen, RenamingOK amplExSend ["opened"] p :=
  ((copy_to_ampl plainPandas plainPandas_keeps amplExSend (by decide) (fun t c h => (amplExDat_ok t c h).1) amplExDat
    (fun t c h => (amplExDat_ok t c h).2) amplExRen ["opened"]).1.1 (by
      have : (copyToAmpl plainPandas amplExSend amplExDat amplExRen ["opened"]).isSome = true := rfl
      intro h
      rw [h] at this
      cases this)).2.2

/-- The same data as DataFrames. -/
def amplExFrames (t : String) : Frame :=
  if t = "opened" then ⟨[], [.name "site", .name "cost"], [([], [.str "a", .num (.fin 7)])]⟩
  else if t = "flow" then ⟨[], [.name "from", .name "to", .name "qty", .name "price"],
    [([], [.str "a", .str "x", .num (.fin 3), .num (.fin 1)])]⟩
  else ⟨[], [.name "line"], []⟩

theorem amplExFrames_ok : ∀ t c, (t, some c) ∈ amplExSend → FrameOK (amplExFrames t) ∧ goodPanTable c (amplExFrames t) = true := by
  intro t c h
  simp only [amplExSend, amplExSchema, List.map_cons, List.map_nil, List.mem_cons, List.not_mem_nil, or_false, Prod.mk.injEq,
    Option.some.injEq] at h
  rcases h with ⟨rfl, rfl⟩ | ⟨rfl, rfl⟩ | ⟨rfl, rfl⟩
  · exact ⟨⟨by decide, by decide, by decide⟩, by decide⟩
  · exact ⟨⟨by decide, by decide, by decide⟩, by decide⟩
  · exact ⟨⟨by decide, by decide, by decide⟩, by decide⟩

/-- The renamed key field `from` is there twice. -/
example : panCopyToAmpl amplExSend amplExFrames amplExRen ["opened"] = some
    [("flow", ⟨["source", "to"], [("source", [.str "a"]), ("to", [.str "x"])],
      [("qty", [.num (.fin 3)]), ("source", [.str "a"])]⟩)] := by rfl

example : ∃ a, get? [("flow", (⟨["source", "to"], [("source", [.str "a"]), ("to", [.str "x"])],
      [("qty", [.num (.fin 3)]), ("source", [.str "a"])]⟩ : AmplFrame))] "flow" = some a ∧
      "source" ∈ a.setCols.map Prod.fst ∧ "source" ∈ a.addCols.map Prod.fst :=
  pan_renamed_key_twice amplExSend (by decide) amplExFrames (fun t c h => (amplExFrames_ok t c h).1)
    (fun t c h => (amplExFrames_ok t c h).2) amplExRen ["opened"] _ rfl "flow" _
    ⟨List.mem_cons_of_mem _ List.mem_cons_self, by decide, by decide⟩ "from" "source" (by decide) rfl

/-! ### Findings -/

/-- If a primary key field has a default value (which `set_default_value` allows), every row gets this value as its key:
one row is silently copied to the wrong key, and two rows raise. -/
theorem ampl_default_key :
    let schema : List (String × TabClass) := [("t", ⟨["k"], ["q"], [("q", .num (.fin 0)), ("k", .str "none")]⟩)]
    copyFromAmpl asciiEnv .assert schema [⟨"t", some "q", 1, [([.str "a"], .num (.fin 3))], none⟩] =
        some [("t", .keyed [(.one (.str "none"), [("q", .num (.fin 3))])])] ∧
      copyFromAmpl asciiEnv .assert schema [⟨"t", some "q", 1, [([.str "a"], .num (.fin 3)), ([.str "b"], .num (.fin 4))], none⟩] =
        none := by
  constructor <;> rfl

/-- A table with a data field called "name" cannot be filled. -/
theorem ampl_name_field :
    copyFromAmpl asciiEnv .assert [("t", ⟨["k"], ["q", "name"], [("q", .num (.fin 0)), ("name", .num (.fin 0))]⟩)]
      [⟨"t", some "q", 1, [([.str "a"], .num (.fin 3))], none⟩] = none := by rfl

/-- One generic table in the schema, even if it is excluded, and nothing can be copied to AMPL. -/
theorem ampl_generic_blocks (penv : PandasEnv) (schema : List (String × Option TabClass)) (hg : ∃ tc ∈ schema, tc.2 = none)
    (dat : String → TabVal) (frames : String → Frame) (ren : Renamings) (excluded : List String) :
    copyToAmpl penv schema dat ren excluded = none ∧ panCopyToAmpl schema frames ren excluded = none := by
  unfold copyToAmpl panCopyToAmpl
  rw [amplTables_none excluded hg]
  constructor <;> (split <;> rfl)

example : ∃ tc ∈ [("g", (none : Option TabClass)), ("t", some ⟨["k"], [], []⟩)], tc.2 = none := ⟨_, List.mem_cons_self, rfl⟩

end Ticdat

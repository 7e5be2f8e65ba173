import Verif.Props.MdbFile
/-!
# C77 and C89: tables whose names have blanks for underscores
-/
set_option linter.unusedSectionVars false
set_option linter.unusedSimpArgs false
namespace Ticdat
open Spec

theorem variant_lower_inj (cenv : CaseEnv) (laws : CaseLaws cenv) : ∀ (s a b : List Char), BlankedVariant s a → BlankedVariant s b →
    cenv.lower a = cenv.lower b → a = b
  | [], a, b, ha, hb, _ => by
    have h1 := ((blankedVariant_iff _ _).mp ha).1
    have h2 := ((blankedVariant_iff _ _).mp hb).1
    have e1 : a = [] := List.eq_nil_of_length_eq_zero (by simpa using h1)
    have e2 : b = [] := List.eq_nil_of_length_eq_zero (by simpa using h2)
    rw [e1, e2]
  | c :: s, a, b, ha, hb, he => by
    obtain ⟨la, pa⟩ := (blankedVariant_iff _ _).mp ha
    obtain ⟨lb, pb⟩ := (blankedVariant_iff _ _).mp hb
    match a, b, la, lb with
    | [], _, la, _ => simp at la
    | _ :: _, [], _, lb => simp at lb
    | x :: a, y :: b, la, lb =>
      have va : BlankedVariant s a := by
        rw [blankedVariant_iff]
        refine ⟨by simpa using la, fun j => ?_⟩
        have := pa (j + 1)
        simpa using this
      have vb : BlankedVariant s b := by
        rw [blankedVariant_iff]
        refine ⟨by simpa using lb, fun j => ?_⟩
        have := pb (j + 1)
        simpa using this
      have ih := variant_lower_inj cenv laws s a b va vb
      have h0 := pa 0
      have h1 := pb 0
      simp only [List.getElem?_cons_zero, Option.some.injEq] at h0 h1
      unfold CaseEnv.lower at he ih
      rw [List.flatMap_cons, List.flatMap_cons] at he
      have hxy : x = y := by
        rcases h0 with h0 | ⟨h0, h0'⟩
        · rcases h1 with h1 | ⟨h1, h1'⟩
          · rw [h0, h1]
          · rw [h0, h1, h1', laws.lo_blank, laws.lo_under] at he
            simp at he
        · rcases h1 with h1 | ⟨h1, h1'⟩
          · rw [h1, h0, h0', laws.lo_blank, laws.lo_under] at he
            simp at he
          · rw [h0', h1']
      subst hxy
      rw [ih (List.append_cancel_left he)]

theorem stands_name (cenv : CaseEnv) (laws : CaseLaws cenv) (file : SqlFile)
    (hn : ((PyDict.keys file).map (fun k => cenv.lower k.toList)).Nodup) (t k : String) (tab : SqlTab)
    (h : StandsFor cenv file t k tab) : ∃ n, file.tableName cenv t = some (some n) ∧ file.find cenv n = some tab := by
  obtain ⟨hk, ⟨n, hv, hs⟩, ho⟩ := h
  have hfil : (underscoreReplacements t.toList).filter (fun n => (file.map (fun p => (p.1, ([] : List (List Cell))))).any
      (fun p => decide (cenv.lower p.1.toList = cenv.lower n))) = [n] := by
    rw [filter_eq_singleton _ (underscoreReplacements_nodup _)]
    refine ⟨(mem_underscoreReplacements _ _).mpr hv, ?_, ?_⟩
    · rw [List.any_eq_true]
      exact ⟨(k, []), List.mem_map.mpr ⟨_, hk, rfl⟩, decide_eq_true hs⟩
    · intro n' hn' hany
      rw [List.any_eq_true] at hany
      obtain ⟨p, hp, he⟩ := hany
      have he := of_decide_eq_true he
      obtain ⟨q, hq, rfl⟩ := List.mem_map.mp hp
      have hv' := (mem_underscoreReplacements _ _).mp hn'
      have : q.1 = k := ho q.1 (List.mem_map.mpr ⟨q, hq, rfl⟩) n' hv' he
      simp only at he
      rw [this, hs] at he
      exact variant_lower_inj cenv laws t.toList n' n hv' hv he.symm
  refine ⟨String.ofList n, ?_, find_of_mem cenv file hn k tab hk _ (by unfold SqlSame; simpa using hs)⟩
  unfold SqlFile.tableName sqlTableName
  rw [hfil]

/-- **C89 and C77, columns by name, tables by name.**  What is read depends only on the cells that the tables have under the names of
the fields, also if names of tables have blanks for underscores: the types and the infinities of a table of the schema apply to
the table that stands for it whatever its spelling. -/
theorem reads_by_any_name (env : TextEnv) (cenv : CaseEnv) (laws : CaseLaws cenv) (cf : IOConf) (policy : DupPolicy)
    (schema : List (String × TabClass)) (hg : goodTableNames cenv (schema.map (fun tc => tc.1.toList)) = true)
    (file file' : SqlFile) (hwf : SqlFileWF cenv file) (hwf' : SqlFileWF cenv file')
    (h : ∀ tc ∈ schema, (NoTable cenv file tc.1 ∧ NoTable cenv file' tc.1) ∨
      ∃ k k' tab tab', StandsFor cenv file tc.1 k tab ∧ StandsFor cenv file' tc.1 k' tab' ∧
      (∀ f ∈ tc.2.fields, (∃ c ∈ tab.cols, SqlSame cenv c.name f) ∧ ∃ c ∈ tab'.cols, SqlSame cenv c.name f) ∧
      SameByName cenv tc.2.fields tab tab') :
    mdbFileCreate env cenv cf policy schema file = mdbFileCreate env cenv cf policy schema file' ∧
      sqlFileCreate env cenv cf policy schema file = sqlFileCreate env cenv cf policy schema file' := by
  have key : ∀ tc ∈ schema, (file.tableName cenv tc.1 = some none ∧ file'.tableName cenv tc.1 = some none) ∨
      ∃ n n' tab tab', file.tableName cenv tc.1 = some (some n) ∧ file'.tableName cenv tc.1 = some (some n') ∧
      file.find cenv n = some tab ∧ file'.find cenv n' = some tab' ∧
      tab.select cenv tc.2.fields = tab'.select cenv tc.2.fields := by
    intro tc htc
    have hb : ' ' ∉ tc.1.toList := ((goodTableNames_iff cenv _).mp hg).2.1 _ (List.mem_map.mpr ⟨tc, htc, rfl⟩)
    rcases h tc htc with ⟨h1, h2⟩ | ⟨k, k', tab, tab', h1, h2, h3, h4⟩
    · exact .inl ⟨tableName_none cenv laws file tc.1 hb h1, tableName_none cenv laws file' tc.1 hb h2⟩
    · obtain ⟨n, g1, g2⟩ := stands_name cenv laws file hwf.names tc.1 k tab h1
      obtain ⟨n', g3, g4⟩ := stands_name cenv laws file' hwf'.names tc.1 k' tab' h2
      exact .inr ⟨n, n', tab, tab', g1, g3, g2, g4, select_same cenv tab tab' (hwf.cols _ h1.1) (hwf'.cols _ h2.1) tc.2.fields
        (fun f hf => (h3 f hf).1) (fun f hf => (h3 f hf).2) (hwf.rows _ h1.1) h4⟩
  constructor
  · rw [mdbFileCreate_eq env cenv cf policy schema (good_names_nodup cenv schema hg),
      mdbFileCreate_eq env cenv cf policy schema (good_names_nodup cenv schema hg)]
    unfold readAll
    rw [gather_congr _ (mdbFileFind env cenv cf file') schema]
    intro tc htc
    unfold mdbFileFind mdbTabRows
    rcases key tc htc with ⟨h1, h2⟩ | ⟨n, n', tab, tab', h1, h2, h3, h4, h5⟩
    · rw [h1, h2]
      rfl
    · rw [h1, h2]
      simp only [Option.bind_some]
      rw [h3, h4, Option.bind_some, Option.bind_some, h5]
  · rw [sqlFileCreate_eq env cenv cf policy schema (good_names_nodup cenv schema hg),
      sqlFileCreate_eq env cenv cf policy schema (good_names_nodup cenv schema hg)]
    unfold readAll
    rw [gather_congr _ (sqlFileFind env cenv cf file') schema]
    intro tc htc
    unfold sqlFileFind sqlTabRows
    rcases key tc htc with ⟨h1, h2⟩ | ⟨n, n', tab, tab', h1, h2, h3, h4, h5⟩
    · rw [h1, h2]
      rfl
    · rw [h1, h2]
      simp only [Option.bind_some]
      rw [h3, h4, Option.bind_some, Option.bind_some, h5]

/-- A table under a name with a blank. -/
example : mdbFileCreate unaryText asciiEnv ⟨[], .num 1000, false, []⟩ .assert [("food_list", ⟨[], ["cost"], []⟩)]
      [("Food List", ⟨[⟨"cost", false, none⟩], [], [[.num (.fin 1000)]]⟩)] =
    mdbFileCreate unaryText asciiEnv ⟨[], .num 1000, false, []⟩ .assert [("food_list", ⟨[], ["cost"], []⟩)]
      [("food_list", ⟨[⟨"cost", false, none⟩], [], [[.num (.fin 1000)]]⟩)] := by
  refine (reads_by_any_name _ _ asciiLaws _ _ _ (by decide +kernel) _ _
    ⟨by decide +kernel, by decide +kernel, by unfold SqlSame; decide +kernel, by decide⟩
    ⟨by decide +kernel, by decide +kernel, by unfold SqlSame; decide +kernel, by decide⟩ ?_).1
  intro tc htc
  simp only [List.mem_cons, List.not_mem_nil, or_false] at htc
  subst htc
  refine .inr ⟨"Food List", "food_list", ⟨[⟨"cost", false, none⟩], [], [[.num (.fin 1000)]]⟩,
    ⟨[⟨"cost", false, none⟩], [], [[.num (.fin 1000)]]⟩,
    ⟨by simp, ⟨"food list".toList, (mem_underscoreReplacements _ _).mp (by decide +kernel), by decide +kernel⟩, by simp [PyDict.keys]⟩,
    ⟨by simp, ⟨"food_list".toList, (mem_underscoreReplacements _ _).mp (by decide +kernel), by decide +kernel⟩, by simp [PyDict.keys]⟩,
    by unfold SqlSame; decide +kernel, .cons ?_ .nil⟩
  intro f hf
  simp only [TabClass.fields, List.nil_append, List.mem_cons, List.not_mem_nil, or_false] at hf
  subst hf
  exact ⟨.num (.fin 1000), ⟨0, _, rfl, rfl, rfl⟩, 0, _, rfl, rfl, rfl⟩

end Ticdat

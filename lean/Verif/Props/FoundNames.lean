import Verif.Props.SqliteTable
import Verif.Props.JsonTable
/-!
# Tables of a file under other spellings of their names (C20, C21, C47)
-/
set_option linter.unusedSectionVars false
set_option linter.unusedSimpArgs false
namespace Ticdat
open Spec

/-- Two variants of a name that agree up to case are the same. -/
theorem lower_variant_inj (cenv : CaseEnv) (laws : CaseLaws cenv) (s : List Char) : ∀ a b : List Char,
    BlankedVariant s a → BlankedVariant s b → cenv.lower a = cenv.lower b → a = b := by
  induction s with
  | nil => intro a b ha hb _; cases ha; cases hb; rfl
  | cons c s ih =>
    intro a b ha hb h
    unfold CaseEnv.lower at ih h
    cases ha with
    | same _ ha =>
      cases hb with
      | same _ hb =>
        rw [List.flatMap_cons, List.flatMap_cons, List.append_cancel_left_eq] at h
        rw [ih _ _ ha hb h]
      | blank hb =>
        rw [List.flatMap_cons, List.flatMap_cons, laws.lo_under, laws.lo_blank] at h
        simp at h
    | blank ha =>
      cases hb with
      | same _ hb =>
        rw [List.flatMap_cons, List.flatMap_cons, laws.lo_under, laws.lo_blank] at h
        simp at h
      | blank hb =>
        rw [List.flatMap_cons, List.flatMap_cons, List.append_cancel_left_eq] at h
        rw [ih _ _ ha hb h]

/-- `k` spells the table name `t`, up to case and with blanks for some underscores. -/
def SpellsTable (cenv : CaseEnv) (t k : String) : Prop :=
  ∃ n, BlankedVariant t.toList n ∧ cenv.lower k.toList = cenv.lower n

/-- **C47 (names).**  How the SQLite reader finds a table: with no spelling of its name in the database the table stays
empty; the only spelling present is read, field by field in schema order; two spellings that differ in more than case are
refused.  (SQLite itself excludes table names that agree up to case.) -/
theorem sql_find_by_name (env : TextEnv) (cenv : CaseEnv) (laws : CaseLaws cenv) (cf : IOConf) (db : SqlDb)
    (tc : String × TabClass) :
    ((∀ p ∈ db, ¬ SpellsTable cenv tc.1 p.1) → sqlFind env cenv cf db tc = some none) ∧
    (∀ p ∈ db, SpellsTable cenv tc.1 p.1 → (∀ q ∈ db, SpellsTable cenv tc.1 q.1 → q = p) →
      sqlFind env cenv cf db tc = (p.2.mapM (mapCells (sqlReadCell env cenv cf tc.1) tc.2.fields)).map
        (fun rows => some (readerTable tc.2 rows))) ∧
    (∀ p ∈ db, ∀ q ∈ db, SpellsTable cenv tc.1 p.1 → SpellsTable cenv tc.1 q.1 →
      cenv.lower p.1.toList ≠ cenv.lower q.1.toList → sqlFind env cenv cf db tc = none) := by
  have hmem : ∀ n, n ∈ (underscoreReplacements tc.1.toList).filter (fun n =>
      db.any (fun p => decide (cenv.lower p.1.toList = cenv.lower n))) ↔
      BlankedVariant tc.1.toList n ∧ ∃ p ∈ db, cenv.lower p.1.toList = cenv.lower n := by
    intro n
    rw [List.mem_filter, mem_underscoreReplacements, List.any_eq_true]
    simp only [decide_eq_true_eq]
  refine ⟨?_, ?_, ?_⟩
  · intro h
    have : (underscoreReplacements tc.1.toList).filter (fun n =>
        db.any (fun p => decide (cenv.lower p.1.toList = cenv.lower n))) = [] := by
      rw [List.eq_nil_iff_forall_not_mem]
      intro n hn
      obtain ⟨h1, p, hp, h2⟩ := (hmem n).1 hn
      exact h p hp ⟨n, h1, h2⟩
    simp only [sqlFind, sqlTableName, this, Option.bind_some]
  · rintro p hp ⟨n, hn, he⟩ huniq
    have : (underscoreReplacements tc.1.toList).filter (fun n =>
        db.any (fun p => decide (cenv.lower p.1.toList = cenv.lower n))) = [n] := by
      rw [filter_eq_singleton _ (underscoreReplacements_nodup _)]
      refine ⟨(mem_underscoreReplacements _ _).mpr hn, ?_, ?_⟩
      · rw [List.any_eq_true]; exact ⟨p, hp, decide_eq_true he⟩
      · intro m hm hany
        have hv := (mem_underscoreReplacements _ _).mp hm
        rw [List.any_eq_true] at hany
        obtain ⟨q, hq, e⟩ := hany
        have e := of_decide_eq_true e
        have := huniq q hq ⟨m, hv, e⟩
        subst this
        exact lower_variant_inj cenv laws _ _ _ hv hn (e.symm.trans he)
    have hsel : sqlSelect cenv db (String.ofList n) = some p.2 := by
      unfold sqlSelect
      cases hf : db.find? (fun p => decide (cenv.lower p.1.toList = cenv.lower (String.ofList n).toList)) with
      | none =>
        rw [List.find?_eq_none] at hf
        exact absurd (by simpa using he) (hf p hp)
      | some q =>
        have e := List.find?_some hf
        have e := of_decide_eq_true e
        rw [String.toList_ofList] at e
        rw [huniq q (List.mem_of_find?_eq_some hf) ⟨n, hn, e⟩]
        rfl
    simp only [sqlFind, sqlTableName, this, Option.bind_some, hsel]
  · rintro p hp q hq ⟨n, hn, he⟩ ⟨m, hm, he'⟩ hne
    have h1 := (hmem n).2 ⟨hn, p, hp, he⟩
    have h2 := (hmem m).2 ⟨hm, q, hq, he'⟩
    have hnm : n ≠ m := fun e => hne (by rw [he, he', e])
    cases hf : (underscoreReplacements tc.1.toList).filter (fun n =>
        db.any (fun p => decide (cenv.lower p.1.toList = cenv.lower n))) with
    | nil => rw [hf] at h1; simp at h1
    | cons a l =>
      cases l with
      | nil =>
        rw [hf] at h1 h2
        rw [List.mem_singleton] at h1 h2
        exact absurd (h1.trans h2.symm) hnm
      | cons b l => simp only [sqlFind, sqlTableName, hf, Option.bind_none]

example : SpellsTable asciiEnv "food_list" "Food List" := by
  refine ⟨"food list".toList, ?_, by decide⟩
  exact .same _ (.same _ (.same _ (.same _ (.blank (.same _ (.same _ (.same _ (.same _ .nil))))))))

theorem pairwise2_filter {A B : Type} {R : A → B → Prop} {P : A → Bool} {Q : B → Bool} {l : List A} {l' : List B}
    (h : Pairwise2 R l l') (hpq : ∀ a b, R a b → P a = Q b) : Pairwise2 R (l.filter P) (l'.filter Q) := by
  induction h with
  | nil => exact .nil
  | @cons a b l l' hr _ ih =>
    rw [List.filter_cons, List.filter_cons, hpq a b hr]
    cases Q b with
    | true => exact .cons hr ih
    | false => exact ih

theorem jsonKey_entry (cenv : CaseEnv) (file : PyDict String (List RowIn)) (hn : (PyDict.keys file).Nodup) (t : String) :
    (jsonKeyOf cenv (PyDict.keys file) t).bind (fun ko => match ko with
      | none => some none
      | some k => (PyDict.get? file k).map some) =
    match file.filter (fun p => jsonMatches cenv t.toList p.1.toList) with
      | [] => some none
      | [p] => some (some p.2)
      | _ => none := by
  have e : (PyDict.keys file).filter (fun k => jsonMatches cenv t.toList k.toList) =
      (file.filter (fun p => jsonMatches cenv t.toList p.1.toList)).map Prod.fst := by
    unfold PyDict.keys
    rw [List.filter_map]
    rfl
  unfold jsonKeyOf
  rw [e]
  cases hf : file.filter (fun p => jsonMatches cenv t.toList p.1.toList) with
  | nil => rfl
  | cons p l =>
    cases l with
    | nil =>
      have hm : p ∈ file := (List.mem_filter.1 (hf ▸ List.mem_singleton.2 rfl : p ∈ file.filter _)).1
      simp only [List.map_cons, List.map_nil, Option.bind_some]
      rw [PyDict.get?_of_mem hn (show (p.1, p.2) ∈ file from hm)]
      rfl
    | cons q l => rfl

/-- **C20, C21 (names).**  The json reader does not mind how the tables are spelled: files whose tables agree up to case
and up to blanks for underscores in their names give the same data object. -/
theorem json_names_free (env : TextEnv) (cenv : CaseEnv) (cf : IOConf) (policy : DupPolicy)
    (schema : List (String × TabClass)) (file file' : PyDict String (List RowIn))
    (hn : (PyDict.keys file).Nodup) (hn' : (PyDict.keys file').Nodup)
    (h : Pairwise2 (fun p q => cenv.lower (unblank p.1.toList) = cenv.lower (unblank q.1.toList) ∧ p.2 = q.2) file file') :
    jsonCreate env cenv cf policy schema file = jsonCreate env cenv cf policy schema file' := by
  have ht : ∀ t, (jsonKeyOf cenv (PyDict.keys file) t).bind (fun ko => match ko with
      | none => some none
      | some k => (PyDict.get? file k).map some) = (jsonKeyOf cenv (PyDict.keys file') t).bind (fun ko => match ko with
      | none => some none
      | some k => (PyDict.get? file' k).map some) := by
    intro t
    rw [jsonKey_entry cenv file hn, jsonKey_entry cenv file' hn']
    have hp := pairwise2_filter (P := fun p => jsonMatches cenv t.toList p.1.toList)
      (Q := fun p => jsonMatches cenv t.toList p.1.toList) h (by
        rintro ⟨a, x⟩ ⟨b, y⟩ ⟨h1, _⟩
        simp only [jsonMatches]
        rw [h1])
    generalize file.filter _ = l at hp
    generalize file'.filter _ = l' at hp
    cases hp with
    | nil => rfl
    | cons hr hp =>
      cases hp with
      | nil => simp only [hr.2]
      | cons _ _ => rfl
  have hstep : ∀ (g : PyDict String (List RowIn)) (tc : String × TabClass) (rest : List (String × TabClass)),
      jsonTables env cenv cf g (tc :: rest) = ((jsonKeyOf cenv (PyDict.keys g) tc.1).bind (fun ko => match ko with
        | none => some none
        | some k => (PyDict.get? g k).map some)).bind (fun ro => match ro with
        | none => jsonTables env cenv cf g rest
        | some rows => (jsonReadTable env cf tc.1 tc.2 rows).bind (fun x =>
            (jsonTables env cenv cf g rest).map (fun r => (tc.1, x) :: r))) := by
    intro g tc rest
    rw [jsonTables]
    cases jsonKeyOf cenv (PyDict.keys g) tc.1 with
    | none => rfl
    | some ko =>
      cases ko with
      | none => rfl
      | some k =>
        simp only [Option.bind_some]
        cases PyDict.get? g k <;> rfl
  have hall : ∀ s, jsonTables env cenv cf file s = jsonTables env cenv cf file' s := by
    intro s
    induction s with
    | nil => rfl
    | cons tc rest ih =>
      rw [hstep, hstep, ht, ih]
  unfold jsonCreate
  rw [hall]

example : Pairwise2 (fun p q : String × List RowIn => asciiEnv.lower (unblank p.1.toList) =
    asciiEnv.lower (unblank q.1.toList) ∧ p.2 = q.2) [("food_list", [])] [("Food List", [])] :=
  .cons ⟨by decide, rfl⟩ .nil

end Ticdat

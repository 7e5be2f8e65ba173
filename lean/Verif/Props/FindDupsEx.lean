import Verif.Props.FindDupsJson
/-!
# C67: examples, and where the code does not agree with the claim
-/
namespace Ticdat
open Spec

/-- A table with a two field key, and a log without key. -/
def dupExSchema : List (String × TabClass) := [("edges", ⟨["from", "to"], ["cost"], []⟩), ("log", ⟨[], ["text"], []⟩)]

/-- Reported on the example: the key ("a", "b") occurs three times. -/
def dupExReport : PyDict String (PyDict (PKey Cell) Nat) := [("edges", [(.many [.str "a", .str "b"], 3)])]

/-- Read from the example: the last of the three. -/
def dupExDat : PyDict String TabVal :=
  [("edges", .keyed [(.tup [.str "a", .str "b"], [("cost", .str "z")]), (.tup [.str "b", .str "a"], [("cost", .str "w")])]),
   ("log", .plain [[("text", .str "same")], [("text", .str "same")]])]

/-- The example as a database. -/
def dupExDb : SqlDb :=
  [("Edges", [[.str "a", .str "b", .str "x"], [.str "b", .str "a", .str "w"], [.str "a", .str "b", .str "y"],
    [.str "a", .str "b", .str "z"]]), ("log", [[.str "same"], [.str "same"]])]

/-! ### The hypotheses of the theorems are met, and the report is not empty -/

example : csvCreate unaryText asciiEnv plainIO (fun _ _ => none) .assert true dupExSchema
      [("edges.csv".toList, [["from", "cost", "to"], ["a", "x", "b"],
        ["b", "w", "a"], ["a", "y", "b"], ["a", "z", "b"]]),
       ("log.csv".toList, [["text"], ["same"], ["same"]])] = some dupExDat ∧
    csvDups unaryText asciiEnv plainIO (fun _ _ => none) true dupExSchema
      [("edges.csv".toList, [["from", "cost", "to"], ["a", "x", "b"],
        ["b", "w", "a"], ["a", "y", "b"], ["a", "z", "b"]]),
       ("log.csv".toList, [["text"], ["same"], ["same"]])] = some dupExReport := by
  decide +kernel

example : sqlCreate unaryText asciiEnv plainIO .assert dupExSchema dupExDb = some dupExDat ∧
    sqlDups unaryText asciiEnv dupExSchema dupExDb = some dupExReport ∧
    mdbCreate unaryText asciiEnv plainIO .assert dupExSchema dupExDb = some dupExDat ∧
    mdbDups unaryText asciiEnv dupExSchema dupExDb = some dupExReport := by
  refine ⟨?_, ?_, ?_, ?_⟩ <;> decide +kernel

example : (dupExSchema.map Prod.fst).Nodup ∧ (∀ tc ∈ dupExSchema, tc.2.fields.Nodup) ∧
    (storedIn asciiEnv dupExDb "edges" = some (some [[.str "a", .str "b", .str "x"], [.str "b", .str "a", .str "w"],
      [.str "a", .str "b", .str "y"], [.str "a", .str "b", .str "z"]])) := by decide +kernel

/-- The rows deleted by setting the active flag are neither read nor counted. -/
example : pgCreate unaryText asciiEnv [] plainIO .assert true dupExSchema
      [("edges", ⟨true, [(true, [.str "a", .str "b", .str "z"]), (true, [.str "b", .str "a", .str "w"]),
        (false, [.str "a", .str "b", .str "x"])]⟩), ("log", ⟨false, [(true, [.str "same"]), (true, [.str "same"])]⟩)] =
      some dupExDat ∧
    pgDups unaryText asciiEnv [] true dupExSchema
      [("edges", ⟨true, [(true, [.str "a", .str "b", .str "z"]), (true, [.str "b", .str "a", .str "w"]),
        (false, [.str "a", .str "b", .str "x"])]⟩), ("log", ⟨false, [(true, [.str "same"]), (true, [.str "same"])]⟩)] =
      some [] ∧
    pgDups unaryText asciiEnv [] false dupExSchema
      [("edges", ⟨true, [(true, [.str "a", .str "b", .str "z"]), (true, [.str "b", .str "a", .str "w"]),
        (false, [.str "a", .str "b", .str "x"])]⟩), ("log", ⟨false, [(true, [.str "same"]), (true, [.str "same"])]⟩)] =
      some [("edges", [(.many [.str "a", .str "b"], 2)])] := by
  refine ⟨?_, ?_, ?_⟩ <;> decide +kernel

example : xlCreate demoXl plainIO (fun _ _ => none) .assert (demoOpts .xls true 0) dupExSchema
      [("edges".toList, [[.str "from", .str "to", .str "cost"], [.str "a", .str "b", .str "x"],
        [.str "b", .str "a", .str "w"], [.str "a", .str "b", .str "y"], [.str "a", .str "b", .str "z"]]),
       ("log".toList, [[.str "text"], [.str "same"], [.str "same"]])] = some dupExDat ∧
    xlDups demoXl plainIO (fun _ _ => none) (demoOpts .xls true 0) dupExSchema
      [("edges".toList, [[.str "from", .str "to", .str "cost"], [.str "a", .str "b", .str "x"],
        [.str "b", .str "a", .str "w"], [.str "a", .str "b", .str "y"], [.str "a", .str "b", .str "z"]]),
       ("log".toList, [[.str "text"], [.str "same"], [.str "same"]])] = some dupExReport := by decide +kernel

/-- The example as a json file, with rows of both kinds. -/
def dupExJson : PyDict String (List RowIn) :=
  [("edges", [.seq [.str "a", .str "b", .str "x"], .seq [.str "b", .str "a", .str "w"],
    .dict [("cost", .str "y"), ("to", .str "b"), ("from", .str "a")], .seq [.str "a", .str "b", .str "z"]]),
   ("log", [.seq [.str "same"], .seq [.str "same"]])]

example : jsonCreate unaryText asciiEnv plainIO .ignore dupExSchema dupExJson = some dupExDat ∧
    jsonCreate unaryText asciiEnv plainIO .assert dupExSchema dupExJson = none ∧
    jsonDups dupExSchema dupExJson = some dupExReport := by decide +kernel

example : (PyDict.keys dupExJson).Nodup ∧ (∀ tc ∈ dupExSchema, ' ' ∉ tc.1.toList) ∧
    (∀ tc ∈ dupExSchema, ∀ k ∈ PyDict.keys dupExJson, jsonMatches asciiEnv tc.1.toList k.toList = true → k = tc.1) := by
  decide +kernel

example : Pairwise2 (RowOf ["from", "to", "cost"])
    [[.str "a", .str "b", .str "x"], [.str "b", .str "a", .str "w"], [.str "a", .str "b", .str "y"],
      [.str "a", .str "b", .str "z"]] ((PyDict.get? dupExJson "edges").getD []) :=
  .cons rfl (.cons rfl (.cons (show List.Perm _ _ from by decide +kernel) (.cons rfl .nil)))

/-! ### Where the report is not what the reader does -/

/-- A table with one key field and no data field. -/
def dupOneSchema : List (String × TabClass) := [("t", ⟨["k"], [], []⟩)]

/-- The key cells are read without the infinity flag: with the flag 1000 the keys 1000 and 2000 are both read as infinity, so
a record is lost that `find_duplicates` has not reported. -/
theorem db_infinity_flag_merges_unreported :
    sqlDups unaryText asciiEnv dupOneSchema [("t", [[.num (.fin 1000)], [.num (.fin 2000)]])] = some [] ∧
    sqlCreate unaryText asciiEnv ⟨[], .num 1000, false, []⟩ .assert dupOneSchema
      [("t", [[.num (.fin 1000)], [.num (.fin 2000)]])] = some [("t", .keyed [(.one (.num .pinf), [])])] ∧
    mdbDups unaryText asciiEnv dupOneSchema [("t", [[.num (.fin 1000)], [.num (.fin 2000)]])] = some [] ∧
    mdbCreate unaryText asciiEnv ⟨[], .num 1000, false, []⟩ .assert dupOneSchema
      [("t", [[.num (.fin 1000)], [.num (.fin 2000)]])] = some [("t", .keyed [(.one (.num .pinf), [])])] ∧
    pgDups unaryText asciiEnv [] false dupOneSchema [("t", ⟨false, [(true, [.num (.fin 1000)]), (true, [.num (.fin 2000)])]⟩)] =
      some [] ∧
    pgCreate unaryText asciiEnv [] ⟨[], .num 1000, false, []⟩ .assert false dupOneSchema
      [("t", ⟨false, [(true, [.num (.fin 1000)]), (true, [.num (.fin 2000)])]⟩)] =
      some [("t", .keyed [(.one (.num .pinf), [])])] := by
  refine ⟨?_, ?_, ?_, ?_, ?_, ?_⟩ <;> decide +kernel

/-- The other way round for SQLite: without a flag the texts "inf" and "Inf" are both read as infinity and reported, a factory
with a flag keeps them apart. -/
theorem sql_reported_but_kept :
    sqlDups unaryText asciiEnv dupOneSchema [("t", [[.str "inf"], [.str "Inf"]])] =
      some [("t", [(.one (.num .pinf), 2)])] ∧
    sqlCreate unaryText asciiEnv ⟨[], .num 1000, false, []⟩ .assert dupOneSchema [("t", [[.str "inf"], [.str "Inf"]])] =
      some [("t", .keyed [(.one (.str "inf"), []), (.one (.str "Inf"), [])])] := by decide +kernel

/-- `find_duplicates` of a json file looks only for the exact names: the table is read from the key "Table One", where its
duplicates are not looked for. -/
theorem json_name_variant_not_checked :
    jsonDups [("table_one", ⟨["k"], [], []⟩)] [("Table One", [.seq [.str "a"], .seq [.str "a"]])] = some [] ∧
    jsonCreate unaryText asciiEnv plainIO .ignore [("table_one", ⟨["k"], [], []⟩)]
      [("Table One", [.seq [.str "a"], .seq [.str "a"]])] = some [("table_one", .keyed [(.one (.str "a"), [])])] ∧
    jsonCreate unaryText asciiEnv plainIO .assert [("table_one", ⟨["k"], [], []⟩)]
      [("Table One", [.seq [.str "a"], .seq [.str "a"]])] = none := by decide +kernel

/-- `find_duplicates` of an Excel file reads the text "inf" as infinity even if `create_tic_dat` is told not to. -/
theorem xls_reported_but_kept :
    xlDups demoXl plainIO (fun _ _ => none) { demoOpts .xls true 0 with treatInf := false } dupOneSchema
      [("t".toList, [[.str "k"], [.str "inf"], [.str "Inf"]])] = some [("t", [(.one (.num .pinf), 2)])] ∧
    xlCreate demoXl plainIO (fun _ _ => none) .assert { demoOpts .xls true 0 with treatInf := false } dupOneSchema
      [("t".toList, [[.str "k"], [.str "inf"], [.str "Inf"]])] =
      some [("t", .keyed [(.one (.str "inf"), []), (.one (.str "Inf"), [])])] := by decide +kernel

/-- The policy `assert` does not see the duplicates of csv files, Excel files and databases: their readers pass dictionaries,
in which the records are merged already.  The same records in a json file raise. -/
theorem assert_policy_blind :
    csvDups unaryText asciiEnv plainIO (fun _ _ => none) true dupOneSchema
      [("t.csv".toList, [["k"], ["a"], ["a"]])] = some [("t", [(.one (.str "a"), 2)])] ∧
    csvCreate unaryText asciiEnv plainIO (fun _ _ => none) .assert true dupOneSchema
      [("t.csv".toList, [["k"], ["a"], ["a"]])] = some [("t", .keyed [(.one (.str "a"), [])])] ∧
    sqlCreate unaryText asciiEnv plainIO .assert dupOneSchema [("t", [[.str "a"], [.str "a"]])] =
      some [("t", .keyed [(.one (.str "a"), [])])] ∧
    xlCreate demoXl plainIO (fun _ _ => none) .assert (demoOpts .xls true 0) dupOneSchema
      [("t".toList, [[.str "k"], [.str "a"], [.str "a"]])] = some [("t", .keyed [(.one (.str "a"), [])])] ∧
    jsonCreate unaryText asciiEnv plainIO .assert dupOneSchema [("t", [.seq [.str "a"], .seq [.str "a"]])] = none := by
  decide +kernel

end Ticdat

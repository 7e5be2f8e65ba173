import Verif.Model.WriteDisk
import Verif.Spec.Good
/-!
# Specification of what is on the disk after a write
-/
namespace Ticdat.Spec

/-- The object has every table of the schema, each with the right keys and fields. -/
def GoodObject (schema : List (String × TabClass)) (dat : PyDict String TabVal) : Prop :=
  ∀ tc ∈ schema, ∃ tab, PyDict.get? dat tc.1 = some tab ∧ GenerousTable (.plain tc.2) (.tab tab.asInput)

/-- Nothing changes at paths that are not among these. -/
def OnlyAt {A : Type} (paths : List String) (disk disk' : FileSys A) : Prop :=
  ∀ q, q ∉ paths → PyDict.get? disk' q = PyDict.get? disk q

/-- The table with its first `k` rows. -/
def firstRows (k : Nat) : TabVal → TabVal
  | .keyed d => .keyed (d.take k)
  | .plain rows => .plain (rows.take k)

/-- The lines of the table of the object, all of them. -/
def CsvWhole (env : TextEnv) (cf : IOConf) (header : Bool) (dat : PyDict String TabVal) (tc : String × TabClass) (file : CsvFile) :
    Prop :=
  ∃ tab, PyDict.get? dat tc.1 = some tab ∧ csvTable env cf tc.1 tc.2 header tab = some file

/-- The lines of the rows before the first row that cannot be written. -/
def CsvTorn (env : TextEnv) (cf : IOConf) (header : Bool) (dat : PyDict String TabVal) (tc : String × TabClass) (file : CsvFile) :
    Prop :=
  ∃ tab k, PyDict.get? dat tc.1 = some tab ∧ csvTable env cf tc.1 tc.2 header (firstRows k tab) = some file ∧
    csvTable env cf tc.1 tc.2 header (firstRows (k + 1) tab) = none

/-- After the loop over the tables has raised: the files of some tables are complete, at the next table a directory is in the
way or its file breaks off, and those of the tables after it are as before. -/
def CsvBrokenOff (env : TextEnv) (cf : IOConf) (header : Bool) (dat : PyDict String TabVal) (pathOf : String → String)
    (schema : List (String × TabClass)) (disk disk' : FileSys CsvFile) : Prop :=
  ∃ done tc rest, schema = done ++ tc :: rest ∧
    (∀ d ∈ done, ∃ file, CsvWhole env cf header dat d file ∧ PyDict.get? disk' (pathOf d.1) = some (.file file)) ∧
    ((PyDict.get? disk (pathOf tc.1) = some .dir ∧ PyDict.get? disk' (pathOf tc.1) = some .dir) ∨
      ∃ file, CsvTorn env cf header dat tc file ∧ PyDict.get? disk' (pathOf tc.1) = some (.file file)) ∧
    ∀ d ∈ rest, PyDict.get? disk' (pathOf d.1) = PyDict.get? disk (pathOf d.1)

end Ticdat.Spec

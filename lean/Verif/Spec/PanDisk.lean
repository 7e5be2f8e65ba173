import Verif.Model.PanDisk
import Verif.Spec.WriteDisk
/-!
# Specification of what is on the disk after a `PanDat` was written
-/
namespace Ticdat.Spec

/-- The object can be handed to pandas: every table of the schema is a DataFrame that has the fields as columns, and
`ws` has what is handed over, in the order of the schema. -/
def HandedOver (env : TextEnv) (cf : IOConf) (schema : List (String × TabClass)) (dat : PyDict String Frame)
    (ws : List (String × Frame)) : Prop :=
  Pairwise2 (fun tc w => w.1 = tc.1 ∧ ∃ v, PyDict.get? dat tc.1 = some v ∧ (∀ f ∈ tc.2.fields, Label.name f ∈ v.cols) ∧
    panPreAny env cf tc.1 tc.2 v = some w.2) schema ws

/-- After the loop over the tables has raised: the files of the tables before are complete, at the next table a directory is in
the way, or pandas has refused it or broken off, and those of the tables after it are as before. -/
def PanBrokenOff {A : Type} (toCsv : Frame → Saved A) (pathOf : String → String) (ws : List (String × Frame))
    (disk disk' : FileSys A) : Prop :=
  ∃ done p rest, ws = done ++ p :: rest ∧
    (∀ d ∈ done, ∃ a, toCsv d.2 = .whole a ∧ PyDict.get? disk' (pathOf d.1) = some (.file a)) ∧
    ((PyDict.get? disk (pathOf p.1) = some .dir ∧ PyDict.get? disk' (pathOf p.1) = some .dir) ∨
      (toCsv p.2 = .refused ∧ PyDict.get? disk' (pathOf p.1) = PyDict.get? disk (pathOf p.1)) ∨
      ∃ a, toCsv p.2 = .torn a ∧ PyDict.get? disk' (pathOf p.1) = some (.file a)) ∧
    ∀ d ∈ rest, PyDict.get? disk' (pathOf d.1) = PyDict.get? disk (pathOf d.1)

/-- What `write_file` of json makes of the tables that are handed over: lists of rows, in the order of the fields. -/
def ListsOfLists (env : TextEnv) (schema : List (String × TabClass)) (ws : List (String × Frame)) (j : PyDict String JPan) :
    Prop :=
  Pairwise2 (fun tc e => e.1 = tc.1 ∧ ∃ w rows, PyDict.get? ws tc.1 = some w ∧ e.2 = JPan.lol rows ∧
    Pairwise2 (fun r out => Pairwise2 (fun f x => ∃ y, w.cell r.2 (.name f) = some y ∧ jsonPanCell env y = x) tc.2.fields out)
      w.rows rows) schema j

/-- A json writer that is given `j`: without a path the disk stays as it is; a directory in the way raises; otherwise the file
is what `json.dump` has written, whatever was there before and whether or not it raises. -/
def JsonSaved {A J : Type} (dump : J → A × Bool) (path : String) (disk disk' : FileSys A) (j : J) (raised : Bool) : Prop :=
  (path = "" → disk' = disk ∧ raised = (dump j).2) ∧
  (path ≠ "" → PyDict.get? disk path = some .dir → disk' = disk ∧ raised = true) ∧
  (path ≠ "" → PyDict.get? disk path ≠ some .dir → OnlyAt [path] disk disk' ∧
    PyDict.get? disk' path = some (.file (dump j).1) ∧ raised = (dump j).2)

/-- A writer of databases that has raised: the tables before were written, one after the other, the next one was refused, and the
tables after it are as before. -/
def SqlBrokenOff (cenv : CaseEnv) (mode : IfExists) (nameOf : String → String) (ws : List (String × Frame))
    (db db' : PanStore) : Prop :=
  ∃ done p rest, ws = done ++ p :: rest ∧
    (mode ≠ .append → ∀ d ∈ done, PyDict.get? db' (nameOf d.1) = some d.2) ∧
    toSql cenv mode (nameOf p.1, p.2) db' = none ∧
    ∀ d ∈ p :: rest, PyDict.get? db' (nameOf d.1) = PyDict.get? db (nameOf d.1)

end Ticdat.Spec

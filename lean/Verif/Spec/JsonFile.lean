import Verif.Model.JsonFile
import Verif.Spec.TableIO
import Verif.Spec.PanFiles
import Verif.Spec.PanSame
import Verif.Spec.Good
/-!
# Specification of json files as a whole
-/
namespace Ticdat.Spec

/-- The factory has just these tables, none of them generic or a generator table. -/
def PlainFactory (fc : JsonFactory) (schema : List (String × TabClass)) : Prop :=
  fc.kinds = schema.map (fun tc => (tc.1, .plain tc.2))

/-- The library loads what it has dumped: the same object, with the entries of objects in any order. -/
def LoadsBack (lib : JsonLib) (d : PyDict String (List RowIn)) : Prop :=
  ∃ d', lib.loads (lib.dumps d) = some (.object (d'.map (fun p => (p.1, .rows p.2)))) ∧ SameJson d d'

/-- A data object of the factory: every table is there, with the right keys and fields. -/
def DatOK (schema : List (String × TabClass)) (dat : PyDict String TabVal) : Prop :=
  PyDict.keys dat = schema.map Prod.fst ∧ ∀ tc ∈ schema, ∀ tab, PyDict.get? dat tc.1 = some tab → WellShaped tc.2 tab

/-- A cell of the object in a table. -/
def DatHas (schema : List (String × TabClass)) (dat : PyDict String TabVal) (x : Cell) : Prop :=
  ∃ tc ∈ schema, ∃ tab f, PyDict.get? dat tc.1 = some tab ∧ HasCell tc.2 tab f x

/-- The guard of `write_file` lets the call pass: no path, nothing at the path, or a file and `allow_overwrite`. -/
def MayWrite (path : String) (overwrite : Bool) (disk : Disk) : Prop :=
  path = "" ∨ PyDict.get? disk path = none ∨ (overwrite = true ∧ ∃ s, PyDict.get? disk path = some (.file s))

/-- The row with null for NaN. -/
def noNans : RowIn → RowIn
  | .seq vs => .seq (vs.map nullAsNone)
  | r => r

/-- The fields of the table are just `columns` and `data`. -/
def ColumnsData (c : TabClass) : Prop := ∀ f, f ∈ c.fields ↔ f = "columns" ∨ f = "data"

/-- Every value is an object with the keys `columns` and `data`: what `write_file_pd` writes by default. -/
def SplitDoc (doc : PyDict String JVal) : Prop :=
  ∀ p ∈ doc, ∃ ks v, p.2 = .frame ks v ∧ ∀ k, k ∈ ks ↔ k = "columns" ∨ k = "data"

/-- The types of the factory do not leave open which infinity the flag `None` stands for. -/
def BiasKnown (env : TextEnv) (cf : IOConf) (schema : List (String × TabClass)) : Prop :=
  cf.flag = .none → ∀ tc ∈ schema, ∀ f ∈ tc.2.fields, ¬ NoneFlagAmbiguous env cf tc.1 f

/-- Both writers treat the parameters table alike: parameters are declared (and the table has one data field), or there is
no flag. -/
def ParamsAlike (cf : IOConf) (schema : List (String × TabClass)) : Prop :=
  ∀ tc ∈ schema, tc.1 = "parameters" → (cf.params ≠ [] → tc.2.dfs.length = 1) ∧ (cf.params = [] → cf.flag = .na)

end Ticdat.Spec

import Verif.Model.PgPan
import Verif.Spec.DbIO
import Verif.Spec.PanRead
/-!
# Specification of `PanDat` objects in PostgreSQL schemas
-/
namespace Ticdat.Spec

/-- The rows of the fields of a `PanDat` table. -/
def fieldRows (c : TabClass) (v : Frame) : List (List Cell) := v.rows.map (fun r => c.fields.map (fun f => colCell v r (.name f)))

/-- What is stored for a cell of a `PanDat`.  In the parameters table a null value is handed over as `None` if parameters are
declared, and all else as it is; in the other tables it is what is stored for a cell of a `TicDat`. -/
def panPgCell (env : TextEnv) (cf : IOConf) (store : Store) (t : String) (c : TabClass) (f : String) (x : Cell) : Option Cell :=
  if t = "parameters" then store t f (if cf.params ≠ [] ∧ f ∈ c.dfs ∧ (x = .none ∨ x = .nan) then .none else x)
  else pgCell env cf store t f x

/-- The table before and after all rows of the `PanDat` table were written to it: the old rows are kept unless they are to be
deleted, and the new ones follow, marked as active. -/
def Uploaded (env : TextEnv) (cf : IOConf) (store : Store) (useActive dflt : Bool) (del : String → Bool) (tc : String × TabClass)
    (v : Frame) (old new : PgTable) : Prop :=
  new.active = old.active ∧ ∃ stored, StoredRows (panPgCell env cf store tc.1 tc.2) tc.2.fields (fieldRows tc.2 v) stored ∧
    new.rows = (if del tc.1 then [] else old.rows) ++
      stored.map (fun r => (if useActive && old.active then true else dflt, r))

/-- The number of tables that are uploaded if `progress` tells after which tables to go on: all of them, or those up to the
first after which it does not. -/
def StopsAfter (progress : Nat → Bool) (total n : Nat) : Prop :=
  n ≤ total ∧ (∀ i, i + 1 < n → progress i = true) ∧ (n = total ∨ (0 < n ∧ progress (n - 1) = false))

/-- The database (or file) keeps a cell of a table other than the parameters table: the value that is handed to it for the
cell is stored as it is, or is null and stored as a null, or is a datetime in a field of datetimes and stored as a text that
reads as this datetime. -/
def PgPanKeeps (env : TextEnv) (cf : IOConf) (store : Store) (t f : String) (x : Cell) : Prop :=
  ∀ w, Handed env cf true t f x w → ∃ z, store t f w = some z ∧ (SameOrNull w z ∨
    ∃ td d s, typeOf cf.types t f = some td ∧ td.datetime = true ∧ w = .dt d ∧ z = .str s ∧ env.date z = some d)

/-- An entry of the parameters table that survives: the name is kept, and the value, which is valid for the parameter, is kept
as it is, or kept as its text; a number, or text that does not read as a number where numbers are allowed.  A datetime is kept
as it is, or as a text that reads as this datetime, and a null as a null. -/
def PgPanParam (env : TextEnv) (params : Params) (store : Store) (k v : Cell) : Prop :=
  ¬ Null k ∧ (∀ f, store "parameters" f k = some k) ∧ ∃ w td, (∀ f, store "parameters" f (nullAsNone v) = some w) ∧
    paramType params k = some td ∧ Valid env.parses td v ∧
    ((Null v ∧ Null w) ∨
      (td.datetime = false ∧ (w = v ∨ w = .str (env.text v)) ∧
        ((∃ x, v = .num x) ∨ ∃ s, v = .str s ∧ (td.numberAllowed = true → env.float s = none))) ∨
      (td.datetime = true ∧ ∃ d, v = .dt d ∧ (w = v ∨ ∃ s, w = .str s ∧ env.date w = some d)))

/-- A table of a `PanDat` that survives being written to a PostgreSQL schema and read from it. -/
def PgPanSafe (env : TextEnv) (cf : IOConf) (store : Store) (t : String) (c : TabClass) (v : Frame) : Prop :=
  (t ≠ "parameters" → ∀ f ∈ c.fields, Survives env cf t f (column v f) ∧ ∀ x ∈ column v f, PgPanKeeps env cf store t f x) ∧
  (t = "parameters" → cf.params = [] → ∀ f ∈ c.fields, ∀ x ∈ column v f, ∃ z, store t f x = some z ∧ SameOrNull x z) ∧
  (t = "parameters" → cf.params ≠ [] → ∃ k f, c.pks = [k] ∧ c.dfs = [f] ∧
    ∀ r ∈ fieldRows c v, ∃ x y, r = [x, y] ∧ PgPanParam env cf.params store x y)

/-- The json reader does not take a text of the table for null: no text "none" (in any case) in a field of nullable text, or as
the text of the value of a nullable parameter. -/
def PanNoNone (env : TextEnv) (lower : String → String) (cf : IOConf) (t : String) (c : TabClass) (v : Frame) : Prop :=
  (t ≠ "parameters" → ∀ f ∈ c.fields, ∀ td, typeOf cf.types t f = some td → td.nullable = true → td.numberAllowed = false →
    ∀ s, .str s ∈ column v f → lower s ≠ "none") ∧
  (t = "parameters" → ∀ r ∈ fieldRows c v, ∀ k x, r = [k, x] → ¬ Null x → ∀ td, paramType cf.params k = some td →
    Valid env.parses td .none → lower (env.text x) ≠ "none")

end Ticdat.Spec

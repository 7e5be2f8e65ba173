import Verif.Model.Pg
import Verif.Spec.SqliteIO
/-!
# Specification of round trips through Access and PostgreSQL
-/
namespace Ticdat.Spec

/-- `None` stands for this infinity in the field under `infinity_io_flag = None`: the type of the field allows numbers, the
infinity and not the other one, and no null. -/
def NoneMeans (env : TextEnv) (cf : IOConf) (t f : String) (y : XNum) : Prop :=
  ∃ td, typeOf cf.types t f = some td ∧ td.numberAllowed = true ∧ ¬ Valid env.parses td .none ∧
    ((y = .pinf ∧ Valid env.parses td (.num .pinf) ∧ ¬ Valid env.parses td (.num .ninf)) ∨
      (y = .ninf ∧ Valid env.parses td (.num .ninf) ∧ ¬ Valid env.parses td (.num .pinf)))

/-- The value that is handed to the database for a cell: an infinity is the flag, or minus the flag, under a numeric flag; it
is `None` under the flag `None` if it can be (`byNone`) and `None` means it; all else is as it is. -/
def Handed (env : TextEnv) (cf : IOConf) (byNone : Bool) (t f : String) (x w : Cell) : Prop :=
  match cf.flag with
  | .na => w = x
  | .num q => (x = .num .pinf → w = .num (.fin q)) ∧ (x = .num .ninf → w = .num (.fin (-q))) ∧
      (x ≠ .num .pinf → x ≠ .num .ninf → w = x)
  | .none => (byNone = true ∧ ∃ y, x = .num y ∧ NoneMeans env cf t f y ∧ w = .none) ∨
      (¬ (byNone = true ∧ ∃ y, x = .num y ∧ NoneMeans env cf t f y) ∧ w = x)

/-- The database keeps the value `w` that was handed to it for the cell `x`: it stores it as it is, or, if the cell is a
datetime, as something that reads as that datetime. -/
def Kept (env : TextEnv) (store : Store) (t f : String) (x w : Cell) : Prop :=
  store t f w = some w ∨ ∃ d w', x = .dt d ∧ store t f w = some w' ∧ (w' = .dt d ∨ ∃ s, w' = .str s ∧ env.date w' = some d)

/-- A cell outside the adjusted parameters table that survives: it survives a json file, and the database keeps it. -/
def DbSafe (env : TextEnv) (cf : IOConf) (store : Store) (byNone : Bool) (t f : String) (x : Cell) : Prop :=
  JsonSafe env cf t f x ∧ ∀ w, Handed env cf byNone t f x w → Kept env store t f x w

/-- An entry of the parameters table that survives: the database keeps the name, and the value is kept or stored as its
text, or stored as something that reads as the datetime it is, and not changed by the adjustment of parameters. -/
def DbParam (env : TextEnv) (params : Params) (store : Store) (k v : Cell) : Prop :=
  ((∃ s, k = .str s) ∨ (∃ x, k = .num x) ∨ ∃ b, k = .bool b) ∧ (∀ f, store "parameters" f k = some k) ∧
    ∃ w, (∀ f, store "parameters" f v = some w) ∧
      ((w = v ∧ v ≠ .nan ∧ ParamAsIs env params k v) ∨
        ((∃ x, v = .num x) ∧ w = .str (env.text v) ∧ TextParam env params k v) ∨
        ∃ d td, v = .dt d ∧ paramType params k = some td ∧ td.datetime = true ∧
          (w = .dt d ∨ ∃ s, w = .str s ∧ env.date w = some d))

/-- The rows that a table has after a list of INSERTs: the cells as they are stored. -/
def StoredRows (W : String → Cell → Option Cell) (fields : List String) (rows stored : List (List Cell)) : Prop :=
  Pairwise2 (fun row ws => row.length = fields.length ∧ ws.length = fields.length ∧
    ∀ (i : Nat) f x w, fields[i]? = some f → row[i]? = some x → ws[i]? = some w → W f x = some w) rows stored

/-- The same PostgreSQL schema, up to the order of the rows of each table. -/
def SamePg (db db' : PgDb) : Prop :=
  ∀ t tab, PyDict.get? db t = some tab → ∃ tab', PyDict.get? db' t = some tab' ∧ tab'.active = tab.active ∧
    List.Perm tab'.rows tab.rows

/-- The database satisfies its foreign keys: each row has a NULL in one of the native columns, or a foreign row has the
same values. -/
def PgConsistent (fks : List PgFk) (rows : String → List (List Cell)) : Prop :=
  ∀ k ∈ fks, ∀ r ∈ rows k.native, (∃ c ∈ k.cols, r[c.1]? = some .none) ∨
    ∃ p ∈ rows k.foreign, ∀ c ∈ k.cols, r[c.1]? = p[c.2]?

/-- The rows of a table of the database, whatever the active column says. -/
def rowsIn (db : PgDb) (t : String) : List (List Cell) :=
  ((PyDict.get? db t).map (fun tab => tab.rows.map Prod.snd)).getD []

end Ticdat.Spec

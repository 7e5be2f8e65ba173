import Verif.Model.MdbFile
import Verif.Model.WriteDisk
/-!
# The schemas of new Access databases

`write_schema` (mdb.py:217-275) creates a table for each table of the schema, in a new file or in one that exists.  Access is
modelled by what makes a CREATE TABLE fail: a table of that name, up to case, no columns, two columns with the same name up to
case, and whatever else (a name it does not allow, say), as a parameter of the model.  Simplifications: the path is not a directory
and a file that exists can be opened; `blank.accdb` has no tables.
-/
namespace Ticdat

/-- A table with the types of its columns. -/
structure MdbTab where
  tab : SqlTab
  types : List String

/-- A database with the types of its columns. -/
abbrev MdbBase := PyDict String MdbTab

/-- The database without the types. -/
def MdbBase.plain (base : MdbBase) : SqlFile := base.map (fun p => (p.1, p.2.tab))

/-- What is installed: pypyodbc, pyodbc, whether this is Windows, and whether `blank.accdb` is there (mdb.py:27-50, 56, 211-216). -/
structure MdbHost where
  pypyodbc : Bool
  pyodbc : Bool
  windows : Bool
  blank : Bool

/-- The named arguments of `write_schema`: a value that is not a mapping is `none`. -/
abbrev FieldTypes := PyDict String (Option (PyDict String String))

/-- The checks of the named arguments (mdb.py:236-245). -/
def mdbSchemaArgs (schema : List (String × TabClass)) (types : FieldTypes) : Bool :=
  types.all (fun kv =>
    match PyDict.get? schema kv.1, kv.2 with
    | some c, some m => m.all (fun ft => decide (ft.1 ∈ c.pks ++ c.dfs) && decide (ft.2 ∈ ["text", "double", "int"]))
    | _, _ => false)

/-- `get_fld_type` (mdb.py:246-251). -/
def mdbColType (types : FieldTypes) (params : Params) (t f dflt : String) : String :=
  match (PyDict.get? types t).bind (fun m => m.bind (fun m => PyDict.get? m f)) with
  | some ty => ty
  | none => if t = "parameters" ∧ params ≠ [] then "text" else dflt

/-- The table of a CREATE TABLE (mdb.py:265-274): a row that is added without naming a data column has NULL in it. -/
def mdbDecl (types : FieldTypes) (params : Params) (tc : String × TabClass) : MdbTab :=
  ⟨⟨tc.2.pks.map (fun f => ⟨f, false, none⟩) ++ tc.2.dfs.map (fun f => ⟨f, false, some .none⟩), tc.2.pks, []⟩,
    tc.2.pks.map (fun f => mdbColType types params tc.1 f "text") ++ tc.2.dfs.map (fun f => mdbColType types params tc.1 f "double")⟩

/-- A CREATE TABLE with its commit (mdb.py:264-275); `none` is an error. -/
def mdbCreateTab (cenv : CaseEnv) (ok : String → MdbTab → Bool) (types : FieldTypes) (params : Params) (tc : String × TabClass)
    (base : MdbBase) : Option MdbBase :=
  if base.any (fun p => decide (cenv.lower p.1.toList = cenv.lower tc.1.toList)) then none
  else if tc.2.fields = [] then none
  else if ¬ (tc.2.fields.map (fun f => cenv.lower f.toList)).Nodup then none
  else if ok tc.1 (mdbDecl types params tc) = false then none
  else some (base ++ [(tc.1, mdbDecl types params tc)])

/-- Whether a new file can be made (mdb.py:252-263). -/
def mdbCanCreate (host : MdbHost) (path : String) : Bool :=
  if !(hasSuffix path ".mdb" || hasSuffix path ".accdb") then false
  else if hasSuffix path ".mdb" then host.pypyodbc && host.windows
  else host.blank

/-- The loop over the tables (mdb.py:264-275). -/
def mdbCreateTabs (cenv : CaseEnv) (ok : String → MdbTab → Bool) (types : FieldTypes) (params : Params)
    (schema : List (String × TabClass)) (base : MdbBase) : Option MdbBase × Bool :=
  let r := runSteps (mdbCreateTab cenv ok types params) schema base
  (some r.1, r.2)

/-- `write_schema` (mdb.py:217-275): the file afterwards, if there is one, and whether an exception was raised.  `generic` says
whether the schema has generic tables. -/
def mdbWriteSchema (host : MdbHost) (cenv : CaseEnv) (ok : String → MdbTab → Bool) (generic : Bool) (params : Params)
    (schema : List (String × TabClass)) (types : FieldTypes) (path : String) (disk : Option MdbBase) : Option MdbBase × Bool :=
  if generic then (disk, true)
  else if !(host.pyodbc || host.pypyodbc) then (disk, true)
  else if !mdbSchemaArgs schema types then (disk, true)
  else
    match disk with
    | none => if mdbCanCreate host path then mdbCreateTabs cenv ok types params schema [] else (disk, true)
    | some base =>
      if hasSuffix path ".mdb" || hasSuffix path ".accdb" then mdbCreateTabs cenv ok types params schema base else (disk, true)

/-- `write_file` (mdb.py:276-334) on a path: a missing file is made by `write_schema` without arguments (mdb.py:302-303).  The types
of the columns are left out of the result. -/
def mdbPathWrite (env : TextEnv) (host : MdbHost) (cenv : CaseEnv) (ok : String → MdbTab → Bool) (cf : IOConf) (store : Store)
    (allowOverwrite : Bool) (schema : List (String × TabClass)) (dat : PyDict String TabVal) (path : String)
    (disk : Option MdbBase) : Option SqlFile × Bool :=
  if !(host.pyodbc || host.pypyodbc) then (disk.map MdbBase.plain, true)
  else
    match (match disk with
      | none => mdbWriteSchema host cenv ok false cf.params schema [] path none
      | some base => (some base, !(hasSuffix path ".mdb" || hasSuffix path ".accdb"))) with
    | (d, true) => (d.map MdbBase.plain, true)
    | (none, false) => (none, true)
    | (some base, false) =>
      let r := mdbFileWrite env cenv cf store allowOverwrite schema dat base.plain
      (some r.1, r.2)

end Ticdat

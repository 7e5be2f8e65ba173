import Verif.Model.Good
/-!
# `TicDatFactory.as_dict`

A DataFrame's `to_dict` is a parameter.
-/
namespace Ticdat

/-- `t in self.generator_tables`. -/
def TabKind.isGenerator : TabKind → Bool
  | .generator _ => true
  | _ => false

/-- The value of one table in the dictionary (ticdatfactory.py:626-633): the fields of the rows are copied into plain
dictionaries.  A table that has not got the shape that the schema asks for raises an exception; `td` is `to_dict`. -/
def asDictTable (td : Frame → AttrVal) : TabKind → OutTab → Option AttrVal
  | .plain c, .tab (.keyed d) => if c.pks ≠ [] then some (.tab (.dict (d.map (fun p => (p.1, .dict p.2))))) else none
  | .plain c, .tab (.plain rows) => if c.pks ≠ [] then none else some (.tab (.seq (rows.map .dict)))
  | .generic, .frame v => some (td v)
  | _, _ => none

/-- `as_dict(ticdat)` (ticdatfactory.py:610-634); `none` is a raised exception.  The order of the entries is that of the
schema here. -/
def asDict (td : Frame → AttrVal) (kinds : List (String × TabKind)) (obj : PyDict String OutTab) : Option (PyDict String AttrVal) :=
  if kinds.any (fun tk => tk.2.isGenerator) then none
  else kinds.mapM (fun tk => ((PyDict.get? obj tk.1).bind (asDictTable td tk.2)).map (fun a => (tk.1, a)))

end Ticdat

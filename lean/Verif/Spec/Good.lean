import Verif.Model.Good
import Verif.Spec.Init
import Verif.Spec.Frame
/-!
# Specification of good data objects
-/
namespace Ticdat.Spec

/-- A row that is a dictionary with exactly the data fields. -/
def ExactRow (dfs : List String) : RowIn → Prop
  | .dict d => ∀ f, f ∈ PyDict.keys d ↔ f ∈ dfs
  | _ => False

/-- A table that `row_checking="strict"` should accept. -/
def StrictTable : TabKind → AttrVal → Prop
  | .generic, a => ∃ v, a = .frame v
  | .generator c, a => ∃ rows, (a = .tab (.seq rows) ∨ a = .call rows) ∧ ∀ r ∈ rows, ExactRow c.dfs r
  | .plain c, a =>
    if c.pks = [] then a = .tab (.dict []) ∨ ∃ rows, a = .tab (.seq rows) ∧ ∀ r ∈ rows, ExactRow c.dfs r
    else ∃ d, a = .tab (.dict d) ∧ ∀ p ∈ d, keyLen p.1 = c.pks.length ∧ ExactRow c.dfs p.2

/-- The columns and index of a DataFrame provide the fields of the table, without any default values. -/
def FrameGoodFor (c : TabClass) (v : Frame) : Prop :=
  "name" ∉ c.dfs ∧ ("name" ∈ c.pks → c.pks.length = 1) ∧ (∀ f ∈ c.dfs, Label.name f ∈ v.cols) ∧
    (c.pks = v.index ∨ ∀ f ∈ c.pks, Label.name f ∈ v.cols)

/-- How many entries an element of a container has, as a key. -/
def entries : RowIn → Nat
  | .dict d => List.length d
  | .seq vs => vs.length
  | .scalar _ => 1

/-- A table that `row_checking="generous"` accepts. -/
def GenerousTable : TabKind → AttrVal → Prop
  | .generic, .frame _ => True
  | .generic, .tab (.seq rows) => ∀ r ∈ rows, RowFits [] r
  | .generic, .tab (.dict d) => ∀ p ∈ d, keyLen p.1 = 0
  | .generic, _ => False
  | .generator c, .tab (.seq rows) => ∀ r ∈ rows, RowFits c.dfs r
  | .generator c, .call rows => ∀ r ∈ rows, RowFits c.dfs r
  | .generator _, _ => False
  | .plain c, .frame v => FrameGoodFor c v
  | .plain c, .tab (.dict d) =>
    if c.pks = [] then ∀ p ∈ d, keyLen p.1 = c.dfs.length
    else ∀ p ∈ d, keyLen p.1 = c.pks.length ∧ RowFits c.dfs p.2
  | .plain c, .tab (.seq rows) =>
    if c.pks = [] then ∀ r ∈ rows, RowFits c.dfs r
    else c.dfs = [] ∧ ∀ r ∈ rows, entries r = c.pks.length
  | .plain _, _ => False

/-- An attribute for which the check raises: no container or function for a generator table, or no container for a table
without primary key. -/
def CheckRaises : TabKind → AttrVal → Prop
  | .generic, _ => False
  | .generator _, a => (∃ d, a = .tab (.dict d)) ∨ a = .other
  | .plain c, a => c.pks = [] ∧ ((∃ rows, a = .call rows) ∨ a = .other)

/-- `a` can be passed to the constructor for a table of kind `k`. -/
def Builds (mk : AttrVal → Option Frame) : TabKind → AttrVal → Prop
  | .generic, a => mk a ≠ none
  | .generator c, a => ∃ rows, (a = .tab (.seq rows) ∨ a = .call rows) ∧ ∀ r ∈ rows, RowFits c.dfs r
  | .plain c, .tab (.seq rows) => ∀ r ∈ rows, RowFits (c.pks ++ c.dfs) r
  | .plain c, .tab (.dict d) =>
    if c.pks = [] then ∀ k ∈ PyDict.keys d, keyLen k = c.dfs.length
    else ∀ p ∈ d, keyLen p.1 = c.pks.length ∧ RowFits c.dfs p.2
  | .plain c, .frame v => FrameFits c v
  | .plain _, _ => False

/-- The constructor counts fewer rows than it was given: a key occurs twice, or a generator table is given as a container
that is not empty, or the DataFrame for a generic table is shorter than the argument. -/
def SeemsLost (mk : AttrVal → Option Frame) : TabKind → AttrVal → Prop
  | .plain c, .tab (.seq rows) => c.pks ≠ [] ∧ ¬ (rows.map (keyOf c)).Nodup
  | .plain c, .frame v => c.pks ≠ [] ∧ ¬ (v.rows.map (fun r => keyFrom c.pks (frameCell c v r))).Nodup
  | .plain _, _ => False
  | .generator _, a => ∃ rows, a = .tab (.seq rows) ∧ rows ≠ []
  | .generic, a => ∃ v n, mk a = some v ∧ a.len = some n ∧ v.rows.length < n

/-- The fields of a row are the same up to their order. -/
def SameRow (dfs : List String) (x : RowIn) (row : RowVal) : Prop :=
  ∃ d, x = .dict d ∧ PyDict.keys row = dfs ∧ ∀ f ∈ dfs, PyDict.get? row f = PyDict.get? d f

/-- The table that is built has the rows of the table that was given. -/
def SameTable (c : TabClass) : TableIn → TabVal → Prop
  | .dict d, .keyed d' => Pairwise2 (fun p q => q.1 = p.1 ∧ SameRow c.dfs p.2 q.2) d d'
  | .seq rows, .plain rows' => Pairwise2 (SameRow c.dfs) rows rows'
  | .dict d, .plain rows' => d = [] ∧ rows' = []
  | .seq _, .keyed _ => False

/-- The same for tables of all kinds: a DataFrame is the same, a generator function goes through the same rows. -/
def SameAttr : AttrVal → OutTab → TabKind → Prop
  | .frame v, .frame v', .generic => v' = v
  | .tab (.seq rows), .gen c rows', .generator c' => c = c' ∧ rows' = rows
  | .call rows, .gen c rows', .generator c' => c = c' ∧ rows' = rows
  | .tab x, .tab v, .plain c => SameTable c x v
  | _, _, _ => False

end Ticdat.Spec

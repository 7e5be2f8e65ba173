import Verif.Model.Copy
import Verif.Spec.Init
/-!
# Specification of copies (C31)

Two clients share the heap; every object belongs to one of them.
-/
namespace Ticdat.Spec

/-- To whom the rows, tables and data objects belong. -/
structure Owner where
  row : Nat → Bool
  tab : Nat → Bool
  dat : Nat → Bool

/-- What is allocated in a step of client `s` belongs to `s`. -/
def Owner.grow (own : Owner) (w : World) (s : Bool) : Owner where
  row a := if w.rows.length ≤ a then s else own.row a
  tab a := if w.tabs.length ≤ a then s else own.tab a
  dat a := if w.dats.length ≤ a then s else own.dat a

/-- The operation on a table names rows of client `s` only. -/
def TabOpOf (own : Owner) (s : Bool) : TabOp → Prop
  | .update _ b => own.row b = s
  | .setdefault _ b => own.row b = s
  | .ior _ b => own.row b = s
  | _ => True

/-- The operation names objects of client `s` only. -/
def OpOf (own : Owner) (s : Bool) : Op → Prop
  | .tab a op => own.tab a = s ∧ TabOpOf own s op
  | .row a _ _ => own.row a = s
  | .newPlain _ => True
  | .setAttr d _ a => own.dat d = s ∧ own.tab a = s
  | .delAttr d _ => own.dat d = s
  | .freeze d _ => own.dat d = s

/-- A history in which each client uses its own objects. -/
def Sided : Owner → World → List (Bool × Op) → Prop
  | _, _, [] => True
  | own, w, (s, op) :: rest => OpOf own s op ∧ Sided (own.grow w s) (step w op).1 rest

/-- The objects of each client refer to objects of the same client. -/
structure Separated (own : Owner) (w : World) : Prop where
  rows : ∀ (a : Nat) (tab : TabObj), w.tabs[a]? = some tab → ∀ b ∈ tab.addrs, own.row b = own.tab a
  tabs : ∀ (d : Nat) (o : DatObj), w.dats[d]? = some o → ∀ p ∈ o.tabs, own.tab p.2 = own.dat d

/-- What a copy of a table holds: each row with the missing fields filled in. -/
def filledView (c : TabClass) (v : TabView) : TabView := v.map (fun p => (p.1, p.2.map (filledRow c)))

/-- A table object that fits its class: a dictionary with keys of the right length, or a list or tuple, and rows that have
no other fields than the data fields. -/
def Fits (c : TabClass) (w : World) (tab : TabObj) : Prop :=
  (match tab with
    | .dict _ rows _ => c.pks ≠ [] ∧ (PyDict.keys rows).Nodup ∧ ∀ k ∈ PyDict.keys rows, keyLen k = c.pks.length
    | _ => c.pks = []) ∧
  ∀ a ∈ tab.addrs, ∀ r, viewRow w a = some r → (PyDict.keys r).Nodup ∧ ∀ f ∈ PyDict.keys r, f ∈ c.dfs

/-- Every row of the table has exactly the data fields, in order. -/
def FullRows (c : TabClass) (w : World) (tab : TabObj) : Prop :=
  ∀ a ∈ tab.addrs, ∀ r, viewRow w a = some r → PyDict.keys r = c.dfs

/-- The data object has a table for each entry of the schema, with the property `P`. -/
def EveryTable (P : TabClass → World → TabObj → Prop) (schema : List (String × TabClass)) (w : World) (d : Nat) : Prop :=
  ∃ o, w.dats[d]? = some o ∧ ∀ tc ∈ schema, ∃ a tab, PyDict.get? o.tabs tc.1 = some a ∧ w.tabs[a]? = some tab ∧ P tc.2 w tab

end Ticdat.Spec

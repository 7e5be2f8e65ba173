import Verif.Model.AmplData
import Verif.Model.Mdb
/-!
# `set_ampl_data`

The argument is an object with one `amplpy.DataFrame` for each of some tables.  `hidden` are the other attributes of the object, whose
names begin with an underscore.  `ampl.setData` is an arbitrary partial function on the state of AMPL.
-/
namespace Ticdat

/-- `table_to_set_name`: a value that is not a string is `none`. -/
abbrev SetNames := PyDict String (Option String)

/-- The checks of the arguments (ticdatfactory.py:1595-1601, pandatfactory.py:1661-1667), of which that for `setData` always passes. -/
def setAmplArgs (all : List String) (hidden : List String) (obj : PyDict String AmplFrame) (names : SetNames) : Bool :=
  obj.all (fun p => decide (p.1 ∈ all)) &&
    names.all (fun p => (decide (p.1 ∈ PyDict.keys obj) || decide (p.1 ∈ hidden)) && p.2.isSome)

/-- One call of `setData` (ticdatfactory.py:1604-1605, pandatfactory.py:1670-1671): with the name of the set if there is one. -/
def setAmplOne {S : Type} (setData : AmplFrame → Option String → S → Option S) (obj : PyDict String AmplFrame) (names : SetNames)
    (t : String) (s : S) : Option S :=
  (PyDict.get? obj t).bind (fun df => setData df ((PyDict.get? names t).bind id) s)

/-- `set_ampl_data` (ticdatfactory.py:1583-1606, pandatfactory.py:1648-1672): the state of AMPL afterwards and whether an exception was
raised.  `order` is the order in which the set of tables is iterated over. -/
def setAmplData {S : Type} (setData : AmplFrame → Option String → S → Option S) (all hidden : List String)
    (obj : PyDict String AmplFrame) (names : SetNames) (order : List String) (s : S) : S × Bool :=
  if setAmplArgs all hidden obj names then runSteps (setAmplOne setData obj names) order s else (s, true)

end Ticdat

import Verif.Model.DataType
import Verif.Model.PanFK
/-!
# `find_data_type_failures` and `replace_data_type_failures` (PanDatFactory)

DataFrames are lists of rows as in `PanFK`; pandas' choice of column types, and the change of cells that it can make when a
column is assigned, are not modelled.
-/
namespace Ticdat

/-- `_bad_row(data)` (pandatfactory.py:1173-1174). -/
def panBadCell (parses : Cell → Bool) (td : TypeDict) (c : Cell) : Bool :=
  !td.validData parses (if c.isNull then .none else c)

/-- `_table[field].apply(bad_row)` (pandatfactory.py:1175-1185); `n` is `number_failures[0]`, which is left alone if
`max_failures` is infinite. -/
def panFlagCells (bad : Cell → Bool) (lim : Option Nat) : List Cell → Nat → List Bool × Nat
  | [], n => ([], n)
  | c :: cs, n =>
    match lim with
    | none =>
      let (fl, n') := panFlagCells bad lim cs n
      (bad c :: fl, n')
    | some m =>
      if m ≤ n then
        let (fl, n') := panFlagCells bad lim cs n
        (false :: fl, n')
      else
        let (fl, n') := panFlagCells bad lim cs (if bad c then n + 1 else n)
        (bad c :: fl, n')

/-- The two nested loops (pandatfactory.py:1167-1190), as one loop over the typed fields.  A missing column raises. -/
def panTypeLoop (parses : Cell → Bool) (db : PanDB Cell) (lim : Option Nat) :
    List (String × String × TypeDict) → Nat → Option (List ((String × String) × List Bool))
  | [], _ => some []
  | (t, f, td) :: rest, n => do
    let cells ← (db t).mapM (fun r => r f)
    let (fl, n') := panFlagCells (panBadCell parses td) lim cells n
    let entry := if fl.any id then [((t, f), fl)] else []
    if tripsEnd lim n' then return entry
    else
      let more ← panTypeLoop parses db lim rest n'
      return entry ++ more

/-- `self._true_data_types()` (pandatfactory.py:1123-1136), flattened. -/
def trueTypes (s : Schema) (dts : DataTypes) : List (String × String × TypeDict) :=
  (tmpTypes s dts).flatMap (fun tr => tr.2.map (fun ft => (tr.1, ft.1, ft.2)))

/-- `PanDatFactory.find_data_type_failures(as_table=False)` (pandatfactory.py:1137-1190): the flags of the rows for each
`(table, field)` that has failures. -/
def panFindTypes (parses : Cell → Bool) (s : Schema) (dts : DataTypes) (db : PanDB Cell) (lim : Option Nat) :
    Option (PyDict (String × String) (List Bool)) :=
  panTypeLoop parses db lim (trueTypes s dts) 0

/-- `self.default_values.get(table, {})`, at a field. -/
def panDefault (defaults : PyDict String (PyDict String Cell)) (t f : String) : Option Cell :=
  ((PyDict.get? defaults t).getD []).get? f

/-- `real_replacements` (pandatfactory.py:1227-1232).  The second argument of `replacement_values.get` is evaluated even if
it is not used, and raises `KeyError` if the field has no default value. -/
def panReplacements (defaults : PyDict String (PyDict String Cell)) (repl : PyDict (String × String) Cell) :
    List (String × String × TypeDict) → Option (List ((String × String) × Cell))
  | [] => some []
  | (t, f, _) :: rest => do
    let more ← panReplacements defaults repl rest
    if (repl.get? (t, f)).isSome || (panDefault defaults t f).isSome then
      let d ← panDefault defaults t f
      return ((t, f), (repl.get? (t, f)).getD d) :: more
    else return more

/-- The new column of one field (pandatfactory.py:1238-1245). -/
def panFixCol (parses : Cell → Bool) (td : TypeDict) (f : String) (v : Cell) (rows : List (PRow Cell)) : List (PRow Cell) :=
  rows.map (fun r g => if g = f then (r f).map (fun c => if panBadCell parses td c then v else c) else r g)

/-- One pass of the loop over `replacements_needed` (pandatfactory.py:1239-1245). -/
def panFixStep (parses : Cell → Bool) (types : List (String × String × TypeDict)) (rr : List ((String × String) × Cell))
    (t f : String) (db : PanDB Cell) : PanDB Cell :=
  match PyDict.get? rr (t, f), types.find? (fun x => decide (x.1 = t) && decide (x.2.1 = f)) with
  | some v, some x => fun t' => if t' = t then panFixCol parses x.2.2 f v (db t) else db t'
  | _, _ => db

/-- The loop over `replacements_needed` (pandatfactory.py:1238-1245). -/
def panFixAll (parses : Cell → Bool) (types : List (String × String × TypeDict)) (rr : List ((String × String) × Cell)) :
    List (String × String) → PanDB Cell → PanDB Cell
  | [], db => db
  | (t, f) :: rest, db => panFixAll parses types rr rest (panFixStep parses types rr t f db)

/-- The outcome: a `TicDatError` before any change, another exception, or the changed data object. -/
inductive PanReplaceResult where
  | refused
  | crashed
  | done (db : PanDB Cell)

/-- `PanDatFactory.replace_data_type_failures` (pandatfactory.py:1191-1247). -/
def panReplaceTypes (parses : Cell → Bool) (s : Schema) (dts : DataTypes)
    (defaults : PyDict String (PyDict String Cell)) (repl : PyDict (String × String) Cell) (db : PanDB Cell) :
    PanReplaceResult :=
  if repl.any (fun p => !(decide (p.1.1 ∈ PyDict.keys s) && decide (p.1.2 ∈ s.allFields p.1.1))) then .refused else
  match panFindTypes parses s dts db none with
  | none => .crashed
  | some [] => .done db
  | some needed =>
    match panReplacements defaults repl (trueTypes s dts) with
    | none => .crashed
    | some rr =>
      if rr.any (fun p => (PyDict.get? needed p.1).isSome &&
          !(match (trueTypes s dts).find? (fun x => decide (x.1 = p.1.1) && decide (x.2.1 = p.1.2)) with
            | some x => x.2.2.validData parses p.2
            | none => true)) then .refused
      else
        let db' := panFixAll parses (trueTypes s dts) rr (needed.map Prod.fst) db
        match panFindTypes parses s dts db' none with
        | none => .crashed
        | some left => if left.any (fun n => (PyDict.get? rr n.1).isSome) then .crashed else .done db'

end Ticdat

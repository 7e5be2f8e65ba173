import Verif.Model.CellIO
/-!
# PanDat: adjustments before writing and after reading

A column of a DataFrame is a list of cells.  Simplification: a column keeps the cells it is given; pandas may turn `None`
into NaN in a column of floats, which the code treats alike (`pd.isnull`).
-/
namespace Ticdat

/-- `utils.numericish(x) and abs(x) >= flag` (pandatfactory.py:472, 550); NaN compares false. -/
def Cell.beyond (q : Rat) : Cell → Bool
  | .num x => XNum.le (.fin q) x || XNum.le x (.fin (-q))
  | _ => false

/-- `_inf_cell_adj` (pandatfactory.py:460-464). -/
def infCellAdj (q : Rat) : Cell → Cell
  | .num x => if XNum.le (.fin q) x then .num .pinf else if XNum.le x (.fin (-q)) then .num .ninf else .num x
  | c => c

/-- `_general_post_read_adjustment` on one column of a table other than `parameters` (pandatfactory.py:465-491).  The step
for `json_read` replaces "none" by `None` in nullable text fields; `lower` is `str.lower`.  `none` is a raised error. -/
def panReadCol (env : TextEnv) (lower : String → String) (cf : IOConf) (json : Bool) (t f : String) (col : List Cell) :
    Option (List Cell) := do
  let col := match cf.flag with
    | .num q => if col.any (Cell.beyond q) then col.map (infCellAdj q) else col
    | _ => col
  let dt := cf.types.at t f
  let multi := (dt.map (fun td => !td.datetime && td.strings.truthy && td.numberAllowed)).getD false && cf.automunge
  let col := if multi then col.map (fun x => (toFloat env x).getD x) else col
  let col ← match cf.flag with
    | .num _ => some col
    | _ => (infBias env cf t f).map (fun b =>
      match b with
      | some pos => col.map (fun x => if x.isNull then .num (infOf pos) else x)
      | none => col)
  let col := if (dt.map (·.datetime)).getD false then
      col.map (fun x => match dateAdjust env x with
        | some d => .dt d
        | none => x)
    else col
  let asStr := (dt.map (fun td => !td.datetime && !td.numberAllowed && td.strings.truthy && td.nullable)).getD false
  some (if json && asStr then
      col.map (fun x => match x with
        | .str s => if lower s = "none" then .none else x
        | x => x)
    else col)

/-- `_pre_write_adjustment` on one column of a table other than `parameters` (pandatfactory.py:521-572): two passes of
`df.loc[fixme, f] = ..`. -/
def panWriteCol (env : TextEnv) (cf : IOConf) (t f : String) (col : List Cell) : Option (List Cell) :=
  match cf.flag with
  | .na => some col
  | .num q =>
    if col.any (Cell.beyond q) then
      let up : List Cell := col.map (fun x => match x with
        | .num y => if XNum.le (.fin q) y then .num (.fin q) else x
        | x => x)
      some (up.map (fun x => match x with
        | .num y => if XNum.le y (.fin (-q)) then .num (.fin (-q)) else x
        | x => x))
    else some col
  | .none => (infBias env cf t f).map (fun b =>
    match b with
    | some pos => if col.any (fun x => decide (x = .num (infOf pos))) then
        col.map (fun x => if x = .num (infOf pos) then .none else x) else col
    | none => col)

/-- `_pre_write_adjustment` on a parameter value (pandatfactory.py:536-539), with declared parameters. -/
def panWriteParam (v : Cell) : Cell := if v.isNull then .none else v

/-- `fix_value` (pandatfactory.py:500-518).  `push` is `push_parameters_to_be_valid`. -/
def panFixParam (env : TextEnv) (lower : String → String) (params : Params) (push json : Bool) (k v : Cell) : Cell :=
  let td := (PyDict.get? params k).bind (·.1)
  let canHave := fun c => (td.map (fun td => td.validData env.parses c)).getD true
  let isDate := (td.map (·.datetime)).getD false
  let date := if isDate && v.stringish && push then dateAdjust env v else none
  match date.bind (fun d => if canHave (.dt d) then some d else none) with
  | some d => .dt d
  | none =>
    let isNone := match v with
      | .str s => json && decide (lower s = "none") && canHave .none
      | _ => false
    if isNone then .none
    else if !((td.map (·.numberAllowed)).getD true) then
      if push && !canHave v && canHave (.str (env.text v)) then .str (env.text v) else v
    else (toFloat env v).getD v

end Ticdat

import Verif.Model.DataType
/-!
# Row predicates: `find_data_row_failures` of both factories, `add_data_row_predicate`
-/
namespace Ticdat

/-- The name of a row predicate: a number or a string (any hashable is accepted; names chosen by the factory are numbers,
ticdatfactory.py:316-317). -/
inductive PName where
  | num (n : Nat)
  | str (s : String)
deriving DecidableEq, Repr

/-- What a predicate returns: the literal `True`, or another object with a truth value and a `str()`. -/
inductive PVal where
  | tru
  | obj (truthy : Bool) (text : String)
deriving DecidableEq, Repr

/-- `bool(v)`. -/
def PVal.truthy : PVal → Bool
  | .tru => true
  | .obj b _ => b

/-- A call of a predicate: it returns or raises. -/
inductive PRes where
  | ret (v : PVal)
  | raised (msg : String)
deriving DecidableEq, Repr

/-- A call of a `predicate_kwargs_maker`: a dict, a string, another object, or an exception. -/
inductive MRes (K : Type) where
  | dict (k : K)
  | str (s : String)
  | other
  | raised (msg : String)

/-- A call of `_convert_dat[0]`: a data object, a string, or an exception. -/
inductive CRes (D : Type) where
  | dat (d : D)
  | str (s : String)
  | raised (msg : String)

/-- `RowPredicateInfo` (utils.py): the predicate as a function of its keyword arguments (`none` for no
`predicate_kwargs_maker`) and of the row, the identity of the maker, and whether the response is "Error Message".
Simplification: a predicate is a pure function that reads the row by field name. -/
structure RowPred (V K : Type) where
  run : Option K → (String → Option V) → PRes
  maker : Option Nat
  message : Bool

/-- The rest of the factory and the data object: the makers by identity, the object, `_convert_dat`. -/
structure PredEnv (K D : Type) where
  makers : Nat → D → MRes K
  dat : D
  convert : Option (D → CRes D)
  convertFor : List (String × PName)

/-- A value in `predicate_kwargs_maker_results`. -/
inductive KwVal (K : Type) where
  | dict (k : K)
  | str (s : String)
  | other

/-- `f"Exception<{e}>"`. -/
def excText (msg : String) : String := "Exception<" ++ msg ++ ">"

/-- `sub in l` for lists of characters. -/
def hasInfix (sub : List Char) : List Char → Bool
  | [] => sub.isPrefixOf []
  | c :: l => sub.isPrefixOf (c :: l) || hasInfix sub l

/-- `"Exception<" in s`. -/
def hasExc (s : String) : Bool := hasInfix "Exception<".toList s.toList

/-- The `error_message` of a bulk failure (ticdatfactory.py:2053-2055). -/
def bulkMessage {K : Type} : KwVal K → String
  | .str s => if hasExc s then s else "predicate_kwargs_maker failed to return a dict"
  | _ => "predicate_kwargs_maker failed to return a dict"

/-- `uses_convert` (ticdatfactory.py:2030). -/
def usesConvert {K D : Type} (env : PredEnv K D) (key : String × PName) : Bool :=
  env.convert.isSome && decide (key ∈ env.convertFor)

/-- The object handed to the maker: `converted_dat[0]` or `tic_dat` (ticdatfactory.py:2033-2042).  Outer `none`: the
conversion raised and is not handled.  `.inr s`: the conversion yielded a string. -/
def datFor {K D : Type} (handled : Bool) (env : PredEnv K D) (key : String × PName) : Option (Sum D String) :=
  if usesConvert env key then
    match env.convert with
    | none => some (.inl env.dat)
    | some c =>
      match c env.dat with
      | .dat d => some (.inl d)
      | .str s => some (.inr s)
      | .raised m => if handled then some (.inr (excText m)) else none
  else some (.inl env.dat)

/-- A call of the maker (ticdatfactory.py:2043-2050). -/
def callMaker {K D : Type} (handled : Bool) (env : PredEnv K D) (m : Nat) : Sum D String → Option (KwVal K)
  | .inr s => some (.str s)
  | .inl d =>
    match env.makers m d with
    | .dict k => some (.dict k)
    | .str s => some (.str s)
    | .other => some .other
    | .raised e => if handled then some (.str (excText e)) else none

/-- The results memoised so far: `predicate_kwargs_maker_results`, keyed by the identity of the maker. -/
abbrev Memo (K : Type) := PyDict Nat (KwVal K)

/-- The keyword arguments of one predicate (ticdatfactory.py:2031-2051); `none` is an exception.  The inner `Option` is
`none` when there is no maker. -/
def kwargsStep {V K D : Type} (handled : Bool) (env : PredEnv K D) (memo : Memo K)
    (p : (String × PName) × RowPred V K) : Option (Option (KwVal K) × Memo K) :=
  match p.2.maker with
  | none => some (none, memo)
  | some m =>
    match datFor handled env p.1 with
    | none => none
    | some d =>
      match memo.get? m with
      | some kw => some (some kw, memo)
      | none =>
        match callMaker handled env m d with
        | none => none
        | some kw => some (some kw, memo.set m kw)

/-- An entry of the result: a bulk failure `PKEM('*', msg)`, or a row with an optional error message. -/
inductive RowFail (PK : Type) where
  | star (msg : String)
  | row (pk : PK) (msg : Option String)
deriving DecidableEq, Repr

/-- `_p(row)` with exceptions handled or not (ticdatfactory.py:2060-2073); `none` is an exception that escapes. -/
def callPred {V K : Type} (handled : Bool) (p : RowPred V K) (kw : Option K) (r : String → Option V) : Option PVal :=
  match p.run kw r with
  | .ret v => some v
  | .raised e =>
    if handled then some (if p.message then .obj true (excText e) else .obj false "False") else none

/-- `handle_full_row_trips_end` (ticdatfactory.py:2075-2083) without the counter. -/
def rowCheck {V K PK : Type} (handled : Bool) (key : String × PName) (p : RowPred V K) (kw : Option K)
    (pk : PK) (r : String → Option V) : Option (Option ((String × PName) × RowFail PK)) :=
  match callPred handled p kw r with
  | none => none
  | some v =>
    if p.message then
      match v with
      | .tru => some none
      | .obj _ text => some (some (key, .row pk (some text)))
    else
      if v.truthy then some none else some (some (key, .row pk none))

/-- The tests for one predicate (ticdatfactory.py:2052-2092). -/
def predChecks {V K PK : Type} (handled : Bool) (rowsOf : String → List (PK × (String → Option V)))
    (key : String × PName) (p : RowPred V K) : Option (KwVal K) → List (Option (Option ((String × PName) × RowFail PK)))
  | none => (rowsOf key.1).map (fun r => rowCheck handled key p none r.1 r.2)
  | some (.dict k) => (rowsOf key.1).map (fun r => rowCheck handled key p (some k) r.1 r.2)
  | some kw => [some (some (key, .star (bulkMessage kw)))]

/-- The tests in the order of the loops, threading the memo (ticdatfactory.py:2028-2092).  An exception of a maker is a
test that raises; what follows it in the list is never reached. -/
def rowChecks {V K D PK : Type} (handled : Bool) (env : PredEnv K D)
    (rowsOf : String → List (PK × (String → Option V))) :
    List ((String × PName) × RowPred V K) → Memo K → List (Option (Option ((String × PName) × RowFail PK)))
  | [], _ => []
  | p :: ps, memo =>
    match kwargsStep handled env memo p with
    | none => none :: rowChecks handled env rowsOf ps memo
    | some (kw, memo') => predChecks handled rowsOf p.1 p.2 kw ++ rowChecks handled env rowsOf ps memo'

/-- The rows of a table as predicates see them (ticdatfactory.py:2084-2092). -/
def predRows {V : Type} (s : Schema) (db : DB V) (t : String) : List (PKey V × (String → Option V)) :=
  (db t).items.map (fun p => (p.1, fun f => PyDict.get? (fullRow ⟨s.pks t, s.dfs t⟩ p.1 p.2) f))

/-- `TicDatFactory.find_data_row_failures` (ticdatfactory.py:1963-2097) after the parameters check has been added to
the predicates.  `preds` is `data_row_predicates` flattened.  A bulk failure is a one-element entry. -/
def findRows {V K D : Type} [DecidableEq V] (handled : Bool) (env : PredEnv K D) (s : Schema)
    (preds : List ((String × PName) × RowPred V K)) (db : DB V) (lim : Option Nat) :
    Option (PyDict (String × PName) (List (RowFail (PKey V)))) := do
  let evs ← scanChecks lim (rowChecks handled env (predRows s db) preds []) []
  return groupBy (fun a b => decide (a = b)) evs.reverse

/-! ### PanDat -/

/-- `faster_df_apply` (utils.py:38-75) with the trip wire of pandatfactory.py:1290-1303: once the count of bad results
reaches the limit the function is replaced by a constant that is good.  Returns the results and the count; `none` is an
exception of the function. -/
def applyTrip {R X : Type} (func : R → Option X) (bad : X → Bool) (good : X) (lim : Option Nat) :
    List R → Nat → Option (List X × Nat)
  | [], n => some ([], n)
  | r :: rest, n =>
    match func r with
    | none => none
    | some x =>
      if bad x then
        if tripsEnd lim (n + 1) then some (x :: rest.map (fun _ => good), n + 1)
        else (applyTrip func bad good lim rest (n + 1)).map (fun q => (x :: q.1, q.2))
      else (applyTrip func bad good lim rest n).map (fun q => (x :: q.1, q.2))

/-- The bad rows with their positions and messages (pandatfactory.py:1364-1395). -/
def panBadRows {V K : Type} (handled : Bool) (p : RowPred V K) (kw : Option K) (lim : Option Nat)
    (rows : List (String → Option V)) (n : Nat) : Option (List (RowFail Nat) × Nat) :=
  if p.message then
    (applyTrip (fun r => callPred handled p kw r) (fun v => decide (v ≠ .tru)) .tru lim rows n).map (fun q =>
      (q.1.zipIdx.filterMap (fun xi => match xi.1 with
        | .tru => none
        | .obj _ text => some (.row xi.2 (some text))), q.2))
  else
    (applyTrip (fun r => (callPred handled p kw r).map (fun v => !v.truthy)) (fun b => b) false lim rows n).map
      (fun q => (q.1.zipIdx.filterMap (fun xi => if xi.1 then some (.row xi.2 none) else none), q.2))

/-- The loops of `PanDatFactory.find_data_row_failures` (pandatfactory.py:1331-1397). -/
def panLoop {V K D : Type} (handled : Bool) (env : PredEnv K D) (lim : Option Nat)
    (rowsOf : String → List (String → Option V)) :
    List ((String × PName) × RowPred V K) → Memo K → Nat → PyDict (String × PName) (List (RowFail Nat)) →
      Option (PyDict (String × PName) (List (RowFail Nat)))
  | [], _, _, rtn => some rtn
  | p :: ps, memo, n, rtn =>
    match kwargsStep handled env memo p with
    | none => none
    | some (kw, memo') =>
      let res : Option (List (RowFail Nat) × Nat) := match kw with
        | none => panBadRows handled p.2 none lim (rowsOf p.1.1) n
        | some (.dict k) => panBadRows handled p.2 (some k) lim (rowsOf p.1.1) n
        | some kw => some ([.star (bulkMessage kw)], n + 1)
      match res with
      | none => none
      | some (bad, n') =>
        let rtn' := if bad = [] then rtn else rtn.set p.1 bad
        if tripsEnd lim n' then some rtn' else panLoop handled env lim rowsOf ps memo' n' rtn'

/-- `PanDatFactory.find_data_row_failures(as_table=False)` (pandatfactory.py:1248-1398): positions of the bad rows, with
messages.  The rows of a `DataFrame` are dicts by column name. -/
def panRowFailures {V K D : Type} (handled : Bool) (env : PredEnv K D)
    (preds : List ((String × PName) × RowPred V K)) (rowsOf : String → List (String → Option V)) (lim : Option Nat) :
    Option (PyDict (String × PName) (List (RowFail Nat))) :=
  panLoop handled env lim rowsOf preds [] 0 []

/-! ### The parameters check and the names of predicates -/

/-- `next(i for i in count() if i not in d)` for a dict whose keys include the numbers `used`: the least number not
used.  Bounded by the number of entries; one of `0..len` is free. -/
def leastFree (used : List PName) : Nat :=
  ((List.range (used.length + 1)).find? (fun i => decide (PName.num i ∉ used))).getD (used.length + 1)

/-- `"Good Name/Value Check"`. -/
def goodName : String := "Good Name/Value Check"

/-- `make_name(i)` (ticdatfactory.py:2012). -/
def makeName (used : List PName) (i : Nat) : PName :=
  if PName.str goodName ∉ used then .str goodName else .str (goodName ++ "_" ++ toString i)

/-- `next(make_name(i) for i in count() if make_name(i) not in ...)` (ticdatfactory.py:2013-2014), bounded as above. -/
def paramPredName (used : List PName) : Option PName :=
  ((List.range (used.length + 1)).map (makeName used)).find? (fun n => decide (n ∉ used))

/-- `_parameters`: name to type (if enforced) and default value (ticdatfactory.py:383-387). -/
abbrev Params := PyDict Cell (Option TypeDict × Cell)

/-- `good_parameter` (ticdatfactory.py:2005-2009): an unknown parameter or an invalid value is bad. -/
def goodParameter (parses : Cell → Bool) (params : Params) (kf vf : String) (r : String → Option Cell) : PRes :=
  match r kf, r vf with
  | some k, some v =>
    match PyDict.get? params k with
    | none => .ret (.obj false "None")
    | some (none, _) => .ret .tru
    | some (some td, _) => .ret (if td.validData parses v then .tru else .obj false "False")
  | _, _ => .raised "KeyError"

/-- `_data_row_predicates`: table to name to predicate. -/
abbrev Preds (V K : Type) := PyDict String (PyDict PName (RowPred V K))

/-- `data_row_predicates[tbl].items()` for all tables, flattened. -/
def flatPreds {V K : Type} (ps : Preds V K) : List ((String × PName) × RowPred V K) :=
  ps.flatMap (fun t => t.2.map (fun p => ((t.1, p.1), p.2)))

/-- Adding the parameters check (ticdatfactory.py:2003-2017). -/
def withParamCheck {K : Type} (parses : Cell → Bool) (s : Schema) (params : Params) (ps : Preds Cell K) :
    Option (Preds Cell K) :=
  if params = [] then some ps else
    match s.pks "parameters", s.dfs "parameters" with
    | kf :: _, vf :: _ =>
      let cur := (PyDict.get? ps "parameters").getD []
      (paramPredName (PyDict.keys cur)).map (fun n =>
        PyDict.set ps "parameters" (PyDict.set cur n ⟨fun _ r => goodParameter parses params kf vf r, none, false⟩))
    | _, _ => none

/-- One call of `add_data_row_predicate` that passes the verifications: `none` removes, `some p` adds, under an explicit
name or under the next free number (ticdatfactory.py:304-319). -/
structure PredCall (V K : Type) where
  table : String
  name : Option PName
  pred : Option (RowPred V K)

/-- `add_data_row_predicate` (ticdatfactory.py:304-319).  `_data_row_predicates` is a `defaultdict(dict)`.  A removal with
no name looks up the key `None`, which is never present. -/
def addPred {V K : Type} (ps : Preds V K) (c : PredCall V K) : Preds V K :=
  match c.pred with
  | none =>
    match PyDict.get? ps c.table, c.name with
    | some cur, some n => PyDict.set ps c.table (PyDict.erase cur n)
    | _, _ => ps
  | some p =>
    let cur := (PyDict.get? ps c.table).getD []
    let n := c.name.getD (.num (leastFree (PyDict.keys cur)))
    PyDict.set ps c.table (PyDict.set cur n p)

end Ticdat

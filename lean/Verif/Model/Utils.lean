import Verif.Model.Cell
/-!
# Small utilities: slicing, name variants, duplicates, row-wise application, comparing numbers
-/
namespace Ticdat

section Slicer
variable {A : Type} [DecidableEq A]

/-- The state of a `Slicer` without gurobipy: `_indicies` and `_archived_slicings` (utils.py:848-872, 898-905). -/
structure SlicerState (A : Type) where
  indices : List (List A)
  archive : PyDict (List Nat) (PyDict (List A) (List (List A)))

/-- `Slicer.__init__` (utils.py:853-872), `star` is the string `"*"`; `none` when a `verify` fails.  The gurobipy
`tuplelist` branch is not modelled. -/
def slicerInit (star : A) (rows : List (List A)) : Option (SlicerState A) :=
  match rows with
  | [] => some ⟨[], []⟩
  | r :: rest =>
    if rest.all (fun x => x.length == r.length) && !((r :: rest).any (fun x => x.contains star)) then
      some ⟨r :: rest, []⟩
    else none

/-- `wildcards = tuple(i for i, x in enumerate(args) if x == "*")` (utils.py:887). -/
def wildcardsOf (star : A) (args : List A) : List Nat :=
  (args.zipIdx.filter (fun p => decide (p.1 = star))).map Prod.snd

/-- `fixedposns = tuple(i for i in range(len(args)) if i not in wildcards)` (utils.py:888). -/
def fixedOf (n : Nat) (wild : List Nat) : List Nat := (List.range n).filter (fun i => !(wild.contains i))

/-- `fa(t)` (utils.py:889-890): `tuple(t[i] for i in fixedposns)`.  Out of range positions cannot occur. -/
def pickAt (fixed : List Nat) (t : List A) : List A := fixed.filterMap (fun i => t[i]?)

/-- `d[k].append(x)` on a `defaultdict(list)` (utils.py:893). -/
def bucketAdd (d : PyDict (List A) (List (List A))) (k : List A) (x : List A) : PyDict (List A) (List (List A)) :=
  PyDict.set d k (((PyDict.get? d k).getD []) ++ [x])

/-- `Slicer.slice` (utils.py:874-894): the new state and the answer, or `none` for the failed `verify`. -/
def slice (star : A) (s : SlicerState A) (args : List A) : SlicerState A × Option (List (List A)) :=
  match s.indices with
  | [] => (s, some [])
  | r :: _ =>
    if args.length = r.length then
      let wild := wildcardsOf star args
      let fixed := fixedOf args.length wild
      let archive :=
        if PyDict.has s.archive wild then s.archive
        else PyDict.set s.archive wild (s.indices.foldl (fun d x => bucketAdd d (pickAt fixed x) x) [])
      let inner := (PyDict.get? archive wild).getD []
      let k := pickAt fixed args
      -- reading a missing key of a `defaultdict` stores the empty list
      let inner' := if PyDict.has inner k then inner else PyDict.set inner k []
      (⟨s.indices, PyDict.set archive wild inner'⟩, some ((PyDict.get? inner' k).getD []))
    else (s, none)

/-- The calls a user makes on a `Slicer`. -/
inductive SlicerOp (A : Type) where
  | slice (args : List A)
  | clear

/-- One call: `slice` or `clear` (utils.py:895-901; `clear` answers `None`, kept as an empty answer). -/
def slicerStep (star : A) (s : SlicerState A) : SlicerOp A → SlicerState A × Option (List (List A))
  | .slice args => slice star s args
  | .clear => (⟨s.indices, []⟩, some [])

/-- The answers of a history of calls. -/
def slicerRun (star : A) : SlicerState A → List (SlicerOp A) → List (Option (List (List A)))
  | _, [] => []
  | s, op :: rest => (slicerStep star s op).2 :: slicerRun star (slicerStep star s op).1 rest

end Slicer

/-- `itertools.combinations(l, r)` as used in utils.py:916-918. -/
def combinations {A : Type} : Nat → List A → List (List A)
  | 0, _ => [[]]
  | _ + 1, [] => []
  | r + 1, x :: xs => (combinations r xs).map (x :: ·) ++ combinations (r + 1) xs

/-- `s_[:i] + " " + s_[i+1:]` (utils.py:921). -/
def blankAt (s : List Char) (i : Nat) : List Char := s.take i ++ ' ' :: s.drop (i + 1)

/-- `underscore_positions = [i for i,c in enumerate(s) if c == "_"]` (utils.py:915). -/
def underscorePositions (s : List Char) : List Nat := (s.zipIdx.filter (fun p => p.1 == '_')).map Prod.snd

/-- `all_underscore_replacements` (utils.py:913-923), strings as lists of characters. -/
def underscoreReplacements (s : List Char) : List (List Char) :=
  let posns := underscorePositions s
  (List.range (posns.length + 1)).flatMap (fun r => (combinations r posns).map (fun ixs => ixs.foldl blankAt s))

section Duplicates
variable {V : Type} [DecidableEq V]

/-- `k = tuple(row[f] for f in flds); k = k[0] if len(k)==1 else k` (utils.py:751-752, csvtd.py:152-154).
`none`: a row without one of the fields (`KeyError`). -/
def dupKey (flds : List String) (row : PyDict String V) : Option (PKey V) :=
  match flds.mapM (fun f => PyDict.get? row f) with
  | none => none
  | some [v] => some (.one v)
  | some vs => some (.many vs)

/-- `rtn[t][k] += 1` over the rows, on a `defaultdict(int)` (utils.py:750-753). -/
def countKeys (flds : List String) : List (PyDict String V) → PyDict (PKey V) Nat → Option (PyDict (PKey V) Nat)
  | [], d => some d
  | row :: rest, d =>
    match dupKey flds row with
    | none => none
    | some k => countKeys flds rest (PyDict.set d k ((PyDict.get? d k).getD 0 + 1))

/-- The loop of `find_duplicates` over the tables (utils.py:748-756), also `find_duplicates_from_dict_ticdat`
(utils.py:769-779): `rtn` starts with an entry per table, entries without duplicates are deleted. -/
def findDupsLoop (td : String → List (PyDict String V)) :
    List (String × List String) → PyDict String (PyDict (PKey V) Nat) → Option (PyDict String (PyDict (PKey V) Nat))
  | [], rtn => some rtn
  | (t, flds) :: rest, rtn =>
    match countKeys flds (td t) [] with
    | none => none
    | some d =>
      let d' := d.filter (fun p => decide (p.2 > 1))
      findDupsLoop td rest (if d' = [] then PyDict.erase rtn t else PyDict.set rtn t d')

/-- `find_duplicates(td, tdf_for_dups)` (utils.py:743-757) after `create_duplicate_focused_tdf` (738-741): `pkFields`
are the primary key fields of the tables that have any, `td` the rows of each table. -/
def findDuplicates (pkFields : List (String × List String)) (td : String → List (PyDict String V)) :
    Option (PyDict String (PyDict (PKey V) Nat)) :=
  findDupsLoop td pkFields (pkFields.map (fun p => (p.1, [])))

/-- The two loops of the csv `find_duplicates` (csvtd.py:145-161): first all counts, then the pruning. -/
def csvCounts (td : String → List (PyDict String V)) :
    List (String × List String) → Option (PyDict String (PyDict (PKey V) Nat))
  | [] => some []
  | (t, flds) :: rest =>
    match countKeys flds (td t) [] with
    | none => none
    | some d =>
      match csvCounts td rest with
      | none => none
      | some ds => some ((t, d) :: ds)

/-- The csv `find_duplicates` (csvtd.py:121-161): `files t` tells if there is a file for the table. -/
def csvFindDuplicates (pkFields : List (String × List String)) (files : String → Bool)
    (td : String → List (PyDict String V)) : Option (PyDict String (PyDict (PKey V) Nat)) :=
  match csvCounts td (pkFields.filter (fun p => files p.1)) with
  | none => none
  | some ds => some ((ds.map (fun p => (p.1, p.2.filter (fun q => decide (q.2 > 1))))).filter (fun p => !p.2.isEmpty))

end Duplicates

/-- The loop of `faster_df_apply` (utils.py:63-73): `func` is applied to each row; after each result the trip wire may
replace `func` for the remaining rows, once. -/
def dfApply {R X : Type} : (R → X) → Option (X → Option (R → X)) → List R → List X
  | _, _, [] => []
  | func, trip, row :: rest =>
    let x := func row
    match trip with
    | none => x :: dfApply func none rest
    | some check =>
      match check x with
      | none => x :: dfApply func trip rest
      | some func' => x :: dfApply func' none rest

/-- `df.tail(n)`. -/
def tailRows {R : Type} (df : List R) (n : Nat) : List R := df.drop (df.length - n)

/-- `all(map(pd.isnull, row.values()))` (pandatfactory.py:35). -/
def allNanRow (row : List Cell) : Bool := row.all Cell.isNull

/-- `_is_last_rows_all_nan` (pandatfactory.py:32-38). -/
def isLastRowsAllNan (df : List (List Cell)) (n : Nat) : Bool :=
  (dfApply allNanRow none (tailRows df 1)).all id &&
    (dfApply allNanRow (some (fun x => some (if x then allNanRow else fun _ => false))) (tailRows df n)).all id

/-- `_find_number_all_nan_last_rows` (pandatfactory.py:40-48); `none` is a failed `assert`.  `math.ceil((a+b)/2)` is
taken exactly (no rounding below 2^53 rows). -/
def numberNanLastRows (df : List (List Cell)) (lo hi : Nat) : Option Nat :=
  if hi < lo then none
  else if lo = hi then (if lo = 0 || isLastRowsAllNan df lo then some lo else none)
  else
    let med := (lo + hi + 1) / 2
    if isLastRowsAllNan df med then numberNanLastRows df med hi else numberNanLastRows df lo (med - 1)
termination_by hi - lo
decreasing_by all_goals omega

/-- `remove_trailing_all_nan` (pandatfactory.py:50-54). -/
def removeTrailingNan (df : List (List Cell)) : Option (List (List Cell)) :=
  match numberNanLastRows df 0 df.length with
  | none => none
  | some n => some (if n = 0 then df else df.take (df.length - n))

/-- The value of `per_error` (utils.py:1307-1322): a number, or NaN for `inf / inf` and `inf - inf`. -/
inductive PerError where
  | num (x : XNum)
  | nan
deriving DecidableEq, Repr

/-- `-x`. -/
def XNum.neg : XNum → XNum
  | .ninf => .pinf
  | .fin q => .fin (-q)
  | .pinf => .ninf

/-- `SMALL_NOT_ZERO = 1e-10` (utils.py:1314). -/
def smallNotZero : Rat := 1 / 10000000000

/-- `per_error` after both-negative arguments were negated (utils.py:1312-1322), for numbers that are not NaN.
With an infinite argument that is not `x1 == inf`: `max(abs1, abs2)` is `inf` and so is the difference, the quotient is
NaN.  Simplification: no floating point rounding. -/
def perErrorPos (x1 x2 : XNum) : PerError :=
  match x1, x2 with
  | .pinf, .pinf => .num (.fin 0)
  | .pinf, _ => .num .pinf
  | .fin a, .fin b =>
    let big := max a.abs b.abs
    if big > smallNotZero then .num (.fin ((max a b - min a b) / big)) else .num (.fin 0)
  | _, _ => .nan

/-- `per_error(x1, x2)` (utils.py:1307-1322). -/
def perError (x1 x2 : XNum) : PerError :=
  if XNum.lt x1 (.fin 0) && XNum.lt x2 (.fin 0) then perErrorPos x1.neg x2.neg else perErrorPos x1 x2

/-- `nearly_same(x1, x2, epsilon)` (utils.py:1324-1325): comparisons with NaN are false. -/
def nearlySame (x1 x2 eps : XNum) : Bool :=
  match perError x1 x2 with
  | .num e => XNum.lt e eps
  | .nan => false

end Ticdat

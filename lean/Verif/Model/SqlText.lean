/-!
# Text of `.sql` files (sqlitetd.py)

Only the text of the values matters here: the statement up to `VALUES (` is a fixed prefix.
-/
namespace Ticdat

/-- The quote character. -/
abbrev quote : Char := '\''

/-- The loop of `_fix_str` (sqlitetd.py:18-31), with the preceding character.  A quote that has no quote next to it is
doubled, any other character is kept. -/
def fixGo (prev : Char) : List Char → List Char
  | [] => []
  | c :: cs => (if c ≠ quote ∨ prev = quote ∨ cs.head? = some quote then [c] else [quote, quote]) ++ fixGo c cs

/-- `_fix_str` (sqlitetd.py:18-31).  For the first character `x[i-1]` is `x[-1]`, the *last* character. -/
def fixStr (x : List Char) : List Char :=
  match x.getLast? with
  | none => []
  | some l => fixGo l x

/-- A value of an insert statement: text, or something `_insert_format` writes without quotes (a number or `null`). -/
inductive SqlVal where
  /-- A string. -/
  | text (s : List Char)
  /-- The characters of `str(x)` or `null`. -/
  | bare (s : List Char)
deriving DecidableEq, Repr

/-- `_insert_format` (sqlitetd.py:33-41). -/
def insertFormat : SqlVal → List Char
  | .text s => quote :: fixStr s ++ [quote]
  | .bare s => s

/-- `",".join(...)` and the closing parenthesis, of the statement text of `_get_data` (sqlitetd.py:291-296). -/
def valuesText : List SqlVal → List Char
  | [] => [')']
  | [v] => insertFormat v ++ [')']
  | v :: vs => insertFormat v ++ ',' :: valuesText vs

/-- One insert statement of the file, with its semicolon (sqlitetd.py:291-296). -/
def insertText (pre : List Char) (vs : List SqlVal) : List Char := pre ++ valuesText vs ++ [';']

/-- `f.read().split(";")` (sqlitetd.py:144). -/
def splitSemi : List Char → List (List Char)
  | [] => [[]]
  | c :: cs =>
    if c = ';' then [] :: splitSemi cs
    else match splitSemi cs with
      | [] => [[c]]
      | p :: ps => (c :: p) :: ps

/-- How SQLite reads a string literal after its opening quote: a doubled quote is a quote, a single one ends the literal.
Gives the content and what follows.  (Not ticdat code: the SQL language.) -/
def readLit : List Char → Option (List Char × List Char)
  | [] => none
  | c :: cs =>
    if c = quote then
      match cs with
      | [] => some ([], [])
      | d :: ds =>
        if d = quote then (readLit ds).map (fun p => (quote :: p.1, p.2))
        else some ([], cs)
    else (readLit cs).map (fun p => (c :: p.1, p.2))

/-- How SQLite reads a value that is not a string: up to the comma or parenthesis.  (Not ticdat code.) -/
def readBare : List Char → List Char × List Char
  | [] => ([], [])
  | c :: cs => if c = ',' ∨ c = ')' ∨ c = quote then ([], c :: cs) else ((c :: (readBare cs).1), (readBare cs).2)

/-- How SQLite reads one value. -/
def readVal (s : List Char) : Option (SqlVal × List Char) :=
  match s with
  | [] => none
  | c :: cs =>
    if c = quote then (readLit cs).map (fun p => (.text p.1, p.2))
    else some (.bare (readBare (c :: cs)).1, (readBare (c :: cs)).2)

/-- How SQLite reads the values of an insert statement with `n` columns, up to the closing parenthesis, which must end
the statement. -/
def readVals : Nat → List Char → Option (List SqlVal)
  | 0, s => if s = [')'] then some [] else none
  | 1, s =>
    match readVal s with
    | none => none
    | some (v, r) => if r = [')'] then some [v] else none
  | n + 2, s =>
    match readVal s with
    | none => none
    | some (v, r) =>
      match r with
      | ',' :: r' => (readVals (n + 1) r').map (v :: ·)
      | _ => none

/-- What reading the file does with the first insert statement: cut at semicolons, execute the piece
(sqlitetd.py:143-145).  `none`: SQLite raises (or inserts something else). -/
def readFirstInsert (pre : List Char) (n : Nat) (file : List Char) : Option (List SqlVal) :=
  match splitSemi file with
  | [] => none
  | p :: _ => if pre.isPrefixOf p then readVals n (p.drop pre.length) else none

end Ticdat

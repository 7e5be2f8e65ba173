/-!
# `ampl_format`

utils.py:709-730.  Strings are lists of characters; the value of an argument is given by the string that it is formatted as.
-/
namespace Ticdat

/-- A Python string. -/
abbrev Text := List Char

/-- `str.replace(old, new)`, called by utils.py:727-729: non-overlapping occurrences from the left.  The first argument is the number of
characters of the current occurrence that are still to be skipped. -/
def replaceGo (old new : Text) : Nat → Text → Text
  | _, [] => []
  | n + 1, _ :: cs => replaceGo old new n cs
  | 0, c :: cs =>
    if old.isPrefixOf (c :: cs) then new ++ replaceGo old new (old.length - 1) cs else c :: replaceGo old new 0 cs

/-- `str.replace(old, new)`. -/
def replaceText (old new s : Text) : Text := replaceGo old new 0 s

/-- `old in s`, called by utils.py:726. -/
def occursIn (old : Text) : Text → Bool
  | [] => old.isPrefixOf []
  | c :: cs => old.isPrefixOf (c :: cs) || occursIn old cs

/-- The string `left` (utils.py:724). -/
def amplLeft : Text := "_ticdat_ampl_format_[_".toList

/-- The string `right` (utils.py:724). -/
def amplRight : Text := "_ticdat_ampl_format_]_".toList

/-- A replacement field of `str.format`, called by utils.py:730, that is a plain name.  Simplification: attributes, indices, conversions
and format specifications are not modelled, their characters raise; an empty name or a number is a position, and there are no
positional arguments. -/
def fieldValue (kw : Text → Option Text) (name : Text) : Option Text :=
  if name.all Char.isDigit then none
  else if name.any (fun c => c == '{' || c == '[' || c == '.' || c == '!' || c == ':') then none
  else kw name

/-- `str.format(**kwargs)`, called by utils.py:730.  The name of the current replacement field is collected, if there is one; `none` is a
raised exception. -/
def formatGo (kw : Text → Option Text) : Option Text → Text → Option Text
  | none, [] => some []
  | some _, [] => none
  | some name, c :: r =>
    if c = '}' then
      match fieldValue kw name.reverse with
      | none => none
      | some v => (formatGo kw none r).map (v ++ ·)
    else formatGo kw (some (c :: name)) r
  | none, c :: r =>
    if c = '{' then
      match r with
      | [] => none
      | d :: r' => if d = '{' then (formatGo kw none r').map ('{' :: ·) else formatGo kw (some []) (d :: r')
    else if c = '}' then
      match r with
      | [] => none
      | d :: r' => if d = '}' then (formatGo kw none r').map ('}' :: ·) else none
    else (formatGo kw none r).map (c :: ·)
termination_by _ s => s.length

/-- `ampl_format` (utils.py:709-730); `none` is a raised exception. -/
def amplFormat (modStr : Text) (kw : Text → Option Text) : Option Text :=
  if occursIn amplLeft modStr || occursIn amplRight modStr then none
  else
    let rtn := replaceText ['}', '}'] amplRight (replaceText ['{', '{'] amplLeft modStr)
    let rtn := replaceText ['}'] ['}', '}'] (replaceText ['{'] ['{', '{'] rtn)
    let rtn := replaceText amplRight ['}'] (replaceText amplLeft ['{'] rtn)
    formatGo kw none rtn

end Ticdat

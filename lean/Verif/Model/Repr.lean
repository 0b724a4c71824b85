import Verif.Model.Str

/-!
# `repr`

Model of the three `__repr__` methods (`src/bibleref/ref.py:551-552, 1127-1128, 1564-1565`).
-/

namespace Bibleref

/-- `BibleVerse.__repr__` (ref.py:551-552). -/
def BibleVerse.repr (u : Uni) (d : BibleData) (v : BibleVerse) : List Char :=
  "BibleVerse(".toList ++ v.str u d { StrOpts.default with short := true } .full ++ [')']

/-- `BibleRange.__repr__` (ref.py:1127-1128). -/
def BibleRange.repr (u : Uni) (e : Env) (r : BibleRange) : Except PyErr (List Char) := do
  let s ← r.str u e .default none
  return "BibleRange(".toList ++ s ++ [')']

/-- `BibleRangeList.__repr__` (ref.py:1564-1565). -/
def RangeList.repr (u : Uni) (e : Env) (l : RangeList) : Except PyErr (List Char) := do
  let s ← RangeList.str u e .default none l
  return "BibleRangeList(\"".toList ++ s ++ ['"', ')']

/-- `BibleRef` (ref.py:1848): a verse, a range or a list. -/
inductive AnyRef where
  | verse (v : BibleVerse)
  | range (r : BibleRange)
  | list (l : RangeList)
  deriving DecidableEq

/-- `repr(x)` for a reference `x` (ref.py:551-552, 1127-1128, 1564-1565). -/
def AnyRef.repr (u : Uni) (e : Env) : AnyRef → Except PyErr (List Char)
  | .verse v => .ok (v.repr u e.data)
  | .range r => r.repr u e
  | .list l => RangeList.repr u e l

end Bibleref

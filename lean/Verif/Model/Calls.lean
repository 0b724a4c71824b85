import Verif.Model.RangeList

/-!
# Methods that need lists of ranges

Methods of `BibleBook` (`src/bibleref/ref.py`) that return a `BibleRangeList`.
-/

namespace Bibleref

/-- `BibleBook.chap_ranges` (ref.py:235-242). -/
def BibleBook.chapRanges (e : Env) (b : BibleBook) (regroup : Bool) (flags : Option BibleFlag) (fuel : Nat) :
    Except PyErr RangeList := do
  let r ← b.range e flags
  r.split e false true none regroup flags fuel

end Bibleref

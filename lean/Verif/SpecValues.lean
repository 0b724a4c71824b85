import Verif.Spec
import Verif.Model.Values

/-!
# Specification of arguments of any type
-/

namespace Bibleref
namespace Spec

/-- The ranges of a Bible reference: a verse is the range of that verse, a list is its ranges. Anything else is no Bible
reference. -/
def refRanges : PyVal → Option (List BibleRange)
  | .verse v => some [⟨v, v⟩]
  | .range r => some [r]
  | .list l => some l.flatten
  | _ => none

/-- A number or nothing, as a Python value. -/
def number : Option Int → PyVal
  | some n => .int n
  | none => .none

/-- A value that can be given for a book: `None`, a `BibleBook` or a name that is known (`names` finds the book of a name). -/
inductive BookArg (names : List Char → Option BibleBook) : PyVal → Option BibleBook → Prop
  | none : BookArg names .none none
  | book (b : BibleBook) : BookArg names (.book b) (some b)
  | name {s : List Char} {b : BibleBook} (hb : names s = some b) : BookArg names (.str s) (some b)

/-- A value that can be given for a number: `None`, an integer or a string that `int` accepts (`ofStr` is the number it
denotes). -/
inductive NumArg (ofStr : List Char → Option Int) : PyVal → Option Int → Prop
  | none : NumArg ofStr .none none
  | int (n : Int) : NumArg ofStr (.int n) (some n)
  | str {s : List Char} {n : Int} (hn : ofStr s = some n) : NumArg ofStr (.str s) (some n)

/-- The values as ranges, if all of them are. -/
def rangesOf : List PyVal → Option (List BibleRange)
  | [] => some []
  | .range r :: l => (rangesOf l).map (r :: ·)
  | _ :: _ => none

/-- The ranges of an item that can be given to `BibleRangeList`: a range, or a list or tuple of ranges. -/
def itemRanges : PyVal → Option (List BibleRange)
  | .range r => some [r]
  | .seq true l => rangesOf l
  | _ => none

/-- The values `BibleRange(start=x, end=y)` compares: `some true` if `x` comes first or they are equal, `some false` if `y` comes
first, nothing if Python cannot compare them. Numbers are in numerical order, strings in order of code points, books in order of the
Bible, verses in reading order, ranges by their starts and then by their ends. -/
def inOrder (d : BibleData) : PyVal → PyVal → Option Bool
  | .int a, .int b => some (decide (a ≤ b))
  | .str a, .str b => some (decide (¬ b.map Char.toNat < a.map Char.toNat))
  | .book a, .book b => some (decide (d.bookOrder.idxOf a ≤ d.bookOrder.idxOf b))
  | .verse a, .verse b => some (decide (pos d a ≤ pos d b))
  | .range a, .range b => some (decide (pos d a.start < pos d b.start ∨ (pos d a.start = pos d b.start ∧ pos d a.stop ≤ pos d b.stop)))
  | _, _ => none

/-- A verse or range that exists, or a value of another type except an iterable object (comparing two lists is not modelled). -/
def Existing (d : BibleData) : PyVal → Prop
  | .verse v => v ∈ canon d true
  | .range r => RangeOK d true r
  | .seq _ _ => False
  | _ => True

end Spec
end Bibleref

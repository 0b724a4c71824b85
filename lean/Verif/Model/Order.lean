import Verif.Model.Values

/-!
# The four comparisons

`<`, `<=`, `>` and `>=` of books (`src/bibleref/ref.py:244-266`), of verses and ranges (generated by `@dataclass(order=True)`,
ref.py:292, 592), and of values of any type. The other files use `less` and `lessEq`, also for `>` and `>=` with the arguments
swapped; `Verif/Props/Order.lean` shows that this makes no difference.
-/

namespace Bibleref

/-- The comparison operators. -/
inductive Cmp where
  | lt
  | le
  | gt
  | ge
  deriving DecidableEq, Repr

/-- Comparison of integers. -/
def Cmp.ints : Cmp → Int → Int → Bool
  | .lt, a, b => decide (a < b)
  | .le, a, b => decide (a ≤ b)
  | .gt, a, b => decide (a > b)
  | .ge, a, b => decide (a ≥ b)

/-- `BibleBook.__lt__`, `__le__`, `__gt__`, `__ge__` (ref.py:244-266) with a book: the orders are compared, and `None` raises
`TypeError`. -/
def BibleBook.cmp (d : BibleData) (o : Cmp) (a b : BibleBook) : Except PyErr Bool := match a.order d, b.order d with
  | some i, some j => .ok (o.ints i j)
  | _, _ => .error .typeError

/-- The comparisons of verses generated by `@dataclass(order=True)` (ref.py:292): tuples of the attributes are compared. Python
looks for the first place where tuples differ and compares there; if there is none, it compares the lengths. -/
def BibleVerse.cmp (d : BibleData) (o : Cmp) (a b : BibleVerse) : Except PyErr Bool :=
  if a.book ≠ b.book then a.book.cmp d o b.book
  else if a.chap ≠ b.chap then .ok (o.ints a.chap b.chap)
  else if a.verse ≠ b.verse then .ok (o.ints a.verse b.verse)
  else .ok (o.ints 3 3)

/-- The comparisons of ranges generated by `@dataclass(order=True)` (ref.py:592). -/
def BibleRange.cmp (d : BibleData) (o : Cmp) (a b : BibleRange) : Except PyErr Bool :=
  if a.start ≠ b.start then a.start.cmp d o b.start
  else if a.stop ≠ b.stop then a.stop.cmp d o b.stop
  else .ok (o.ints 2 2)

/-- Comparison of strings by code points. -/
def Cmp.strs : Cmp → List Char → List Char → Bool
  | .lt, s, t => PyVal.strLt s t
  | .le, s, t => !PyVal.strLt t s
  | .gt, s, t => PyVal.strLt t s
  | .ge, s, t => !PyVal.strLt s t

/-- Comparison of values of any type: the methods of books (ref.py:245, 251, 257, 263), verses and ranges return `NotImplemented` for
values of other types, and lists of ranges have none, so that Python raises `TypeError`. As in `Verif/Model/Values.lean`, sequences
are not compared. -/
def PyVal.cmp (d : BibleData) (o : Cmp) : PyVal → PyVal → Except PyErr Bool
  | int a, int b => .ok (o.ints a b)
  | str a, str b => .ok (o.strs a b)
  | book a, book b => a.cmp d o b
  | verse a, verse b => a.cmp d o b
  | range a, range b => a.cmp d o b
  | _, _ => .error .typeError

end Bibleref

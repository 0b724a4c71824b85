import Verif.Model.Book

/-!
# Verses

Model of `BibleVerse` (`src/bibleref/ref.py:292-549`) and of the book methods that build verses (ref.py:191-205).
Strings are in `Verif/Model/Str.lean`.
-/

namespace Bibleref

/-- `BibleVerse` (ref.py:292-306): the three attributes. -/
structure BibleVerse where
  book : BibleBook
  chap : Int
  verse : Int
  deriving DecidableEq, Repr

namespace BibleVerse

/-- `__lt__` generated by `@dataclass(order=True)` (ref.py:292): tuples are compared at their first differing
component, so books are only compared when they are different. `__gt__` swaps the arguments. -/
def less (d : BibleData) (a b : BibleVerse) : Except PyErr Bool :=
  if a.book ≠ b.book then a.book.less d b.book
  else if a.chap ≠ b.chap then .ok (decide (a.chap < b.chap))
  else .ok (decide (a.verse < b.verse))

/-- `__le__` generated by `@dataclass(order=True)` (ref.py:292). `__ge__` swaps the arguments. -/
def lessEq (d : BibleData) (a b : BibleVerse) : Except PyErr Bool :=
  if a.book ≠ b.book then a.book.lessEq d b.book
  else if a.chap ≠ b.chap then .ok (decide (a.chap < b.chap))
  else .ok (decide (a.verse ≤ b.verse))

/-- `BibleVerse(book, chap, verse, flags=flags)` (ref.py:342-359) with a `BibleBook` and two integers. -/
def new (e : Env) (b : BibleBook) (chap verse : Int) (flags : Option BibleFlag) : Except PyErr BibleVerse :=
  if chap < b.minChapNum e.data ∨ chap > b.maxChapNum e.data then .error .invalidReference
  else do
    let mn ← b.minVerseNum e chap flags
    let mx ← b.maxVerseNum e.data chap
    if verse < mn ∨ verse > mx then .error .invalidReference
    else .ok ⟨b, chap, verse⟩

/-- `verse_0_to_1` (ref.py:361-367). -/
def verse0to1 (e : Env) (v : BibleVerse) : Except PyErr BibleVerse :=
  if v.verse = 0 then new e v.book v.chap 1 none else .ok v

/-- `verse_1_to_0` (ref.py:369-376). -/
def verse1to0 (e : Env) (v : BibleVerse) : Except PyErr BibleVerse := do
  if v.verse = 1 then
    let mn ← v.book.minVerseNum e v.chap (some .VERSE_0)
    if mn = 0 then new e v.book v.chap 0 (some .VERSE_0) else return v
  else return v

end BibleVerse

/-- `BibleBook.first_verse` (ref.py:191-197). The constructor call there does not pass the flags on. -/
def BibleBook.firstVerse (e : Env) (b : BibleBook) (chap : Option Int) (flags : Option BibleFlag) :
    Except PyErr BibleVerse := do
  let c := chap.getD (b.minChapNum e.data)
  let mn ← b.minVerseNum e c flags
  BibleVerse.new e b c mn none

/-- `BibleBook.last_verse` (ref.py:199-205). -/
def BibleBook.lastVerse (e : Env) (b : BibleBook) (chap : Option Int) : Except PyErr BibleVerse := do
  let c := chap.getD (b.maxChapNum e.data)
  let mx ← b.maxVerseNum e.data c
  BibleVerse.new e b c mx none

namespace BibleVerse

/-- `BibleVerse.first_verse` (ref.py:405-412). -/
def firstVerse (e : Env) (v : BibleVerse) (chap : Option Int) (flags : Option BibleFlag) : Except PyErr BibleVerse :=
  v.book.firstVerse e (some (chap.getD v.chap)) flags

/-- `BibleVerse.last_verse` (ref.py:414-421). -/
def lastVerse (e : Env) (v : BibleVerse) (chap : Option Int) : Except PyErr BibleVerse :=
  v.book.lastVerse e (some (chap.getD v.chap))

/-- `is_first_in_chap` (ref.py:423-427). -/
def isFirstInChap (e : Env) (v : BibleVerse) (chap : Option Int) (flags : Option BibleFlag) : Except PyErr Bool := do
  return decide (v = (← v.firstVerse e chap flags))

/-- `is_last_in_chap` (ref.py:429-433). -/
def isLastInChap (e : Env) (v : BibleVerse) (chap : Option Int) : Except PyErr Bool := do
  return decide (v = (← v.lastVerse e chap))

/-- `is_first_in_book` (ref.py:435-441). -/
def isFirstInBook (e : Env) (v : BibleVerse) (book : Option BibleBook) (flags : Option BibleFlag) :
    Except PyErr Bool := do
  return decide (v = (← (book.getD v.book).firstVerse e none flags))

/-- `is_last_in_book` (ref.py:443-449). -/
def isLastInBook (e : Env) (v : BibleVerse) (book : Option BibleBook) : Except PyErr Bool := do
  return decide (v = (← (book.getD v.book).lastVerse e none))

/-- The `while` loop of `add` and the constructor call after it (ref.py:480-494). `f` is the flags value after
line 477; `mx` is `max_verse_num`. One unit of fuel per iteration. -/
def addLoop (e : Env) (f : BibleFlag) : Nat → BibleBook → Int → Int → Int → Except PyErr (Option BibleVerse)
  | 0, _, _, _, _ => .error .diverges
  | fuel + 1, b, chap, verse, mx =>
    if verse > mx then
      let continueAt (b : BibleBook) (chap : Int) : Except PyErr (Option BibleVerse) := do
        let mn ← b.minVerseNum e chap (some f)
        let mx' ← b.maxVerseNum e.data chap
        addLoop e f fuel b chap (verse - mx + mn - 1) mx'
      if chap + 1 > b.maxChapNum e.data then
        if f.multibook = false then .ok none
        else match b.next e.data with
          | none => .ok none
          | some b' => continueAt b' (b'.minChapNum e.data)
      else continueAt b (chap + 1)
    else do
      let v ← new e b chap verse (some f)
      return some v

/-- The number of chapters of all books, in the book order or not; used as the bound on loop iterations of ref.py:480-494 and
518-531. -/
def _root_.Bibleref.BibleData.totalChaps (d : BibleData) : Nat :=
  (BibleBook.all.map fun b => (b.maxChapNum d).toNat).sum

/-- `flags | BibleFlag.VERSE_0` if the verse is a verse 0 (ref.py:476-477, 514-515). -/
def honourFlags (v : BibleVerse) (f : BibleFlag) : BibleFlag := if v.verse = 0 then f.union .VERSE_0 else f

/-- `add` (ref.py:461-494) with an integer. The fuel is the number of chapters plus one; that it always suffices is part
of what the theorems about `add` say. -/
def add (e : Env) (v : BibleVerse) (n : Int) (flags : Option BibleFlag) : Except PyErr (Option BibleVerse) := do
  let f := v.honourFlags (e.eff flags)
  let mx ← v.book.maxVerseNum e.data v.chap
  addLoop e f (e.data.totalChaps + 1) v.book v.chap (v.verse + n) mx

/-- The `while` loop of `subtract` and the constructor call after it (ref.py:518-531). `mn` is `min_verse_num`; note that
line 530 recomputes it without the flags. -/
def subLoop (e : Env) (f : BibleFlag) : Nat → BibleBook → Int → Int → Int → Except PyErr (Option BibleVerse)
  | 0, _, _, _, _ => .error .diverges
  | fuel + 1, b, chap, verse, mn =>
    if verse < mn then
      let continueAt (b : BibleBook) (chap : Int) : Except PyErr (Option BibleVerse) := do
        let mx ← b.maxVerseNum e.data chap
        let mn' ← b.minVerseNum e chap none
        subLoop e f fuel b chap (verse + mx - mn + 1) mn'
      if chap - 1 < b.minChapNum e.data then
        if f.multibook = false then .ok none
        else match b.prev e.data with
          | none => .ok none
          | some b' => continueAt b' (b'.maxChapNum e.data)
      else continueAt b (chap - 1)
    else do
      let v ← new e b chap verse (some f)
      return some v

/-- `subtract` (ref.py:510-531) with an integer. -/
def sub (e : Env) (v : BibleVerse) (n : Int) (flags : Option BibleFlag) : Except PyErr (Option BibleVerse) := do
  let f := v.honourFlags (e.eff flags)
  let mn ← v.book.minVerseNum e v.chap (some f)
  subLoop e f (e.data.totalChaps + 1) v.book v.chap (v.verse - n) mn

end BibleVerse
end Bibleref

import Verif.Model.Text
import Verif.Model.RangeList

/-!
# Strings of references

Model of `BibleVersePart` (`src/bibleref/ref.py:276-289`) and of the three `str` methods (ref.py:557-589, 1133-1185,
1633-1801). Strings are lists of characters. `__str__` is `str` without
arguments; `__repr__` is in `Verif/Model/Repr.lean`.
-/

namespace Bibleref

/-- The decimal digits of a number, last one first; one unit of fuel per digit. -/
def digitsRev : Nat → Nat → List Char
  | 0, _ => []
  | fuel + 1, n => Char.ofNat (48 + n % 10) :: (if n / 10 = 0 then [] else digitsRev fuel (n / 10))

/-- `str(n)` for a natural number. -/
def natStr (n : Nat) : List Char := (digitsRev (n + 1) n).reverse

/-- `str(n)` for an integer. -/
def intStr (n : Int) : List Char := if n < 0 then '-' :: natStr n.natAbs else natStr n.natAbs

/-- `BibleVersePart` (ref.py:276-289): a `Flag` with three bits. -/
structure Parts where
  book : Bool
  chap : Bool
  verse : Bool
  deriving DecidableEq, Repr

namespace Parts
/-- `BibleVersePart.FULL_REF` (ref.py:286). -/
def full : Parts := ⟨true, true, true⟩
/-- `BibleVersePart.BOOK` (ref.py:283). -/
def BOOK : Parts := ⟨true, false, false⟩
/-- `BibleVersePart.CHAP` (ref.py:284). -/
def CHAP : Parts := ⟨false, true, false⟩
/-- `BibleVersePart.VERSE` (ref.py:285). -/
def VERSE : Parts := ⟨false, false, true⟩
/-- `BibleVersePart.BOOK_CHAP` (ref.py:287). -/
def BOOK_CHAP : Parts := ⟨true, true, false⟩
/-- `BibleVersePart.CHAP_VERSE` (ref.py:289). -/
def CHAP_VERSE : Parts := ⟨false, true, true⟩
end Parts

/-- The options of the `str` methods (ref.py:557-558, 1133, 1633-1634); `short` is `abbrev`. -/
structure StrOpts where
  short : Bool
  altSep : Bool
  nospace : Bool
  preserveGroups : Bool
  forceStartVerses : Bool
  deriving DecidableEq, Repr

/-- The defaults of the options. -/
def StrOpts.default : StrOpts := ⟨false, false, false, true, false⟩

/-- `string.replace(" ", "")`. -/
def removeBlanks (s : List Char) : List Char := s.filter (· ≠ ' ')

/-- The name shown for a book (ref.py:572): its abbreviation or title; when there is no name data they are `None`
(data.py:111-114), which the f-string shows as such. -/
def BibleBook.shownName (d : BibleData) (o : StrOpts) (b : BibleBook) : List Char :=
  match d.nameData b with
  | none => ['N', 'o', 'n', 'e']
  | some n => if o.short then n.abbr else n.title

/-- `BibleVerse.str` (ref.py:557-589). -/
def BibleVerse.str (u : Uni) (d : BibleData) (o : StrOpts) (parts : Parts) (v : BibleVerse) : List Char :=
  let parts := if v.book.chapCount d = 1 then { parts with chap := false } else parts
  let name := if parts.book then v.book.shownName d o else []
  let chap := if parts.chap then intStr v.chap else []
  let verse := if parts.verse then intStr v.verse else []
  let sep := if parts.chap && parts.verse then [if o.altSep then d.verseSepAlt else d.verseSepStd] else []
  let result := name ++ [' '] ++ chap ++ sep ++ verse
  if o.nospace then removeBlanks result else strip u result

/-- The parts shown of the start of a range and whether that leaves us at verse level (ref.py:1144-1156). The flags are not
passed on. -/
def BibleRange.strStart (e : Env) (o : StrOpts) (r : BibleRange) : Except PyErr (Parts × Bool) := do
  let wholeBook ← r.spansStartBook e none
  if wholeBook then return (.BOOK, false)
  else
    let wholeChap ← r.spansStartChap e none
    if wholeChap then
      if o.forceStartVerses then
        let endsChap ← r.spansEndChap e none
        return if endsChap then (.BOOK_CHAP, false) else (.full, true)
      else return (.BOOK_CHAP, false)
    else return (.full, true)

/-- The parts shown of the end of a range with two references (ref.py:1164-1177). -/
def BibleRange.strStop (e : Env) (flags : Option BibleFlag) (atVerse : Bool) (r : BibleRange) : Except PyErr Parts := do
  let atVerse := if r.stop.book ≠ r.start.book then false else atVerse
  let endsBook ← r.spansEndBook e flags
  let parts ← (if endsBook then pure .BOOK
    else do
      let endsChap ← (if atVerse then pure false else r.spansEndChap e flags : Except PyErr Bool)
      pure (if endsChap then .BOOK_CHAP else .full) : Except PyErr Parts)
  if r.start.book = r.stop.book then
    return { parts with book := false, chap := if r.start.chap = r.stop.chap then false else parts.chap }
  else return parts

/-- `BibleRange.str` (ref.py:1133-1185). -/
def BibleRange.str (u : Uni) (e : Env) (o : StrOpts) (flags : Option BibleFlag) (r : BibleRange) :
    Except PyErr (List Char) := do
  let (startParts, atVerse) ← r.strStart e o
  let startStr := r.start.str u e.data o startParts
  let dual ← RangeList.isDual e flags r
  let rest ← (if dual then do
      let stopParts ← r.strStop e flags atVerse
      pure (e.data.rangeSep :: r.stop.str u e.data o stopParts)
    else pure [] : Except PyErr (List Char))
  let result := startStr ++ rest
  return if o.nospace then removeBlanks result else strip u result

namespace RangeList

/-- The variables `BibleRangeList.str` carries from one range to the next (ref.py:1653-1659), apart from the string built so
far. `sep` is `list_sep`. -/
structure StrState where
  book : Option BibleBook
  chap : Option Int
  atVerse : Bool
  first : Bool
  sep : List Char
  forceDual : Bool
  deriving DecidableEq, Repr

/-- The values the loop begins with (ref.py:1653-1659). -/
def StrState.init : StrState := ⟨none, none, false, true, [], false⟩

/-- The loop body up to the assignment of `cur_book` (ref.py:1664-1737): `start_parts` and the new `list_sep`, `cur_chap`,
`at_verse_level` and `force_dual_ref`. -/
def strStart (e : Env) (o : StrOpts) (flags : Option BibleFlag) (s : StrState) (r : BibleRange) :
    Except PyErr (Parts × List Char × Option Int × Bool × Bool) := do
  let major := [e.data.majorListSep]
  let sep := if o.preserveGroups then s.sep else major
  let wholeBook ← r.spansStartBook e flags
  if wholeBook then return (.BOOK, sep, none, false, s.forceDual)
  else
    let wholeChap ← r.spansStartChap e flags
    if wholeChap then
      if s.book = some r.start.book then
        if o.preserveGroups = false ∨ s.sep = major then return (.CHAP, sep, some r.start.chap, false, s.forceDual)
        else if s.atVerse then return (.CHAP_VERSE, sep, some r.start.chap, true, true)
        else
          let endsChap ← r.spansEndChap e flags
          if endsChap then return (.CHAP, sep, some r.start.chap, false, s.forceDual)
          else return (.CHAP_VERSE, sep, some r.start.chap, true, true)
      else return (.BOOK_CHAP, sep, some r.start.chap, false, s.forceDual)
    else if s.book = some r.start.book then
      if s.atVerse = true ∧ s.chap = some r.start.chap then
        let n ← r.chapCount e false
        if n > 1 then return (.CHAP_VERSE, sep, some r.start.chap, true, s.forceDual)
        else return (.VERSE, s.sep, some r.start.chap, true, s.forceDual)
      else return (.CHAP_VERSE, sep, some r.start.chap, true, s.forceDual)
    else return (.full, sep, some r.start.chap, true, s.forceDual)

/-- The part of the loop body for the end of a range with two references (ref.py:1756-1780): `end_parts` and the new
`cur_chap` and `at_verse_level`; `chap` is the current `cur_chap`. `cur_book` is the start's book (ref.py:1739), and becomes
the end's. -/
def strStop (e : Env) (flags : Option BibleFlag) (chap : Option Int) (atVerse : Bool) (r : BibleRange) :
    Except PyErr (Parts × Option Int × Bool) := do
  let atVerse := if r.stop.book ≠ r.start.book then false else atVerse
  let endsBook ← r.spansEndBook e flags
  if endsBook then return (.BOOK, none, false)
  else
    let endsChap ← (if atVerse then pure false else r.spansEndChap e flags : Except PyErr Bool)
    if endsChap then return (if r.start.book = r.stop.book then .CHAP else .BOOK_CHAP, some r.stop.chap, false)
    else return (if r.start.book = r.stop.book then (if chap = some r.stop.chap then .VERSE else .CHAP_VERSE) else .full,
      some r.stop.chap, true)

/-- One iteration of the inner loop (ref.py:1663-1793): the string it adds and the new state. -/
def strStep (u : Uni) (e : Env) (o : StrOpts) (flags : Option BibleFlag) (s : StrState) (r : BibleRange) :
    Except PyErr (List Char × StrState) := do
  let (startParts, sep, chap, atVerse, forceDual) ← strStart e o flags s r
  let (startParts, atVerse) ← (if o.forceStartVerses ∧ startParts.verse = false then do
      let endsChap ← r.spansEndChap e none
      pure (if endsChap then (startParts, atVerse) else ({ startParts with verse := true }, true))
    else pure (startParts, atVerse) : Except PyErr (Parts × Bool))
  let startStr := r.start.str u e.data o startParts
  let dual ← (if forceDual then pure true else isDual e flags r : Except PyErr Bool)
  let (rest, book, chap, atVerse) ← (if dual then do
      let (stopParts, chap, atVerse) ← strStop e flags chap atVerse r
      pure (e.data.rangeSep :: r.stop.str u e.data o stopParts, r.stop.book, chap, atVerse)
    else pure ([], r.start.book, chap, atVerse) : Except PyErr (List Char × BibleBook × Option Int × Bool))
  let rangeStr := (if s.first then [] else sep) ++ [' '] ++ startStr ++ rest
  return (if o.nospace then removeBlanks rangeStr else strip u rangeStr,
    ⟨some book, chap, atVerse, false, [e.data.minorListSep], forceDual⟩)

/-- The inner loop over the ranges of a group (ref.py:1662-1793). -/
def strGroup (u : Uni) (e : Env) (o : StrOpts) (flags : Option BibleFlag) : StrState → List BibleRange →
    Except PyErr (List Char × StrState)
  | s, [] => .ok ([], s)
  | s, r :: l => do
    let (str, s) ← strStep u e o flags s r
    let (rest, s) ← strGroup u e o flags s l
    return (str ++ rest, s)

/-- What happens after each group (ref.py:1796-1798). -/
def strEndGroup (e : Env) (o : StrOpts) (s : StrState) : StrState :=
  if o.preserveGroups then { s with sep := [e.data.majorListSep], atVerse := false } else s

/-- The outer loop over the groups (ref.py:1661-1798). -/
def strGroups (u : Uni) (e : Env) (o : StrOpts) (flags : Option BibleFlag) : StrState → RangeList → Except PyErr (List Char)
  | _, [] => .ok []
  | s, g :: gs => do
    let (str, s) ← strGroup u e o flags s g
    let rest ← strGroups u e o flags (strEndGroup e o s) gs
    return str ++ rest

/-- `BibleRangeList.str` (ref.py:1633-1801). -/
def str (u : Uni) (e : Env) (o : StrOpts) (flags : Option BibleFlag) (l : RangeList) : Except PyErr (List Char) :=
  strGroups u e o flags StrState.init l

end RangeList
end Bibleref

import Verif.Model.Range

/-!
# Lists of ranges

Model of `BibleRangeList` (`src/bibleref/ref.py:1188-1631`) and of the `BibleRange` methods given such a list. A list of
ranges is modelled by its groups, a list of non-empty lists; that the linked list of `src/bibleref/util.py` behaves like one
is the subject of `Verif/Model/Heap.lean`. An operation that changes its list in place is a function from the old to the
new groups. Two operands are different objects here; operands that are the same object are in `Verif/Model/Heap.lean`.

A `BibleVerse` or `BibleRange` argument is turned into a list with one range by the code (e.g. ref.py:1407-1411), so the
methods here take lists. Strings are in `Verif/Model/Str.lean`.
-/

namespace Bibleref

/-- The groups of a grouped list. -/
abbrev Groups (α : Type) := List (List α)

namespace Groups
variable {α : Type}

/-- `append(value, new_group)` (util.py:470-478). -/
def append : Groups α → α → Bool → Groups α
  | [], a, _ => [[a]]
  | [g], a, false => [g ++ [a]]
  | [g], a, true => [g, [a]]
  | g :: g' :: gs, a, new => g :: append (g' :: gs) a new

/-- `append_group(iterable)` (util.py:480-487). -/
def appendGroup (g : Groups α) : List α → Groups α
  | [] => g
  | a :: l => l.foldl (fun g x => append g x false) (append g a true)

/-- `extend(iterable)` (util.py:489-492). -/
def extend (g : Groups α) (l : List α) : Groups α := l.foldl (fun g x => append g x false) g

/-- The groups given by marking each item with whether a group begins at it; the first item always begins one
(util.py:31-36, 245-255). -/
def cut : List (Bool × α) → Groups α
  | [] => []
  | [(_, a)] => [[a]]
  | (_, a) :: (true, b) :: l => [a] :: cut ((true, b) :: l)
  | (_, a) :: (false, b) :: l => match cut ((false, b) :: l) with
    | g :: gs => (a :: g) :: gs
    | [] => [[a]]

/-- `_merge_sublists` (util.py:607-629) with `x` at the front of the first list and `f` merging the rest of it: on ties the
element of the first list is taken. -/
def mergeInto (le : α → α → Except PyErr Bool) (x : α) (xs : List α) (f : List α → Except PyErr (List α)) :
    List α → Except PyErr (List α)
  | [] => .ok (x :: xs)
  | y :: ys => do
    let first ← le x y
    if first then
      let rest ← f (y :: ys)
      return x :: rest
    else
      let rest ← mergeInto le x xs f ys
      return y :: rest

/-- `_merge_sublists` (util.py:607-629). -/
def mergeSublists (le : α → α → Except PyErr Bool) : List α → List α → Except PyErr (List α)
  | [] => fun l => .ok l
  | x :: xs => mergeInto le x xs (mergeSublists le xs)

/-- `_merge_sort` and `_split` (util.py:569-605): the first half is the longer one. One unit of fuel per level of recursion;
the length of the list is enough (`Groups.mergeSort_eq`). -/
def mergeSort (le : α → α → Except PyErr Bool) : Nat → List α → Except PyErr (List α)
  | 0, l => .ok l
  | n + 1, l => if l.length ≤ 1 then .ok l
    else do
      let a ← mergeSort le n (l.take ((l.length + 1) / 2))
      let b ← mergeSort le n (l.drop ((l.length + 1) / 2))
      mergeSublists le a b

end Groups

/-- `BibleRangeList` (ref.py:1188) as its groups. -/
abbrev RangeList := Groups BibleRange

namespace RangeList

/-- `BibleRangeList(other)` for a `BibleRangeList` (ref.py:1240-1243): its groups are appended one by one. -/
def copy (l : RangeList) : RangeList := l.foldl Groups.appendGroup []

/-- `BibleRangeList([r0, r1, ...])` for ranges (ref.py:1245, util.py:188-200). -/
def ofRanges (l : List BibleRange) : RangeList := l.foldl (fun g r => Groups.append g r false) []

/-- `BibleRangeList([[r0, r1, ...], ...])` for a list of lists (ref.py:1245, util.py:196-198). -/
def ofNested (l : List (List BibleRange)) : RangeList := l.foldl Groups.appendGroup []

/-- `verse_0_to_1` (ref.py:1272-1277). What an exception would leave behind is not modelled (nor below). -/
def verse0to1 (e : Env) (l : RangeList) : Except PyErr RangeList := l.mapM fun g => g.mapM fun r => r.verse0to1 e

/-- `verse_1_to_0` (ref.py:1279-1285). -/
def verse1to0 (e : Env) (l : RangeList) : Except PyErr RangeList := l.mapM fun g => g.mapM fun r => r.verse1to0 e

/-- `verse_count` (ref.py:1287-1289). -/
def verseCount (e : Env) (l : RangeList) : Except PyErr Int := do
  let counts ← l.flatten.mapM fun r => r.verseCount e
  return counts.sum

/-- `chap_count` (ref.py:1291-1296). -/
def chapCount (e : Env) (l : RangeList) (whole : Bool) : Except PyErr Int := do
  let counts ← l.flatten.mapM fun r => r.chapCount e whole
  return counts.sum

/-- `book_count` (ref.py:1298-1302). -/
def bookCount (e : Env) (l : RangeList) (whole : Bool) : Except PyErr Int := do
  let counts ← l.flatten.mapM fun r => r.bookCount e whole
  return counts.sum

/-- Python's `min(self)`: the first of the smallest items; `ValueError` when there are none. -/
def minItem (d : BibleData) : List BibleRange → Except PyErr BibleRange
  | [] => .error .valueError
  | a :: l => l.foldlM (fun m r => do
    let smaller ← r.less d m
    return if smaller then r else m) a

/-- Python's `max(self)`: the first of the greatest items. -/
def maxItem (d : BibleData) : List BibleRange → Except PyErr BibleRange
  | [] => .error .valueError
  | a :: l => l.foldlM (fun m r => do
    let greater ← m.less d r
    return if greater then r else m) a

/-- `range` (ref.py:1304-1311). -/
def range (e : Env) (l : RangeList) : Except PyErr BibleRange := do
  let lo ← minItem e.data l.flatten
  let hi ← maxItem e.data l.flatten
  BibleRange.new e (some lo.start) (some hi.stop) (some .ALL)

/-- `chap_range` (ref.py:1313-1324). -/
def chapRange (e : Env) (l : RangeList) (flags : Option BibleFlag) : Except PyErr BibleRange := do
  let f := (e.eff flags).union .MULTIBOOK
  let lo ← minItem e.data l.flatten
  let hi ← maxItem e.data l.flatten
  let s ← lo.start.firstVerse e none (some f)
  let t ← hi.stop.lastVerse e none
  BibleRange.new e (some s) (some t) (some f)

/-- `book_range` (ref.py:1326-1337). -/
def bookRange (e : Env) (l : RangeList) (flags : Option BibleFlag) : Except PyErr BibleRange := do
  let f := (e.eff flags).union .MULTIBOOK
  let lo ← minItem e.data l.flatten
  let hi ← maxItem e.data l.flatten
  let s ← lo.start.book.firstVerse e none (some f)
  let t ← hi.stop.book.lastVerse e none
  BibleRange.new e (some s) (some t) (some f)

/-- The variables `regroup` carries from one range to the next (ref.py:1580-1582). `show_start_verse` is not among them:
it is assigned before it is read in every iteration. -/
structure GroupState where
  book : Option BibleBook
  chap : Option Int
  atVerse : Bool
  deriving DecidableEq, Repr

/-- The part of `regroup`'s loop body up to the assignment of `cur_book` (ref.py:1587-1609): whether a group is made to
begin at this range, and the new `cur_chap`, `at_verse_level` and `show_start_verse`. -/
def regroupStart (e : Env) (flags : Option BibleFlag) (s : GroupState) (r : BibleRange) :
    Except PyErr (Bool × Option Int × Bool × Bool) := do
  let wholeBook ← r.spansStartBook e flags
  if wholeBook then return (true, none, false, false)
  else
    let wholeChap ← r.spansStartChap e flags
    if wholeChap then return (true, some r.start.chap, false, false)
    else if s.book = some r.start.book then
      if s.atVerse = false ∨ s.chap ≠ some r.start.chap then return (true, some r.start.chap, true, true)
      else
        let n ← r.chapCount e false
        return (decide (n > 1), some r.start.chap, true, true)
    else return (true, some r.start.chap, true, true)

/-- The condition of ref.py:1617-1618: the range is not shown as a single reference. -/
def isDual (e : Env) (flags : Option BibleFlag) (r : BibleRange) : Except PyErr Bool := do
  let wholeBook ← r.isWholeBook e flags
  if wholeBook then return false
  else
    let wholeChap ← r.isWholeChap e flags
    if wholeChap then return false
    else return !r.isSingleVerse

/-- The end of `regroup`'s loop body for a range with two references (ref.py:1619-1631). -/
def regroupStop (e : Env) (flags : Option BibleFlag) (atVerse : Bool) (r : BibleRange) : Except PyErr GroupState := do
  let atVerse := if r.stop.book ≠ r.start.book then false else atVerse
  let endsBook ← r.spansEndBook e flags
  if endsBook then return ⟨some r.stop.book, none, false⟩
  else
    let endsChap ← (if atVerse then pure false else r.spansEndChap e flags : Except PyErr Bool)
    return ⟨some r.stop.book, some r.stop.chap, !endsChap⟩

/-- One iteration of `regroup`'s loop (ref.py:1585-1631). -/
def regroupStep (e : Env) (flags : Option BibleFlag) (s : GroupState) (r : BibleRange) :
    Except PyErr (Bool × GroupState) := do
  let (head, chap, atVerse, showStart) ← regroupStart e flags s r
  let atVerse ← (if showStart then pure atVerse else do
    let endsChap ← r.spansEndChap e none
    pure (if endsChap then atVerse else true) : Except PyErr Bool)
  let dual ← isDual e flags r
  if dual then
    let s' ← regroupStop e flags atVerse r
    return (head, s')
  else return (head, ⟨some r.start.book, chap, atVerse⟩)

/-- `regroup`'s loop (ref.py:1585-1631): which ranges a group begins at. -/
def regroupHeads (e : Env) (flags : Option BibleFlag) : GroupState → List BibleRange → Except PyErr (List (Bool × BibleRange))
  | _, [] => .ok []
  | s, r :: l => do
    let (head, s') ← regroupStep e flags s r
    let rest ← regroupHeads e flags s' l
    return (head, r) :: rest

/-- `regroup` (ref.py:1570-1631) of a list with the given items. -/
def regroup (e : Env) (flags : Option BibleFlag) (items : List BibleRange) : Except PyErr RangeList := do
  let marked ← regroupHeads e flags ⟨none, none, false⟩ items
  return Groups.cut marked

/-- `GroupedList.sort` (util.py:563-567) on the items. -/
def sortItems (d : BibleData) (l : List BibleRange) : Except PyErr (List BibleRange) :=
  Groups.mergeSort (fun a b => a.lessEq d b) l.length l

/-- `sort(regroup)` (ref.py:1339-1344). -/
def sort (e : Env) (l : RangeList) (regroupToo : Bool) : Except PyErr RangeList := do
  let items ← sortItems e.data l.flatten
  if regroupToo then regroup e none items else return if items = [] then [] else [items]

/-- The `while` loop of `merge` (ref.py:1353-1362) on the sorted items: `cur` is the current node's range, the list is what
follows it. -/
def mergeLoop (e : Env) (flags : Option BibleFlag) : BibleRange → List BibleRange → Except PyErr (List BibleRange)
  | cur, [] => .ok [cur]
  | cur, next :: rest => do
    let u ← cur.union e next flags
    match u with
    | [x] => mergeLoop e flags x rest
    | _ =>
      let done ← mergeLoop e flags next rest
      return cur :: done

/-- The items after the `while` loop of `merge`. -/
def mergeItems (e : Env) (flags : Option BibleFlag) (l : List BibleRange) : Except PyErr (List BibleRange) := do
  let sorted ← sortItems e.data l
  match sorted with
  | [] => .ok []
  | a :: rest => mergeLoop e flags a rest

/-- `merge` (ref.py:1346-1363). -/
def merge (e : Env) (l : RangeList) (flags : Option BibleFlag) : Except PyErr RangeList := do
  let items ← mergeItems e flags l.flatten
  regroup e none items

/-- `is_disjoint` (ref.py:1365-1373). -/
def isDisjoint (d : BibleData) (l m : RangeList) : Except PyErr Bool :=
  l.flatten.allM fun a => m.flatten.allM fun b => a.isDisjoint d b

/-- `contains` (ref.py:1375-1390). -/
def contains (e : Env) (l m : RangeList) (flags : Option BibleFlag) : Except PyErr Bool := do
  let self ← merge e (copy l) flags
  m.flatten.allM fun b => self.flatten.anyM fun a => a.contains e.data b

/-- `union_update` (ref.py:1402-1416): the updated list. -/
def unionUpdate (e : Env) (l m : RangeList) (flags : Option BibleFlag) : Except PyErr RangeList :=
  merge e (Groups.extend l m.flatten) flags

/-- `union` (ref.py:1392-1400). -/
def union (e : Env) (l m : RangeList) (flags : Option BibleFlag) : Except PyErr RangeList :=
  unionUpdate e (copy l) m flags

/-- The nested loop of `intersection` (ref.py:1438-1442): the ranges appended to the new list. -/
def intersectionItems (e : Env) (flags : Option BibleFlag) (l m : List BibleRange) : Except PyErr (List BibleRange) := do
  let ls ← l.mapM fun a => do
    let l' ← m.mapM fun b => a.intersection e b flags
    return l'.flatMap fun i => i.head?.toList
  return ls.flatten

/-- `intersection` (ref.py:1418-1444). -/
def intersection (e : Env) (l m : RangeList) (flags : Option BibleFlag) : Except PyErr RangeList := do
  let items ← intersectionItems e flags l.flatten m.flatten
  merge e (ofRanges items) flags

/-- `intersection_update` (ref.py:1446-1454): the updated list; `extend` puts the items into one group. -/
def intersectionUpdate (e : Env) (l m : RangeList) (flags : Option BibleFlag) : Except PyErr RangeList := do
  let i ← intersection e l m flags
  return Groups.extend [] i.flatten

/-- The inner `for` loop of `difference_update` (ref.py:1492-1503): `cur` is the range at `self_node`, `rest` what follows
that node. A non-empty difference replaces the node, and its first range is the new current one. -/
def diffInner (e : Env) (flags : Option BibleFlag) : BibleRange → List BibleRange → List BibleRange →
    Except PyErr (BibleRange × List BibleRange)
  | cur, rest, [] => .ok (cur, rest)
  | cur, rest, b :: bs => do
    let diff ← cur.difference e b flags
    match diff with
    | [] => diffInner e flags cur rest bs
    | x :: xs => diffInner e flags x (xs ++ rest) bs

/-- The `while` loop of `difference_update` (ref.py:1490-1504) from the node whose range is the head of the list. One unit
of fuel per node. -/
def diffOuter (e : Env) (flags : Option BibleFlag) (other : List BibleRange) : Nat → List BibleRange →
    Except PyErr (List BibleRange)
  | _, [] => .ok []
  | 0, _ :: _ => .error .diverges
  | fuel + 1, a :: rest => do
    let (cur, rest') ← diffInner e flags a rest other
    let done ← diffOuter e flags other fuel rest'
    return cur :: done

/-- `difference_update` (ref.py:1465-1505): the updated list. The final `merge()` is not given the flags. -/
def differenceUpdate (e : Env) (l m : RangeList) (flags : Option BibleFlag) (fuel : Nat) : Except PyErr RangeList := do
  let items ← diffOuter e flags m.flatten fuel l.flatten
  merge e (ofRanges items) none

/-- `difference` (ref.py:1456-1463). -/
def difference (e : Env) (l m : RangeList) (flags : Option BibleFlag) (fuel : Nat) : Except PyErr RangeList :=
  differenceUpdate e (copy l) m flags fuel

/-- `sym_difference` (ref.py:1507-1523). -/
def symDifference (e : Env) (l m : RangeList) (flags : Option BibleFlag) (fuel : Nat) : Except PyErr RangeList := do
  let u ← union e l m flags
  let i ← intersection e l m flags
  difference e u i flags fuel

/-- `sym_difference_update` (ref.py:1525-1533): the updated list. -/
def symDifferenceUpdate (e : Env) (l m : RangeList) (flags : Option BibleFlag) (fuel : Nat) : Except PyErr RangeList := do
  let s ← symDifference e l m flags fuel
  return Groups.extend [] s.flatten

/-- What the variable `a` refers to after `a |= b` (ref.py:1552-1553): the value returned by `union_update`, which is
`None` (ref.py:1402-1416 has no `return` with a value). -/
def ior (e : Env) (l m : RangeList) : Except PyErr (Option RangeList) := do
  let _ ← unionUpdate e l m none
  return none

/-- What `a` refers to after `a &= b` (ref.py:1555-1556, 1446-1454). -/
def iand (e : Env) (l m : RangeList) : Except PyErr (Option RangeList) := do
  let _ ← intersectionUpdate e l m none
  return none

/-- What `a` refers to after `a -= b` (ref.py:1558-1559, 1465-1505). -/
def isub (e : Env) (l m : RangeList) (fuel : Nat) : Except PyErr (Option RangeList) := do
  let _ ← differenceUpdate e l m none fuel
  return none

/-- What `a` refers to after `a ^= b` (ref.py:1561-1562, 1525-1533). -/
def ixor (e : Env) (l m : RangeList) (fuel : Nat) : Except PyErr (Option RangeList) := do
  let _ ← symDifferenceUpdate e l m none fuel
  return none

end RangeList

namespace BibleRange

/-- `split` (ref.py:873-932) with `regroup` as given; `BibleRangeList(split_result)` puts the pieces into one group. -/
def split (e : Env) (r : BibleRange) (byBook byChap : Bool) (numVerses : Option Int) (regroupToo : Bool)
    (flags : Option BibleFlag) (fuel : Nat) : Except PyErr RangeList := do
  let pieces ← r.splitRaw e byBook byChap numVerses flags fuel
  if regroupToo then RangeList.regroup e none pieces else return RangeList.ofRanges pieces

/-- `is_disjoint` with a list (ref.py:937-938). -/
def isDisjointList (d : BibleData) (r : BibleRange) (l : RangeList) : Except PyErr Bool := RangeList.isDisjoint d l [[r]]

/-- `is_adjacent` with a list (ref.py:955-958). The flags are not passed on. `any` stops at the first adjacent range. -/
def isAdjacentList (e : Env) (r : BibleRange) (l : RangeList) : Except PyErr Bool := do
  let disjoint ← RangeList.isDisjoint e.data l [[r]]
  if disjoint then
    l.flatten.anyM fun x => r.isAdjacent e x none
  else return false

/-- `contains` with a list (ref.py:974-976). -/
def containsList (e : Env) (r : BibleRange) (l : RangeList) : Except PyErr Bool := RangeList.contains e [[r]] l none

/-- `surrounds` with a list (ref.py:990-992). -/
def surroundsList (d : BibleData) (r : BibleRange) (l : RangeList) : Except PyErr Bool :=
  l.flatten.allM fun x => r.surrounds d x

/-- `union` with a list (ref.py:1011-1013). -/
def unionList (e : Env) (r : BibleRange) (l : RangeList) (flags : Option BibleFlag) : Except PyErr RangeList :=
  RangeList.union e l [[r]] flags

/-- `intersection` with a list (ref.py:1036-1038). -/
def intersectionList (e : Env) (r : BibleRange) (l : RangeList) (flags : Option BibleFlag) : Except PyErr RangeList :=
  RangeList.intersection e l [[r]] flags

/-- `difference` with a list (ref.py:1052-1071): there is no branch for lists, so when the list neither is disjoint from the
range nor contains it, `other_ref.start` raises `AttributeError`. -/
def differenceList (e : Env) (r : BibleRange) (l : RangeList) : Except PyErr RangeList := do
  let disjoint ← r.isDisjointList e.data l
  if disjoint then return [[r]]
  else
    let c ← RangeList.contains e l [[r]] none
    if c then return [] else .error .attributeError

/-- `sym_difference` with a list (ref.py:1080-1094): in `self == other_ref` the comparison is left to the list's `__eq__`,
where `len(other_iterable)` raises `TypeError` for a range (util.py:647-653). -/
def symDifferenceList (_r : BibleRange) (_l : RangeList) : Except PyErr RangeList := .error .typeError

end BibleRange
end Bibleref

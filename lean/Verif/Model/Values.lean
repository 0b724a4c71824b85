import Verif.Model.Calls
import Verif.Model.Parser

/-!
# Arguments of any type

Python does not check the types of arguments. This file models what the constructors and the methods that take a Bible
reference (`src/bibleref/ref.py`) do with values of any type; the other files have the same methods for arguments of the
intended types.

Simplifications: a `bool` is its integer. Floats and objects with special methods (`__int__`, `__lt__`, `__radd__`, …) of their
own are left out: `other` is an object that can neither be iterated over, nor compared, nor converted to an integer, and has
none of the attributes used here. `seq` is an object that yields the same items whenever it is iterated over; comparing two of
them with `>` is taken to raise `TypeError`, which is wrong for two lists or two tuples. The attributes of a `range` are verses.
What `int` makes of a string is a parameter.
-/

namespace Bibleref

/-- A Python value. `seq` is an iterable object, with whether it is a list or tuple and the items it yields. -/
inductive PyVal where
  | none
  | int (n : Int)
  | str (s : List Char)
  | book (b : BibleBook)
  | verse (v : BibleVerse)
  | range (r : BibleRange)
  | list (l : RangeList)
  | seq (isList : Bool) (items : List PyVal)
  | other

namespace PyVal

/-- `value is None`. -/
def isNone : PyVal → Bool
  | none => true
  | _ => false

/-- Comparison of strings by code points. -/
def strLt : List Char → List Char → Bool
  | _, [] => false
  | [], _ :: _ => true
  | a :: s, b :: t => if a = b then strLt s t else decide (a.toNat < b.toNat)

/-- `a > b` (used at ref.py:669, 715, 719): `TypeError` for values that are not ordered. -/
def gt (d : BibleData) : PyVal → PyVal → Except PyErr Bool
  | int a, int b => .ok (decide (a > b))
  | str a, str b => .ok (strLt b a)
  | book a, book b => b.less d a
  | verse a, verse b => b.less d a
  | range a, range b => b.less d a
  | _, _ => .error .typeError

/-- `a == b` (used at ref.py:718, after `>` on the same values). Lists and other objects are taken to be different; for them `>`
has raised an exception already. -/
def eq : PyVal → PyVal → Bool
  | none, none => true
  | int a, int b => decide (a = b)
  | str a, str b => decide (a = b)
  | book a, book b => decide (a = b)
  | verse a, verse b => decide (a = b)
  | range a, range b => decide (a = b)
  | _, _ => false

/-- `int(value)`, where `ofStr` is what `int` makes of a string: `TypeError` for what is neither a number nor a string. -/
def toInt (ofStr : List Char → Option Int) : PyVal → Except PyErr Int
  | int n => .ok n
  | str s => match ofStr s with
    | some n => .ok n
    | Option.none => .error .valueError
  | _ => .error .typeError

/-- The items of `for item in value`: `TypeError` for what is not iterable. The iteration over a range (ref.py:1104-1108) yields
verses; only whether there is one matters where it is used, so the first one stands for all. -/
def items (d : BibleData) : PyVal → Except PyErr (List PyVal)
  | str s => .ok (s.map fun c => str [c])
  | range r => do
    let inside ← r.start.lessEq d r.stop
    return if inside then [verse r.start] else []
  | list l => .ok (l.flatten.map range)
  | seq _ l => .ok l
  | _ => .error .typeError

end PyVal

/-- A book argument given as a name or a `BibleBook` (ref.py:345-348). -/
def BibleVerse.bookArg (u : Uni) (d : BibleData) : PyVal → Except PyErr BibleBook
  | .str s => match BibleBook.fromStr u d s with
    | some b => .ok b
    | none => .error .invalidReference
  | .book b => .ok b
  | _ => .error .valueError

/-- `BibleVerse(*args, flags=flags)` (ref.py:308-359). -/
def BibleVerse.ofValues (u : Uni) (e : Env) (args : List PyVal) (flags : Option BibleFlag) : PM BibleVerse :=
  match args with
  | [.str s] => BibleVerse.ofStr u e flags s
  | [.verse v] => pure v
  | [_] => PM.raise .valueError
  | [b, c, v] => do
    let b ← PM.lift (bookArg u e.data b)
    match c, v with
    | .int c, .int v => PM.lift (BibleVerse.new e b c v flags)
    | _, _ => PM.raise .valueError
  | _ => PM.raise .valueError

namespace BibleRange

/-- `BibleRange(start=..., end=..., flags=...)` (ref.py:664-673): the values of the attributes `start` and `end`. The attribute
`book` is read from verses only; other values do not have it. -/
def ofStartEnd (e : Env) (start stop : PyVal) (flags : Option BibleFlag) : Except PyErr (PyVal × PyVal) := do
  let f := e.eff flags
  if f.multibook = false then
    match start, stop with
    | .verse s, .verse t => if s.book ≠ t.book then .error .multibookRange else pure ()
    | _, _ => .error .attributeError
  let swap ← PyVal.gt e.data start stop
  return if swap then (stop, start) else (start, stop)

/-- A book argument (ref.py:698-706): `None`, a name or a `BibleBook`. -/
def bookArg (u : Uni) (d : BibleData) : PyVal → Except PyErr (Option BibleBook)
  | .none => .ok none
  | .str s => match BibleBook.fromStr u d s with
    | some b => .ok (some b)
    | none => .error .invalidReference
  | .book b => .ok (some b)
  | _ => .error .invalidReference

/-- The rearrangement of verse arguments (the tests for `None` of ref.py:718, and 719-720). -/
def swapVerses (d : BibleData) (sv ev : PyVal) : Except PyErr (PyVal × PyVal) := do
  if sv.isNone || ev.isNone then return (sv, ev)
  else
    let swap ← PyVal.gt d sv ev
    return if swap then (ev, sv) else (sv, ev)

/-- The rearrangement of positional arguments (ref.py:709-720) once the start book is known not to be `None`. -/
def swapValues (d : BibleData) (sb : BibleBook) (sc sv : PyVal) (eb : Option BibleBook) (ec ev : PyVal) :
    Except PyErr (BibleBook × PyVal × PyVal × Option BibleBook × PyVal × PyVal) := do
  let earlier ← earlierBook d sb eb
  match earlier with
  | some eb' => return (eb', ec, ev, some sb, sc, sv)
  | none =>
    if (eb = none ∨ eb = some sb) ∧ sc.isNone = false then
      let swap ← (if ec.isNone then pure false else PyVal.gt d sc ec : Except PyErr Bool)
      if swap then return (sb, ec, ev, eb, sc, sv)
      else if ec.isNone || PyVal.eq ec sc then
        let (sv, ev) ← swapVerses d sv ev
        return (sb, sc, sv, eb, ec, ev)
      else return (sb, sc, sv, eb, ec, ev)
    else return (sb, sc, sv, eb, ec, ev)

/-- The start verse, and the end verse if no end is given (ref.py:729-740). -/
def startValue (e : Env) (ofStr : List Char → Option Int) (f : BibleFlag) (sb : BibleBook) (sc sv : PyVal) (haveEnd : Bool) :
    Except PyErr (BibleVerse × BibleVerse) :=
  if sc.isNone then do
    let s ← sb.firstVerse e none (some f)
    let t ← if haveEnd then pure s else sb.lastVerse e none
    pure (s, t)
  else if sv.isNone then do
    let c ← PyVal.toInt ofStr sc
    let s ← sb.firstVerse e (some c) (some f)
    let t ← if haveEnd then pure s else sb.lastVerse e (some c)
    pure (s, t)
  else do
    let c ← PyVal.toInt ofStr sc
    let v ← PyVal.toInt ofStr sv
    let s ← BibleVerse.new e sb c v (some f)
    pure (s, s)

/-- The end verse if an end is given (ref.py:743-756). -/
def stopValue (e : Env) (ofStr : List Char → Option Int) (f : BibleFlag) (sb : BibleBook) (start : BibleVerse)
    (eb : Option BibleBook) (ec ev : PyVal) : Except PyErr BibleVerse :=
  let eb := eb.getD sb
  if ec.isNone && ev.isNone then eb.lastVerse e none
  else if ev.isNone then do
    let c ← PyVal.toInt ofStr ec
    eb.lastVerse e (some c)
  else if ec.isNone then
    if sb ≠ eb then .error .invalidReference
    else do
      let v ← PyVal.toInt ofStr ev
      BibleVerse.new e eb start.chap v (some f)
  else do
    let c ← PyVal.toInt ofStr ec
    let v ← PyVal.toInt ofStr ev
    BibleVerse.new e eb c v (some f)

/-- The range of rearranged positional arguments (ref.py:722, 726-763). -/
def endpoints (e : Env) (ofStr : List Char → Option Int) (f : BibleFlag) (sb : BibleBook) (sc sv : PyVal)
    (eb : Option BibleBook) (ec ev : PyVal) : Except PyErr BibleRange := do
  let haveEnd := eb.isSome || !ec.isNone || !ev.isNone
  if sc.isNone && !sv.isNone then .error .invalidReference
  else
    let (start, stop₀) ← startValue e ofStr f sb sc sv haveEnd
    let stop ← if haveEnd then stopValue e ofStr f sb start eb ec ev else pure stop₀
    if f.multibook = false ∧ start.book ≠ stop.book then .error .multibookRange
    else return ⟨start, stop⟩

/-- `BibleRange(start_book, start_chap, start_verse, end_book, end_chap, end_verse, flags=...)` (ref.py:664, 691-763). -/
def ofPositional (u : Uni) (e : Env) (ofStr : List Char → Option Int) (sb sc sv eb ec ev : PyVal) (flags : Option BibleFlag) :
    Except PyErr BibleRange := do
  let sb ← bookArg u e.data sb
  let eb ← bookArg u e.data eb
  match sb with
  | none => .error .invalidReference
  | some sb =>
    let (sb, sc, sv, eb, ec, ev) ← swapValues e.data sb sc sv eb ec ev
    endpoints e ofStr (e.eff flags) sb sc sv eb ec ev

/-- The values of the attributes of a range. -/
def attrs (r : BibleRange) : PyVal × PyVal := (.verse r.start, .verse r.stop)

/-- `BibleRange(*args, start=..., end=..., flags=...)` (ref.py:621-763): the values of the attributes `start` and `end`. -/
def ofValues (u : Uni) (e : Env) (ofStr : List Char → Option Int) (args : List PyVal) (start stop : PyVal)
    (flags : Option BibleFlag) : PM (PyVal × PyVal) :=
  match args with
  | [] => PM.lift (ofStartEnd e start stop flags)
  | [.str s] => do
    let r ← BibleRange.ofStr u e flags s
    return r.attrs
  | [.range r] => pure r.attrs
  | [.book b] => PM.lift ((ofPositional u e ofStr (.book b) .none .none .none .none .none flags).map attrs)
  | [_] => PM.raise .valueError
  | args =>
    if args.length > 6 then PM.raise .valueError
    else PM.lift ((ofPositional u e ofStr (args.getD 0 .none) (args.getD 1 .none) (args.getD 2 .none) (args.getD 3 .none)
      (args.getD 4 .none) (args.getD 5 .none) flags).map attrs)

end BibleRange

namespace RangeList

/-- `_check_type` (ref.py:1268-1270). -/
def checkType : PyVal → Except PyErr BibleRange
  | .range r => .ok r
  | _ => .error .typeError

/-- `append_group` with a list or tuple (util.py:480-487): every item is checked as it is appended. -/
def appendGroupValues (g : RangeList) (l : List PyVal) : Except PyErr RangeList := do
  let rs ← l.mapM checkType
  return Groups.appendGroup g rs

/-- The loop of `GroupedList.__init__` (util.py:196-200). -/
def addItem (g : RangeList) : PyVal → Except PyErr RangeList
  | .seq true l => appendGroupValues g l
  | x => do
    let r ← checkType x
    return Groups.append g r false

/-- `BibleRangeList(*args, flags=flags)` (ref.py:1194-1247, util.py:188-200). -/
def ofValues (u : Uni) (e : Env) (args : List PyVal) (flags : Option BibleFlag) : PM RangeList :=
  match args with
  | [.str s] => RangeList.ofStr u e flags s
  | [.list l] => pure (RangeList.copy l)
  | [.none] => pure []
  | [x] => PM.lift (do
    let l ← x.items e.data
    l.foldlM addItem [])
  | args => PM.lift (args.foldlM addItem [])

end RangeList

/-! ## Methods that take a Bible reference -/

namespace BibleRange

/-- A verse as a range, or a range (e.g. ref.py:939-942); `ValueError` for anything else. -/
def operand (e : Env) : PyVal → Except PyErr BibleRange
  | .verse v => BibleRange.new e (some v) (some v) (some .ALL)
  | .range r => .ok r
  | _ => .error .valueError

/-- `is_disjoint` (ref.py:934-946). -/
def isDisjointV (e : Env) (r : BibleRange) : PyVal → Except PyErr Bool
  | .list l => r.isDisjointList e.data l
  | x => do
    let o ← operand e x
    r.isDisjoint e.data o

/-- `is_adjacent` (ref.py:948-966). -/
def isAdjacentV (e : Env) (r : BibleRange) (x : PyVal) (flags : Option BibleFlag) : Except PyErr Bool := match x with
  | .list l => r.isAdjacentList e l
  | x => do
    let o ← operand e x
    r.isAdjacent e o flags

/-- `contains` (ref.py:968-984) and the operator `in` (ref.py:1110-1113). -/
def containsV (e : Env) (r : BibleRange) : PyVal → Except PyErr Bool
  | .list l => r.containsList e l
  | x => do
    let o ← operand e x
    r.contains e.data o

/-- `surrounds` (ref.py:986-1000). -/
def surroundsV (e : Env) (r : BibleRange) : PyVal → Except PyErr Bool
  | .list l => r.surroundsList e.data l
  | x => do
    let o ← operand e x
    r.surrounds e.data o

/-- `union` (ref.py:1002-1026) and the operator `|` (ref.py:1115-1116). -/
def unionV (e : Env) (r : BibleRange) (x : PyVal) (flags : Option BibleFlag) : Except PyErr RangeList := match x with
  | .list l => r.unionList e l flags
  | x => do
    let o ← operand e x
    return RangeList.ofRanges (← r.union e o flags)

/-- `intersection` (ref.py:1028-1050) and the operator `&` (ref.py:1118-1119). -/
def intersectionV (e : Env) (r : BibleRange) (x : PyVal) (flags : Option BibleFlag) : Except PyErr RangeList := match x with
  | .list l => r.intersectionList e l flags
  | x => do
    let o ← operand e x
    return RangeList.ofRanges (← r.intersection e o flags)

/-- `difference` (ref.py:1052-1078) and the operator `-` (ref.py:1121-1122). Values that are no Bible references are refused by
`is_disjoint`. -/
def differenceV (e : Env) (r : BibleRange) (x : PyVal) (flags : Option BibleFlag) : Except PyErr RangeList := match x with
  | .list l => r.differenceList e l
  | x => do
    let o ← operand e x
    return RangeList.ofRanges (← r.difference e o flags)

/-- `sym_difference` (ref.py:1080-1102) and the operator `^` (ref.py:1124-1125). Values that are no Bible references are refused
by `union`. -/
def symDifferenceV (e : Env) (r : BibleRange) (x : PyVal) (flags : Option BibleFlag) : Except PyErr RangeList := match x with
  | .list l => r.symDifferenceList l
  | x => do
    let o ← operand e x
    return RangeList.ofRanges (← r.symDifference e o flags)

end BibleRange

namespace RangeList

/-- The argument as a list, for the methods that check it (e.g. ref.py:1407-1413). -/
def operand (e : Env) : PyVal → Except PyErr RangeList
  | .verse v => do
    let r ← BibleRange.new e (some v) (some v) (some .ALL)
    return [[r]]
  | .range r => .ok [[r]]
  | .list l => .ok l
  | _ => .error .valueError

/-- The items of the argument, for the methods that do not check it (ref.py:1368-1373, 1381-1390). -/
def operandItems (e : Env) (x : PyVal) : Except PyErr (List PyVal) := match x with
  | .verse _ | .range _ => do
    let l ← operand e x
    return l.flatten.map .range
  | x => x.items e.data

/-- `is_disjoint` (ref.py:1365-1373). The argument is not checked; its items are looked at one after another for each range of
the list. For an empty list they are not looked at at all. -/
def isDisjointV (e : Env) (l : RangeList) (x : PyVal) : Except PyErr Bool := do
  if l.flatten = [] then return true
  else
    let m ← operandItems e x
    l.flatten.allM fun a => m.allM fun b => a.isDisjointV e b

/-- `contains` (ref.py:1375-1390) and the operator `in` (ref.py:1535-1538). The argument is not checked. -/
def containsV (e : Env) (l : RangeList) (x : PyVal) (flags : Option BibleFlag) : Except PyErr Bool := do
  let self ← merge e (copy l) flags
  let m ← operandItems e x
  m.allM fun b => self.flatten.anyM fun a => a.containsV e b

/-- `union` (ref.py:1392-1400, 1407-1413) and the operator `|` (ref.py:1540-1541). -/
def unionV (e : Env) (l : RangeList) (x : PyVal) (flags : Option BibleFlag) : Except PyErr RangeList := do
  let m ← operand e x
  union e l m flags

/-- `intersection` (ref.py:1418-1444) and the operator `&` (ref.py:1543-1544). -/
def intersectionV (e : Env) (l : RangeList) (x : PyVal) (flags : Option BibleFlag) : Except PyErr RangeList := do
  let m ← operand e x
  intersection e l m flags

/-- `difference` (ref.py:1456-1463, 1471-1477) and the operator `-` (ref.py:1546-1547). -/
def differenceV (e : Env) (l : RangeList) (x : PyVal) (flags : Option BibleFlag) (fuel : Nat) : Except PyErr RangeList := do
  let m ← operand e x
  difference e l m flags fuel

/-- `sym_difference` (ref.py:1507-1523) and the operator `^` (ref.py:1549-1550). -/
def symDifferenceV (e : Env) (l : RangeList) (x : PyVal) (flags : Option BibleFlag) (fuel : Nat) : Except PyErr RangeList := do
  let m ← operand e x
  symDifference e l m flags fuel

/-- `union_update` (ref.py:1402-1416): the list afterwards. The argument is checked before the list is touched. -/
def unionUpdateV (e : Env) (l : RangeList) (x : PyVal) (flags : Option BibleFlag) : Except PyErr RangeList := do
  let m ← operand e x
  unionUpdate e l m flags

end RangeList

namespace BibleVerse

/-- The result of `subtract`: a verse or `None`, or a number. -/
inductive SubResult where
  | verse (v : Option BibleVerse)
  | number (n : Int)

/-- `subtract` (ref.py:496-539) and the operator `-` (ref.py:546-549), which raise `TypeError` for other types. -/
def subtractV (e : Env) (v : BibleVerse) (x : PyVal) (flags : Option BibleFlag) : Except PyErr SubResult := match x with
  | .int n => do
    let w ← v.sub e n flags
    return .verse w
  | .verse w => do
    let n ← v.subVerse e w
    return .number n
  | _ => .error .typeError

/-- The operator `+` (ref.py:541-544): `TypeError` when the right operand is not an integer. -/
def plus (e : Env) (v : BibleVerse) : PyVal → Except PyErr (Option BibleVerse)
  | .int n => v.add e n none
  | _ => .error .typeError

end BibleVerse
end Bibleref

import Verif.Model.Verse

/-!
# Ranges

Model of `BibleRange` (`src/bibleref/ref.py:592-1125`). Strings are in `Verif/Model/Str.lean`; operations with a
`BibleRangeList` argument are in `Verif/Model/RangeList.lean`. A `BibleVerse` argument is turned into the one-verse range
by the code (e.g. ref.py:939-941), so the methods here take a range.
-/

namespace Bibleref

/-- `BibleRange` (ref.py:592-606): the two attributes. -/
structure BibleRange where
  start : BibleVerse
  stop : BibleVerse
  deriving DecidableEq, Repr

namespace BibleRange

/-- `__lt__` generated by `@dataclass(order=True)` (ref.py:592). -/
def less (d : BibleData) (a b : BibleRange) : Except PyErr Bool :=
  if a.start ≠ b.start then a.start.less d b.start
  else if a.stop ≠ b.stop then a.stop.less d b.stop
  else .ok false

/-- `__le__` generated by `@dataclass(order=True)` (ref.py:592). -/
def lessEq (d : BibleData) (a b : BibleRange) : Except PyErr Bool :=
  if a.start ≠ b.start then a.start.lessEq d b.start
  else if a.stop ≠ b.stop then a.stop.lessEq d b.stop
  else .ok true

/-- `BibleRange(start=..., end=..., flags=...)` (ref.py:664-673). The arguments are optional because some callers pass on
a `None` they got from `add` or `subtract`: then `.book` raises `AttributeError`, or with `MULTIBOOK` the comparison
raises `TypeError`. -/
def new (e : Env) (start stop : Option BibleVerse) (flags : Option BibleFlag) : Except PyErr BibleRange :=
  let f := e.eff flags
  match start, stop with
  | some s, some t =>
    if f.multibook = false ∧ s.book ≠ t.book then .error .multibookRange
    else do
      let swap ← t.less e.data s
      return if swap then ⟨t, s⟩ else ⟨s, t⟩
  | _, _ => if f.multibook = false then .error .attributeError else .error .typeError

/-- `end_book` if it is given and comes before the start book (the test of ref.py:710). -/
def earlierBook (d : BibleData) (sb : BibleBook) (eb : Option BibleBook) : Except PyErr (Option BibleBook) := match eb with
  | some eb' => do
    let earlier ← eb'.less d sb
    return if earlier then some eb' else none
  | none => .ok none

/-- The rearrangement of positional arguments when the start is "obviously greater" than the end (ref.py:709-720), given the
outcome of the test of ref.py:710. -/
def swapArgs (earlier : Option BibleBook) (sb : BibleBook) (sc sv : Option Int) (eb : Option BibleBook) (ec ev : Option Int) :
    BibleBook × Option Int × Option Int × Option BibleBook × Option Int × Option Int :=
  let keep := (sb, sc, sv, eb, ec, ev)
  match earlier with
  | some eb' => (eb', ec, ev, some sb, sc, sv)
  | none =>
    if eb = none ∨ eb = some sb then
      match sc with
      | none => keep
      | some sc' =>
        match ec with
        | some ec' =>
          if sc' > ec' then (sb, ec, ev, eb, sc, sv)
          else if ec' = sc' then
            match sv, ev with
            | some sv', some ev' => if sv' > ev' then (sb, sc, ev, eb, ec, sv) else keep
            | _, _ => keep
          else keep
        | none =>
          match sv, ev with
          | some sv', some ev' => if sv' > ev' then (sb, sc, ev, eb, ec, sv) else keep
          | _, _ => keep
    else keep

/-- `BibleRange(start_book, start_chap, start_verse, end_book, end_chap, end_verse, flags=...)` (ref.py:664, 691-763) with
books given as `BibleBook`s and numbers as integers; omitted arguments are `none`. -/
def ofArgs (e : Env) (sb : Option BibleBook) (sc sv : Option Int) (eb : Option BibleBook) (ec ev : Option Int)
    (flags : Option BibleFlag) : Except PyErr BibleRange :=
  let f := e.eff flags
  match sb with
  | none => .error .invalidReference
  | some sb => do
    let earlier ← earlierBook e.data sb eb
    let (sb, sc, sv, eb, ec, ev) := swapArgs earlier sb sc sv eb ec ev
    let haveEnd := eb.isSome || ec.isSome || ev.isSome
    if sc = none ∧ sv ≠ none then .error .invalidReference
    else do
      let (start, stop₀) ← match sc, sv with
        | none, _ => do
          let s ← sb.firstVerse e none (some f)
          let t ← if haveEnd then pure s else sb.lastVerse e none
          pure (s, t)
        | some sc, none => do
          let s ← sb.firstVerse e (some sc) (some f)
          let t ← if haveEnd then pure s else sb.lastVerse e (some sc)
          pure (s, t)
        | some sc, some sv => do
          let s ← BibleVerse.new e sb sc sv (some f)
          pure (s, s)
      let stop ← if haveEnd then
          let eb := eb.getD sb
          match ec, ev with
          | none, none => eb.lastVerse e none
          | some ec, none => eb.lastVerse e (some ec)
          | none, some ev =>
            if sb ≠ eb then .error .invalidReference else BibleVerse.new e eb start.chap ev (some f)
          | some ec, some ev => BibleVerse.new e eb ec ev (some f)
        else pure stop₀
      if f.multibook = false ∧ start.book ≠ stop.book then .error .multibookRange
      else .ok ⟨start, stop⟩

end BibleRange

/-- `BibleBook.range` (ref.py:225-228). -/
def BibleBook.range (e : Env) (b : BibleBook) (flags : Option BibleFlag) : Except PyErr BibleRange := do
  let s ← b.firstVerse e none flags
  let t ← b.lastVerse e none
  BibleRange.new e (some s) (some t) flags

/-- `BibleBook.chap_range` (ref.py:230-233). -/
def BibleBook.chapRange (e : Env) (b : BibleBook) (chap : Int) (flags : Option BibleFlag) : Except PyErr BibleRange := do
  let s ← b.firstVerse e (some chap) flags
  let t ← b.lastVerse e (some chap)
  BibleRange.new e (some s) (some t) flags

/-- `BibleVerse.chap_range` (ref.py:451-454). -/
def BibleVerse.chapRange (e : Env) (v : BibleVerse) (flags : Option BibleFlag) : Except PyErr BibleRange := do
  let s ← v.firstVerse e none flags
  let t ← v.lastVerse e none
  BibleRange.new e (some s) (some t) flags

/-- `BibleVerse.book_range` (ref.py:456-459). -/
def BibleVerse.bookRange (e : Env) (v : BibleVerse) (flags : Option BibleFlag) : Except PyErr BibleRange :=
  v.book.range e flags

namespace BibleRange

/-- `whole_bible` (ref.py:608-618). An empty book order makes `book_order[0]` raise `IndexError`. -/
def wholeBible (e : Env) (flags : Option BibleFlag) : Except PyErr BibleRange := do
  let f := (e.eff flags).union .MULTIBOOK
  match e.data.bookOrder.head?, e.data.bookOrder.getLast? with
  | some b, some b' =>
    let s ← b.firstVerse e none (some f)
    let t ← b'.lastVerse e none
    new e (some s) (some t) (some f)
  | _, _ => .error .indexError

/-- `verse_0_to_1` (ref.py:765-769). -/
def verse0to1 (e : Env) (r : BibleRange) : Except PyErr BibleRange := do
  let s ← r.start.verse0to1 e
  let t ← r.stop.verse0to1 e
  new e (some s) (some t) (some .ALL)

/-- `verse_1_to_0` (ref.py:771-775). -/
def verse1to0 (e : Env) (r : BibleRange) : Except PyErr BibleRange := do
  let s ← r.start.verse1to0 e
  let t ← r.stop.verse1to0 e
  new e (some s) (some t) (some .ALL)

/-- `is_single_verse` (ref.py:777-779). -/
def isSingleVerse (r : BibleRange) : Bool := r.start = r.stop

/-- `is_whole_chap` (ref.py:781-785). `and` is short-circuiting. -/
def isWholeChap (e : Env) (r : BibleRange) (flags : Option BibleFlag) : Except PyErr Bool := do
  if r.start.book ≠ r.stop.book then return false
  else
    let s ← r.start.book.firstVerse e (some r.start.chap) flags
    if r.start ≠ s then return false
    else
      let t ← r.stop.book.lastVerse e (some r.start.chap)
      return decide (r.stop = t)

/-- `spans_start_chap` (ref.py:787-791). -/
def spansStartChap (e : Env) (r : BibleRange) (flags : Option BibleFlag) : Except PyErr Bool := do
  let s ← r.start.book.firstVerse e (some r.start.chap) flags
  if r.start ≠ s then return false
  else
    let t ← r.start.book.lastVerse e (some r.start.chap)
    t.lessEq e.data r.stop

/-- `spans_end_chap` (ref.py:793-797). -/
def spansEndChap (e : Env) (r : BibleRange) (flags : Option BibleFlag) : Except PyErr Bool := do
  let t ← r.stop.book.lastVerse e (some r.stop.chap)
  if r.stop ≠ t then return false
  else
    let s ← r.stop.book.firstVerse e (some r.stop.chap) flags
    r.start.lessEq e.data s

/-- `is_whole_book` (ref.py:799-803). -/
def isWholeBook (e : Env) (r : BibleRange) (flags : Option BibleFlag) : Except PyErr Bool := do
  if r.start.book ≠ r.stop.book then return false
  else
    let s ← r.start.book.firstVerse e none flags
    if r.start ≠ s then return false
    else
      let t ← r.stop.book.lastVerse e none
      return decide (r.stop = t)

/-- `spans_start_book` (ref.py:805-809). -/
def spansStartBook (e : Env) (r : BibleRange) (flags : Option BibleFlag) : Except PyErr Bool := do
  let s ← r.start.book.firstVerse e none flags
  if r.start ≠ s then return false
  else
    let t ← r.start.book.lastVerse e none
    t.lessEq e.data r.stop

/-- `spans_end_book` (ref.py:811-815). -/
def spansEndBook (e : Env) (r : BibleRange) (flags : Option BibleFlag) : Except PyErr Bool := do
  let t ← r.stop.book.lastVerse e none
  if r.stop ≠ t then return false
  else
    let s ← r.stop.book.firstVerse e none flags
    r.start.lessEq e.data s

/-- `chap_range` (ref.py:855-862). -/
def chapRange (e : Env) (r : BibleRange) (flags : Option BibleFlag) : Except PyErr BibleRange := do
  let f := (e.eff flags).union .MULTIBOOK
  let s ← r.start.firstVerse e none (some f)
  let t ← r.stop.lastVerse e none
  new e (some s) (some t) (some f)

/-- `book_range` (ref.py:864-871). -/
def bookRange (e : Env) (r : BibleRange) (flags : Option BibleFlag) : Except PyErr BibleRange := do
  let f := (e.eff flags).union .MULTIBOOK
  let s ← r.start.book.firstVerse e none (some f)
  let t ← r.stop.book.lastVerse e none
  new e (some s) (some t) (some f)

/-- The inner `while` loop of `split` for `by_book` (ref.py:896-902) and, with the other `endOf`, for `by_chap`
(ref.py:908-914): `start` is `range_start`, `target` is `range_to_split.end`. If `add` returned `None`, the next line
would raise `AttributeError`. -/
def chop (e : Env) (f : BibleFlag) (endOf : BibleVerse → Except PyErr BibleVerse) :
    Nat → BibleVerse → BibleVerse → Except PyErr (List BibleRange)
  | 0, _, _ => .error .diverges
  | fuel + 1, start, target => do
    let stop ← endOf start
    let more ← stop.less e.data target
    if more then
      let piece ← new e (some start) (some stop) (some f)
      match ← stop.add e 1 (some f) with
      | none => .error .attributeError
      | some start' =>
        let rest ← chop e f endOf fuel start' target
        return piece :: rest
    else
      let piece ← new e (some start) (some target) (some f)
      return [piece]

/-- The inner `while` loop of `split` for `num_verses` (ref.py:922-926). -/
def chopNum (e : Env) (f : BibleFlag) (n : Int) (target : BibleVerse) :
    Nat → Option BibleVerse → Option BibleVerse → Except PyErr (List BibleRange)
  | 0, _, _ => .error .diverges
  | fuel + 1, start, stop? =>
    let done := do
      let piece ← new e start (some target) (some f)
      return [piece]
    match stop? with
    | none => done
    | some stop => do
      let more ← stop.less e.data target
      if more then
        let piece ← new e start (some stop) (some f)
        let start' ← stop.add e 1 (some f)
        let stop' ← stop.add e n (some f)
        let rest ← chopNum e f n target fuel start' stop'
        return piece :: rest
      else done

/-- The flags `split` works with (ref.py:884-889). -/
def splitFlags (e : Env) (r : BibleRange) (flags : Option BibleFlag) : BibleFlag :=
  let f := e.eff flags
  let f := if r.start.book ≠ r.stop.book then f.union .MULTIBOOK else f
  if r.start.verse = 0 ∨ r.stop.verse = 0 then f.union .VERSE_0 else f

/-- Apply a step that splits one range to every range of a list (the `for range_to_split in split_result` loops). -/
def splitEach (step : BibleRange → Except PyErr (List BibleRange)) (l : List BibleRange) :
    Except PyErr (List BibleRange) := do
  let ls ← l.mapM step
  return ls.flatten

/-- `split` (ref.py:873-927) up to the construction of the resulting list; `fuel` bounds the iterations of each `while`
loop. The final regrouping (ref.py:929-932), which does not change the ranges, is in `Verif/Model/RangeList.lean`. -/
def splitRaw (e : Env) (r : BibleRange) (byBook byChap : Bool) (numVerses : Option Int) (flags : Option BibleFlag)
    (fuel : Nat) : Except PyErr (List BibleRange) := do
  let f := r.splitFlags e flags
  let l := [r]
  let l ← (if byBook then splitEach (fun r => chop e f (fun v => v.book.lastVerse e none) fuel r.start r.stop) l
    else pure l : Except PyErr (List BibleRange))
  let l ← (if byChap then splitEach (fun r => chop e f (fun v => v.lastVerse e none) fuel r.start r.stop) l
    else pure l : Except PyErr (List BibleRange))
  match numVerses with
  | none => return l
  | some n => splitEach (fun r => do
      let stop ← r.start.add e (n - 1) (some f)
      chopNum e f n r.stop fuel (some r.start) stop) l

/-- The number of verses of all books including verse 0s is at most this, whether the books are in the book order or not; used
as the bound on the loop iterations of ref.py:873-927 and 1105-1108. -/
def _root_.Bibleref.BibleData.totalVerses (d : BibleData) : Nat :=
  (BibleBook.all.map fun b => (((d.maxVerses b).getD []).map fun m => (m + 1).toNat).sum).sum

/-- `verse_count` (ref.py:817-824). The `flags` argument is not used by the code. -/
def verseCount (e : Env) (r : BibleRange) : Except PyErr Int := do
  let l ← r.splitRaw e false true none none (e.data.totalVerses + 1)
  return l.foldl (fun count x => count + (x.stop.verse - x.start.verse + 1)) 0

/-- The counting at the end of `chap_count` and `book_count` (ref.py:833-839, 847-853). -/
def countWhole (isWhole : BibleRange → Except PyErr Bool) (whole : Bool) (l : List BibleRange) : Except PyErr Int := do
  let count : Int := l.length
  if whole then
    let first ← match l.head? with
      | some x => isWhole x
      | none => .error .indexError
    let count := if first then count else count - 1
    if l.length > 1 then
      let last ← match l.getLast? with
        | some x => isWhole x
        | none => .error .indexError
      return if last then count else count - 1
    else return count
  else return count

/-- `chap_count` (ref.py:826-839). -/
def chapCount (e : Env) (r : BibleRange) (whole : Bool) : Except PyErr Int := do
  let l ← r.splitRaw e false true none none (e.data.totalVerses + 1)
  countWhole (fun x => x.isWholeChap e none) whole l

/-- `book_count` (ref.py:841-853). -/
def bookCount (e : Env) (r : BibleRange) (whole : Bool) : Except PyErr Int := do
  let l ← r.splitRaw e true false none none (e.data.totalVerses + 1)
  countWhole (fun x => x.isWholeBook e none) whole l

/-- `lower, higher = (self, other_ref) if self < other_ref else (other_ref, self)` (ref.py:943). -/
def inOrder (d : BibleData) (a b : BibleRange) : Except PyErr (BibleRange × BibleRange) := do
  let first ← a.less d b
  return if first then (a, b) else (b, a)

/-- `is_disjoint` with a range (ref.py:942-944). -/
def isDisjoint (d : BibleData) (a b : BibleRange) : Except PyErr Bool := do
  let (lower, higher) ← inOrder d a b
  lower.stop.less d higher.start

/-- `is_adjacent` with a range (ref.py:962-964). -/
def isAdjacent (e : Env) (a b : BibleRange) (flags : Option BibleFlag) : Except PyErr Bool := do
  let (lower, higher) ← inOrder e.data a b
  let next ← lower.stop.add e 1 flags
  return decide (next = some higher.start)

/-- `x and y`, where `y` is only evaluated if `x` is true. -/
def andThen (x y : Except PyErr Bool) : Except PyErr Bool := do
  let b ← x
  if b then y else return false

/-- `contains` with a range (ref.py:980-982). -/
def contains (d : BibleData) (a b : BibleRange) : Except PyErr Bool :=
  andThen (andThen (a.start.lessEq d b.start) (b.start.lessEq d a.stop)) (andThen (a.start.lessEq d b.stop) (b.stop.lessEq d a.stop))

/-- `surrounds` with a range (ref.py:996-998). -/
def surrounds (d : BibleData) (a b : BibleRange) : Except PyErr Bool :=
  andThen (andThen (a.start.less d b.start) (b.start.less d a.stop)) (andThen (a.start.less d b.stop) (b.stop.less d a.stop))

/-- Python's `min` of two verses: the second one only if it is smaller. -/
def minOf (d : BibleData) (a b : BibleVerse) : Except PyErr BibleVerse := do
  let smaller ← b.less d a
  return if smaller then b else a

/-- Python's `max` of two verses: the second one only if it is greater. -/
def maxOf (d : BibleData) (a b : BibleVerse) : Except PyErr BibleVerse := do
  let greater ← a.less d b
  return if greater then b else a

/-- `union` with a range (ref.py:1017-1024); the resulting list is in a single group. -/
def union (e : Env) (a b : BibleRange) (flags : Option BibleFlag) : Except PyErr (List BibleRange) := do
  let disjoint ← a.isDisjoint e.data b
  let apart ← (if disjoint then do
      let adj ← a.isAdjacent e b flags
      pure (!adj)
    else pure false : Except PyErr Bool)
  if apart then
    let (lower, higher) ← inOrder e.data a b
    return [lower, higher]
  else
    let start ← minOf e.data a.start b.start
    let stop ← maxOf e.data a.stop b.stop
    let r ← new e (some start) (some stop) flags
    return [r]

/-- `intersection` with a range (ref.py:1042-1048). -/
def intersection (e : Env) (a b : BibleRange) (flags : Option BibleFlag) : Except PyErr (List BibleRange) := do
  let disjoint ← a.isDisjoint e.data b
  if disjoint then return []
  else
    let start ← maxOf e.data a.start b.start
    let stop ← minOf e.data a.stop b.stop
    let r ← new e (some start) (some stop) flags
    return [r]

/-- `difference` with a range (ref.py:1066-1078). Both partial ranges are constructed, without flags, before it is
decided which of them are wanted. -/
def difference (e : Env) (a b : BibleRange) (flags : Option BibleFlag) : Except PyErr (List BibleRange) := do
  let disjoint ← a.isDisjoint e.data b
  if disjoint then return [a]
  else
    let covered ← b.contains e.data a
    if covered then return []
    else
      let before ← b.start.sub e 1 flags
      let lower ← new e (some a.start) before none
      let after ← b.stop.add e 1 flags
      let upper ← new e after (some a.stop) none
      let around ← a.surrounds e.data b
      if around then return [lower, upper]
      else
        let first ← a.less e.data b
        return if first then [lower] else [upper]

/-- `sym_difference` with a range (ref.py:1093-1102). -/
def symDifference (e : Env) (a b : BibleRange) (flags : Option BibleFlag) : Except PyErr (List BibleRange) := do
  if a = b then return []
  else
    let u ← a.union e b flags
    let i ← a.intersection e b flags
    if u.length > 1 ∨ i.length = 0 then return u
    else match u.head?, i.head? with
      | some u0, some i0 => u0.difference e i0 none
      | _, _ => .error .indexError

/-- The `while` loop of `__iter__` (ref.py:1105-1108). -/
def iterFrom (e : Env) (stop : BibleVerse) : Nat → Option BibleVerse → Except PyErr (List BibleVerse)
  | _, none => .ok []
  | 0, some _ => .error .diverges
  | fuel + 1, some v => do
    let inside ← v.lessEq e.data stop
    if inside then
      let next ← v.add e 1 (some .MULTIBOOK)
      let rest ← iterFrom e stop fuel next
      return v :: rest
    else return []

/-- `list(range)`: what `__iter__` (ref.py:1104-1108) yields. -/
def iter (e : Env) (r : BibleRange) : Except PyErr (List BibleVerse) :=
  iterFrom e r.stop (e.data.totalVerses + 2) (some r.start)

end BibleRange

/-- `BibleVerse.subtract` with a verse (ref.py:532-537). -/
def BibleVerse.subVerse (e : Env) (v w : BibleVerse) : Except PyErr Int := do
  let r ← BibleRange.new e (some v) (some w) none
  let count ← r.verseCount e
  let diff := count - 1
  let negative ← v.less e.data w
  return if negative then diff * (-1) else diff

end Bibleref

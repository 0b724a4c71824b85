import Verif.Tests.Basic
import Verif.Model.Repr

/-!
# The examples of the documentation, run on the model

The sessions of the package's documentation (`src/bibleref/__init__.py`, the same as in README.md), line by line.
-/

namespace Bibleref.Tests

/-- What the interpreter shows of a range. -/
def shows (line : Nat) (e : Env) (r : BibleRange) (s : String) : PM (List Nat) := check line do
  return decide ((← PM.lift (r.repr uni e)) = s.toList)

/-- What the interpreter shows of a verse. -/
def showsVerse (line : Nat) (e : Env) (v : BibleVerse) (s : String) : PM (List Nat) := check line do
  return decide (v.repr uni e.data = s.toList)

/-- What the interpreter shows of a list. -/
def showsList (line : Nat) (e : Env) (l : RangeList) (s : String) : PM (List Nat) := check line do
  return decide ((← PM.lift (l.repr uni e)) = s.toList)

/-- `BibleRangeList(s)` -/
def listOf (e : Env) (s : String) : PM RangeList := RangeList.ofValues uni e [.str s.toList] none

/-- The first session (src/bibleref/__init__.py:23-66). -/
def session1 : PM (List Nat) := do
  let e : Env := env
  let l ← listOf e "Mark 2-3:6; 4; 6:1-6, 30-44, 56; Luke 2"
  let fails ← [
    check 28 do return decide ((← PM.lift (l.str uni e .default none)) = "Mark 2-3:6; 4; 6:1-6, 30-44, 56; Luke 2".toList),
    check 30 do return l.flatten.length == 6,
    do shows 32 e (← item l.flatten 0) "BibleRange(Mark 2-3:6)",
    do shows 34 e (← item l.flatten 1) "BibleRange(Mark 4)",
    do showsVerse 36 e (← item l.flatten 5).start "BibleVerse(Luke 2:1)",
    do showsVerse 38 e (← item l.flatten 5).stop "BibleVerse(Luke 2:52)",
    check 40 do return (← item l.flatten 5).stop.book == .Luke,
    check 42 do return (← item l.flatten 5).stop.chap == 2,
    check 44 do return (← item l.flatten 5).stop.verse == 52,
    check 46 do return l.length == 4,
    check 48 do return (← item l 2).length == 3,
    do shows 50 e (← item (← item l 2) 0) "BibleRange(Mark 6:1-6)",
    do shows 52 e (← item (← item l 2) 1) "BibleRange(Mark 6:30-44)",
    do shows 54 e (← item (← item l 2) 2) "BibleRange(Mark 6:56)",
    check 56 do
      let v ← BibleVerse.ofValues uni e [.str "Mark 2:23".toList] none
      let w ← BibleVerse.ofValues uni e [.str "Mark 3:5".toList] none
      return decide ((← PM.lift (v.plus e (.int 10))) = some w) && w.repr uni e.data == "BibleVerse(Mark 3:5)".toList,
    check 58 do
      let v ← BibleVerse.ofValues uni e [.str "Mark 2:23".toList] none
      let w ← BibleVerse.ofValues uni e [.str "Mark 3:5".toList] none
      return decide ((← PM.lift (w.subVerse e v)) = 10),
    do
      let r ← mkRange e [.str "1 John".toList] .none .none none
      showsList 60 e (← PM.lift (r.split e false true (some 15) true none fuel))
        "BibleRangeList(\"1 John 1, 2:1-15, 16-29, 3:1-15, 16-24, 4:1-15, 16-21, 5:1-15, 16-21\")",
    check 64 do
      let r ← mkRange e [.str "Mark 6:1-3".toList] .none .none none
      return (← PM.lift (r.iter e)).map (BibleVerse.str uni e.data .default .full) ==
        ["Mark 6:1".toList, "Mark 6:2".toList, "Mark 6:3".toList]].mapM id
  return fails.flatten

/-- The first session with multi-book ranges (src/bibleref/__init__.py:67-90). -/
def session1b : PM (List Nat) := do
  let e : Env := { env with flags := .MULTIBOOK }
  let a ← listOf e "Matt 2-4; Mark 6-8; Luke 10-12; John 14-16"
  let b ← listOf e "John 1-3; Luke 9; Matt 3-5; Mark 12"
  let l ← listOf e "Mark 3:2-4:5; 1 John 1:5-3 John 8;"
  let fails ← [
    do shows 69 e (← mkRange e [.str "Matt 10-John 10".toList] .none .none none) "BibleRange(Matthew 10-John 10)",
    do showsList 73 e (← PM.lift (RangeList.union e a b none)) "BibleRangeList(\"Matthew 2-5; Mark 6-8; 12; Luke 9-12; John 1-3; 14-16\")",
    do showsList 75 e (← PM.lift (RangeList.intersection e a b none)) "BibleRangeList(\"Matthew 3-4\")",
    do showsList 77 e (← PM.lift (RangeList.difference e a b none fuel))
          "BibleRangeList(\"Matthew 2; Mark 6-8; Luke 10-12; John 14-16\")",
    do showsList 79 e (← PM.lift (RangeList.symDifference e a b none fuel))
          "BibleRangeList(\"Matthew 2; 5; Mark 6-8; 12; Luke 9-12; John 1-3; 14-16\")",
    check 82 do return (← PM.lift (RangeList.verseCount e l)) == 161,
    check 84 do return (← PM.lift (RangeList.chapCount e l false)) == 9,
    check 86 do return (← PM.lift (RangeList.chapCount e l true)) == 5,
    check 88 do return (← PM.lift (RangeList.bookCount e l false)) == 4,
    check 90 do return (← PM.lift (RangeList.bookCount e l true)) == 1].mapM id
  return fails.flatten

/-- The second session, about groups (src/bibleref/__init__.py:112-143). -/
def session2 : PM (List Nat) := do
  let e : Env := env
  let a ← listOf e "Matt 2:3-4, 5-7, 9-12"
  let b ← listOf e "Matt 2:3-4; 5-7, 9-12"
  let c ← listOf e "Matt 2:3-4, Matt 5-7, 9-12"
  let fails ← [
    check 115 do return a.length == 1,
    do shows 117 e (← item a.flatten 0) "BibleRange(Matthew 2:3-4)",
    do shows 119 e (← item a.flatten 1) "BibleRange(Matthew 2:5-7)",
    do shows 121 e (← item a.flatten 2) "BibleRange(Matthew 2:9-12)",
    check 124 do return b.length == 2,
    do shows 126 e (← item b.flatten 0) "BibleRange(Matthew 2:3-4)",
    do shows 128 e (← item (← item b 0) 0) "BibleRange(Matthew 2:3-4)",
    check 130 do return (← item b 1).length == 2,
    do shows 132 e (← item (← item b 1) 0) "BibleRange(Matthew 5-7)",
    do shows 134 e (← item (← item b 1) 1) "BibleRange(Matthew 9-12)",
    do shows 136 e (← item b.flatten 2) "BibleRange(Matthew 9-12)",
    check 139 do return c.length == 1,
    do shows 141 e (← item c.flatten 1) "BibleRange(Matthew 5-7)",
    do shows 143 e (← item c.flatten 2) "BibleRange(Matthew 9-12)"].mapM id
  return fails.flatten

/-- Everything but line 60, where the list is shown as it is without `regroup`. -/
theorem session1_passes : (session1 PState.init).1 = .ok [60] := by decide +kernel

/-- The list of line 60 is what comes from `split(by_chap=True, num_verses=15, regroup=False)`; by default there are semicolons
between the chapters (ref.py:873-874, 930-931). -/
theorem session1_split :
    ((do
      let r ← mkRange env [.str "1 John".toList] .none .none none
      let l ← PM.lift (r.split env false true (some 15) false none fuel)
      let l' ← PM.lift (r.split env false true (some 15) true none fuel)
      return (← PM.lift (l.repr uni env), ← PM.lift (l'.repr uni env)) : PM (List Char × List Char)) PState.init).1 = .ok
    ("BibleRangeList(\"1 John 1, 2:1-15, 16-29, 3:1-15, 16-24, 4:1-15, 16-21, 5:1-15, 16-21\")".toList,
     "BibleRangeList(\"1 John 1; 2:1-15, 16-29; 3:1-15, 16-24; 4:1-15, 16-21; 5:1-15, 16-21\")".toList) := by decide +kernel

theorem session1b_passes : (session1b PState.init).1 = .ok [] := by decide +kernel

theorem session2_passes : (session2 PState.init).1 = .ok [] := by decide +kernel

end Bibleref.Tests

import Verif.Tests.Basic

/-!
# The tests of test/test_reference.py, run on the model

Written by tools/translate_tests.py, which translates the test methods statement by statement. The numbers are the lines of the
assertions. `BibleBook` as an iterable is the list of its members.
-/

namespace Bibleref.Tests

set_option linter.unusedVariables false

/-- `test_bible_books` (test/test_reference.py:10-13). -/
def test_bible_books : PM (List Nat) := do
  let e : Env := env
  let fails : List Nat := []
  let fails := fails ++ (← check 11 do return decide ((BibleBook.fromStr uni e.data "Gen".toList) = (some (.Gen : BibleBook))))
  let fails := fails ++ (← check 12 do return decide ((BibleBook.fromStr uni e.data "Mt".toList) = (some (.Matt : BibleBook))))
  let fails := fails ++ (← check 13 do return decide ((BibleBook.fromStr uni e.data "Rev".toList) = (some (.Rev : BibleBook))))
  return fails

theorem test_bible_books_passes : (test_bible_books PState.init).1 = .ok [] := by decide +kernel

/-- `test_bible_book_ranges` (test/test_reference.py:15-17). -/
def test_bible_book_ranges : PM (List Nat) := do
  let e : Env := env
  let fails : List Nat := []
  let fails := fails ++ (← check 16 do return decide ((← PM.lift (BibleBook.range e (.Matt : BibleBook) none)) = (← mkRange e [(.str ("Matt 1:1-28:20".toList))] .none .none none)))
  let fails := fails ++ (← check 17 do return decide ((← PM.lift (BibleBook.chapRange e (.Matt : BibleBook) 2 none)) = (← mkRange e [(.str ("Matt 2:1-23".toList))] .none .none none)))
  return fails

theorem test_bible_book_ranges_passes : (test_bible_book_ranges PState.init).1 = .ok [] := by decide +kernel

/-- `test_bible_book_counts` (test/test_reference.py:19-23). -/
def test_bible_book_counts : PM (List Nat) := do
  let e : Env := env
  let fails : List Nat := []
  let fails := fails ++ (← check 20 do return decide (((← PM.lift (BibleBook.verseCount e (.Phil : BibleBook) none)) : Int) = (104)))
  let fails := fails ++ (← forBooks fun book => do
    let fails : List Nat := []
    let fails := fails ++ (← check 22 do return decide (((← PM.lift (BibleBook.verseCount e (book) none)) : Int) = (← PM.lift (BibleRange.verseCount e (← mkRange e [(.str (← title e (book)))] .none .none none)))))
    let fails := fails ++ (← check 23 do return decide (((BibleBook.chapCount e.data (book)) : Int) = (← PM.lift (BibleRange.chapCount e (← mkRange e [(.str (← title e (book)))] .none .none none) false))))
    return fails)
  return fails

theorem test_bible_book_counts_passes : (test_bible_book_counts PState.init).1 = .ok [] := by decide +kernel

/-- `test_bible_book_chap_ranges` (test/test_reference.py:25-30). -/
def test_bible_book_chap_ranges : PM (List Nat) := do
  let e : Env := env
  let fails : List Nat := []
  let fails := fails ++ (← check 26 do return decide ((← PM.lift (BibleBook.chapRanges e (.Mark : BibleBook) true none fuel)) = (← RangeList.ofValues uni e [(.str ("Mark 1; 2; 3; 4; 5; 6; 7; 8; 9; 10; 11; 12; 13; 14; 15; 16".toList))] none)))
  let fails := fails ++ (← check 29 do return decide ((← PM.lift (BibleBook.chapRanges e (.Mark : BibleBook) false none fuel)) = (← RangeList.ofValues uni e [(.str ("Mark 1, 2, 3, 4, 5, 6, 7, 8, 9, 10, 11, 12, 13, 14, 15, 16".toList))] none)))
  return fails

theorem test_bible_book_chap_ranges_passes : (test_bible_book_chap_ranges PState.init).1 = .ok [] := by decide +kernel

/-- `test_bible_verses` (test/test_reference.py:32-51). -/
def test_bible_verses : PM (List Nat) := do
  let e : Env := env
  let fails : List Nat := []
  let fails := fails ++ (← checkRaises 33 .valueError do let _ := (← BibleVerse.ofValues uni e [(.book (.Matt : BibleBook)), (.int (2)), (.int (3)), (.int (4))] none))
  let fails := fails ++ (← checkRaises 34 .valueError do let _ := (← BibleVerse.ofValues uni e [(.book (.Matt : BibleBook)), (.int (2))] none))
  let fails := fails ++ (← checkRaises 35 .valueError do let _ := (← BibleVerse.ofValues uni e [.other] none))
  let fails := fails ++ (← checkRaises 36 .invalidReference do let _ := (← BibleVerse.ofValues uni e [(.str ("Not real book".toList)), (.int (2)), (.int (3))] none))
  let fails := fails ++ (← checkRaises 37 .valueError do let _ := (← BibleVerse.ofValues uni e [(.book (.Matt : BibleBook)), (.seq true []), (.seq true [])] none))
  let fails := fails ++ (← checkRaises 38 .invalidReference do let _ := (← BibleVerse.ofValues uni e [(.book (.Matt : BibleBook)), (.int (50)), (.int (3))] none))
  let fails := fails ++ (← checkRaises 39 .invalidReference do let _ := (← BibleVerse.ofValues uni e [(.book (.Matt : BibleBook)), (.int (2)), (.int (100))] none))
  let fails := fails ++ (← checkRaises 40 .invalidReference do let _ := (← BibleVerse.ofValues uni e [(.str ("Matthew 2:3; 4:5".toList))] none))
  let fails := fails ++ (← checkRaises 41 .invalidReference do let _ := (← BibleVerse.ofValues uni e [(.str ("Matthew 2:3-4".toList))] none))
  let fails := fails ++ (← check 42 do return decide ((← BibleVerse.ofValues uni e [(.str ("Matthew".toList)), (.int (2)), (.int (3))] none) = (← BibleVerse.ofValues uni e [(.book (.Matt : BibleBook)), (.int (2)), (.int (3))] none)))
  let fails := fails ++ (← check 43 do return decide ((← BibleVerse.ofValues uni e [(.str ("Matthew 2:3".toList))] none) = (← BibleVerse.ofValues uni e [(.book (.Matt : BibleBook)), (.int (2)), (.int (3))] none)))
  let fails := fails ++ (← check 45 do return decide ((← BibleVerse.ofValues uni e [(.str ("Ps 3:0".toList))] (some .VERSE_0)) = (← BibleVerse.ofValues uni e [(.book (.Psa : BibleBook)), (.int (3)), (.int (0))] (some .VERSE_0))))
  let fails := fails ++ (← checkRaises 47 .invalidReference do let _ := (← BibleVerse.ofValues uni e [(.book (.Psa : BibleBook)), (.int (3)), (.int (0))] (some .none)))
  let bible_verse := (← BibleVerse.ofValues uni e [(.book (.Mark : BibleBook)), (.int (2)), (.int (3))] none)
  let fails := fails ++ (← check 51 do return decide ((bible_verse) = (← BibleVerse.ofValues uni e [(.verse (bible_verse))] none)))
  return fails

theorem test_bible_verses_passes : (test_bible_verses PState.init).1 = .ok [] := by decide +kernel

/-- `test_bible_verse_comparison` (test/test_reference.py:53-76). -/
def test_bible_verse_comparison : PM (List Nat) := do
  let e : Env := env
  let fails : List Nat := []
  let fails := fails ++ (← check 54 do return (← PM.lift (BibleVerse.cmp e.data .lt (← BibleVerse.ofValues uni e [(.str ("Matt 2:3".toList))] none) (← BibleVerse.ofValues uni e [(.str ("Matt 2:4".toList))] none))))
  let fails := fails ++ (← check 55 do return (← PM.lift (BibleVerse.cmp e.data .le (← BibleVerse.ofValues uni e [(.str ("Matt 2:3".toList))] none) (← BibleVerse.ofValues uni e [(.str ("Matt 2:4".toList))] none))))
  let fails := fails ++ (← check 56 do return !(decide ((← BibleVerse.ofValues uni e [(.str ("Matt 2:3".toList))] none) = (← BibleVerse.ofValues uni e [(.str ("Matt 2:4".toList))] none))))
  let fails := fails ++ (← check 57 do return !(← PM.lift (BibleVerse.cmp e.data .ge (← BibleVerse.ofValues uni e [(.str ("Matt 2:3".toList))] none) (← BibleVerse.ofValues uni e [(.str ("Matt 2:4".toList))] none))))
  let fails := fails ++ (← check 58 do return !(← PM.lift (BibleVerse.cmp e.data .gt (← BibleVerse.ofValues uni e [(.str ("Matt 2:3".toList))] none) (← BibleVerse.ofValues uni e [(.str ("Matt 2:4".toList))] none))))
  let fails := fails ++ (← check 60 do return (← PM.lift (BibleVerse.cmp e.data .lt (← BibleVerse.ofValues uni e [(.str ("Matt 2:3".toList))] none) (← BibleVerse.ofValues uni e [(.str ("Matt 3:1".toList))] none))))
  let fails := fails ++ (← check 61 do return (← PM.lift (BibleVerse.cmp e.data .le (← BibleVerse.ofValues uni e [(.str ("Matt 2:3".toList))] none) (← BibleVerse.ofValues uni e [(.str ("Matt 3:1".toList))] none))))
  let fails := fails ++ (← check 62 do return !(decide ((← BibleVerse.ofValues uni e [(.str ("Matt 2:3".toList))] none) = (← BibleVerse.ofValues uni e [(.str ("Matt 3:1".toList))] none))))
  let fails := fails ++ (← check 63 do return !(← PM.lift (BibleVerse.cmp e.data .ge (← BibleVerse.ofValues uni e [(.str ("Matt 2:3".toList))] none) (← BibleVerse.ofValues uni e [(.str ("Matt 3:1".toList))] none))))
  let fails := fails ++ (← check 64 do return !(← PM.lift (BibleVerse.cmp e.data .gt (← BibleVerse.ofValues uni e [(.str ("Matt 2:3".toList))] none) (← BibleVerse.ofValues uni e [(.str ("Matt 3:1".toList))] none))))
  let fails := fails ++ (← check 66 do return (← PM.lift (BibleVerse.cmp e.data .lt (← BibleVerse.ofValues uni e [(.str ("Matt 2:3".toList))] none) (← BibleVerse.ofValues uni e [(.str ("Mark 1:2".toList))] none))))
  let fails := fails ++ (← check 67 do return (← PM.lift (BibleVerse.cmp e.data .le (← BibleVerse.ofValues uni e [(.str ("Matt 2:3".toList))] none) (← BibleVerse.ofValues uni e [(.str ("Mark 1:2".toList))] none))))
  let fails := fails ++ (← check 68 do return !(decide ((← BibleVerse.ofValues uni e [(.str ("Matt 2:3".toList))] none) = (← BibleVerse.ofValues uni e [(.str ("Mark 1:2".toList))] none))))
  let fails := fails ++ (← check 69 do return !(← PM.lift (BibleVerse.cmp e.data .ge (← BibleVerse.ofValues uni e [(.str ("Matt 2:3".toList))] none) (← BibleVerse.ofValues uni e [(.str ("Mark 1:2".toList))] none))))
  let fails := fails ++ (← check 70 do return !(← PM.lift (BibleVerse.cmp e.data .gt (← BibleVerse.ofValues uni e [(.str ("Matt 2:3".toList))] none) (← BibleVerse.ofValues uni e [(.str ("Mark 1:2".toList))] none))))
  let fails := fails ++ (← check 72 do return !(← PM.lift (BibleVerse.cmp e.data .lt (← BibleVerse.ofValues uni e [(.str ("Matt 2:3".toList))] none) (← BibleVerse.ofValues uni e [(.str ("Matt 2:3".toList))] none))))
  let fails := fails ++ (← check 73 do return (← PM.lift (BibleVerse.cmp e.data .le (← BibleVerse.ofValues uni e [(.str ("Matt 2:3".toList))] none) (← BibleVerse.ofValues uni e [(.str ("Matt 2:3".toList))] none))))
  let fails := fails ++ (← check 74 do return (decide ((← BibleVerse.ofValues uni e [(.str ("Matt 2:3".toList))] none) = (← BibleVerse.ofValues uni e [(.str ("Matt 2:3".toList))] none))))
  let fails := fails ++ (← check 75 do return (← PM.lift (BibleVerse.cmp e.data .ge (← BibleVerse.ofValues uni e [(.str ("Matt 2:3".toList))] none) (← BibleVerse.ofValues uni e [(.str ("Matt 2:3".toList))] none))))
  let fails := fails ++ (← check 76 do return !(← PM.lift (BibleVerse.cmp e.data .gt (← BibleVerse.ofValues uni e [(.str ("Matt 2:3".toList))] none) (← BibleVerse.ofValues uni e [(.str ("Matt 2:3".toList))] none))))
  return fails

theorem test_bible_verse_comparison_passes : (test_bible_verse_comparison PState.init).1 = .ok [] := by decide +kernel

/-- `test_bible_verse_0` (test/test_reference.py:78-85). -/
def test_bible_verse_0 : PM (List Nat) := do
  let e : Env := env
  let fails : List Nat := []
  let verse_with_0 := (← BibleVerse.ofValues uni e [(.book (.Psa : BibleBook)), (.int (3)), (.int (0))] (some .VERSE_0))
  let verse_with_1 := (← BibleVerse.ofValues uni e [(.book (.Psa : BibleBook)), (.int (3)), (.int (1))] none)
  let no_verse_0 := (← BibleVerse.ofValues uni e [(.book (.Matt : BibleBook)), (.int (2)), (.int (3))] none)
  let fails := fails ++ (← check 82 do return decide ((← PM.lift (BibleVerse.verse0to1 e (verse_with_0))) = (verse_with_1)))
  let fails := fails ++ (← check 83 do return decide ((← PM.lift (BibleVerse.verse1to0 e (verse_with_1))) = (verse_with_0)))
  let fails := fails ++ (← check 84 do return decide ((← PM.lift (BibleVerse.verse0to1 e (no_verse_0))) = (no_verse_0)))
  let fails := fails ++ (← check 85 do return decide ((← PM.lift (BibleVerse.verse1to0 e (no_verse_0))) = (no_verse_0)))
  return fails

theorem test_bible_verse_0_passes : (test_bible_verse_0 PState.init).1 = .ok [] := by decide +kernel

/-- `test_bible_verse_bool_tests` (test/test_reference.py:87-96). -/
def test_bible_verse_bool_tests : PM (List Nat) := do
  let e : Env := env
  let fails : List Nat := []
  let fails := fails ++ (← check 88 do return (← PM.lift (BibleVerse.isFirstInChap e (← BibleVerse.ofValues uni e [(.book (.Matt : BibleBook)), (.int (2)), (.int (1))] none) none none)))
  let fails := fails ++ (← check 89 do return !(← PM.lift (BibleVerse.isFirstInChap e (← BibleVerse.ofValues uni e [(.book (.Matt : BibleBook)), (.int (2)), (.int (2))] none) none none)))
  let fails := fails ++ (← check 90 do return (← PM.lift (BibleVerse.isLastInChap e (← BibleVerse.ofValues uni e [(.book (.Matt : BibleBook)), (.int (2)), (.int (23))] none) none)))
  let fails := fails ++ (← check 91 do return !(← PM.lift (BibleVerse.isLastInChap e (← BibleVerse.ofValues uni e [(.book (.Matt : BibleBook)), (.int (2)), (.int (22))] none) none)))
  let fails := fails ++ (← check 93 do return (← PM.lift (BibleVerse.isFirstInBook e (← BibleVerse.ofValues uni e [(.book (.Matt : BibleBook)), (.int (1)), (.int (1))] none) none none)))
  let fails := fails ++ (← check 94 do return !(← PM.lift (BibleVerse.isFirstInBook e (← BibleVerse.ofValues uni e [(.book (.Matt : BibleBook)), (.int (1)), (.int (2))] none) none none)))
  let fails := fails ++ (← check 95 do return (← PM.lift (BibleVerse.isLastInBook e (← BibleVerse.ofValues uni e [(.book (.Matt : BibleBook)), (.int (28)), (.int (20))] none) none)))
  let fails := fails ++ (← check 96 do return !(← PM.lift (BibleVerse.isLastInBook e (← BibleVerse.ofValues uni e [(.book (.Matt : BibleBook)), (.int (28)), (.int (19))] none) none)))
  return fails

theorem test_bible_verse_bool_tests_passes : (test_bible_verse_bool_tests PState.init).1 = .ok [] := by decide +kernel

/-- `test_verse_ranges` (test/test_reference.py:98-101). -/
def test_verse_ranges : PM (List Nat) := do
  let e : Env := env
  let fails : List Nat := []
  let bible_verse := (← BibleVerse.ofValues uni e [(.str ("Matt 3:8".toList))] none)
  let fails := fails ++ (← check 100 do return decide ((← PM.lift (BibleVerse.chapRange e (bible_verse) none)) = (← mkRange e [(.str ("Matt 3".toList))] .none .none none)))
  let fails := fails ++ (← check 101 do return decide ((← PM.lift (BibleVerse.bookRange e (bible_verse) none)) = (← mkRange e [(.str ("Matt".toList))] .none .none none)))
  return fails

theorem test_verse_ranges_passes : (test_verse_ranges PState.init).1 = .ok [] := by decide +kernel

/-- `test_verse_arithmetic` (test/test_reference.py:103-123). -/
def test_verse_arithmetic : PM (List Nat) := do
  let e : Env := env
  let fails : List Nat := []
  let fails := fails ++ (← check 104 do return decide ((← PM.lift (BibleVerse.plus e (← BibleVerse.ofValues uni e [(.str ("Ps 3:8".toList))] none) (.int (1)))) = (some (← BibleVerse.ofValues uni e [(.str ("Ps 4:1".toList))] none))))
  let fails := fails ++ (← check 105 do return decide ((← PM.lift (BibleVerse.sub e (← BibleVerse.ofValues uni e [(.str ("Ps 4:1".toList))] none) 1 none)) = (some (← BibleVerse.ofValues uni e [(.str ("Ps 3:8".toList))] none))))
  let fails := fails ++ (← check 106 do return decide (((← PM.lift (BibleVerse.subVerse e (← BibleVerse.ofValues uni e [(.str ("Ps 3:8".toList))] none) (← BibleVerse.ofValues uni e [(.str ("Ps 4:1".toList))] none))) : Int) = ((-1))))
  let fails := fails ++ (← check 107 do return decide (((← PM.lift (BibleVerse.subVerse e (← BibleVerse.ofValues uni e [(.str ("Ps 4:1".toList))] none) (← BibleVerse.ofValues uni e [(.str ("Ps 3:8".toList))] none))) : Int) = (1)))
  let fails := fails ++ (← check 109 do return decide ((← PM.lift (BibleVerse.add e (← BibleVerse.ofValues uni e [(.str ("Ps 3:8".toList))] none) 1 (some .VERSE_0))) = (some (← BibleVerse.ofValues uni e [(.str ("Ps 4:0".toList))] (some .VERSE_0)))))
  let fails := fails ++ (← check 111 do return decide ((← PM.lift (BibleVerse.sub e (← BibleVerse.ofValues uni e [(.str ("Ps 4:0".toList))] (some .VERSE_0)) 1 none)) = (some (← BibleVerse.ofValues uni e [(.str ("Ps 3:8".toList))] none))))
  let fails := fails ++ (← check 112 do return decide (((← PM.lift (BibleVerse.subVerse e (← BibleVerse.ofValues uni e [(.str ("Ps 3:8".toList))] none) (← BibleVerse.ofValues uni e [(.str ("Ps 4:0".toList))] (some .VERSE_0)))) : Int) = ((-1))))
  let fails := fails ++ (← check 114 do return decide (((← PM.lift (BibleVerse.subVerse e (← BibleVerse.ofValues uni e [(.str ("Ps 4:0".toList))] (some .VERSE_0)) (← BibleVerse.ofValues uni e [(.str ("Ps 3:8".toList))] none))) : Int) = (1)))
  let fails := fails ++ (← check 117 do return decide ((← PM.lift (BibleVerse.plus e (← BibleVerse.ofValues uni e [(.str ("John 1:50".toList))] none) (.int (11)))) = (some (← BibleVerse.ofValues uni e [(.str ("John 2:10".toList))] none))))
  let fails := fails ++ (← check 118 do return decide (((← PM.lift (BibleVerse.subVerse e (← BibleVerse.ofValues uni e [(.str ("John 1:50".toList))] none) (← BibleVerse.ofValues uni e [(.str ("John 2:10".toList))] none))) : Int) = ((-11))))
  let fails := fails ++ (← check 119 do return decide (((← PM.lift (BibleVerse.subVerse e (← BibleVerse.ofValues uni e [(.str ("John 2:10".toList))] none) (← BibleVerse.ofValues uni e [(.str ("John 1:50".toList))] none))) : Int) = (11)))
  let fails := fails ++ (← check 121 do return decide ((← PM.lift (BibleVerse.sub e (← BibleVerse.ofValues uni e [(.str ("John 2:10".toList))] none) 12 none)) = (some (← BibleVerse.ofValues uni e [(.str ("John 1:49".toList))] none))))
  let fails := fails ++ (← check 122 do return decide (((← PM.lift (BibleVerse.subVerse e (← BibleVerse.ofValues uni e [(.str ("John 2:10".toList))] none) (← BibleVerse.ofValues uni e [(.str ("John 1:49".toList))] none))) : Int) = (12)))
  let fails := fails ++ (← check 123 do return decide (((← PM.lift (BibleVerse.subVerse e (← BibleVerse.ofValues uni e [(.str ("John 1:49".toList))] none) (← BibleVerse.ofValues uni e [(.str ("John 2:10".toList))] none))) : Int) = ((-12))))
  return fails

theorem test_verse_arithmetic_passes : (test_verse_arithmetic PState.init).1 = .ok [] := by decide +kernel

/-- `test_bible_verse_to_string` (test/test_reference.py:125-138). -/
def test_bible_verse_to_string : PM (List Nat) := do
  let e : Env := env
  let fails : List Nat := []
  let verse := (← BibleVerse.ofValues uni e [(.book (.Matt : BibleBook)), (.int (5)), (.int (3))] none)
  let fails := fails ++ (← check 127 do return decide ((BibleVerse.str uni e.data ⟨false, false, false, true, false⟩ .full (verse)) = ("Matthew 5:3".toList)))
  let fails := fails ++ (← check 128 do return decide ((BibleVerse.str uni e.data ⟨true, false, false, true, false⟩ .full (verse)) = ("Matt 5:3".toList)))
  let fails := fails ++ (← check 129 do return decide ((BibleVerse.str uni e.data ⟨false, true, false, true, false⟩ .full (verse)) = ("Matthew 5.3".toList)))
  let fails := fails ++ (← check 130 do return decide ((BibleVerse.str uni e.data ⟨false, false, true, true, false⟩ .full (verse)) = ("Matthew5:3".toList)))
  let fails := fails ++ (← check 131 do return decide ((BibleVerse.str uni e.data ⟨false, false, false, true, false⟩ .CHAP_VERSE (verse)) = ("5:3".toList)))
  let verse := (← BibleVerse.ofValues uni e [(.book (.IIIJn : BibleBook)), (.int (1)), (.int (4))] none)
  let fails := fails ++ (← check 134 do return decide ((BibleVerse.str uni e.data ⟨false, false, false, true, false⟩ .full (verse)) = ("3 John 4".toList)))
  let fails := fails ++ (← check 135 do return decide ((BibleVerse.str uni e.data ⟨true, false, false, true, false⟩ .full (verse)) = ("3Jn 4".toList)))
  let fails := fails ++ (← check 136 do return decide ((BibleVerse.str uni e.data ⟨false, false, false, true, false⟩ .full (verse)) = ("3 John 4".toList)))
  let fails := fails ++ (← check 137 do return decide ((BibleVerse.str uni e.data ⟨false, false, true, true, false⟩ .full (verse)) = ("3John4".toList)))
  let fails := fails ++ (← check 138 do return decide ((BibleVerse.str uni e.data ⟨false, false, false, true, false⟩ .CHAP_VERSE (verse)) = ("4".toList)))
  return fails

theorem test_bible_verse_to_string_passes : (test_bible_verse_to_string PState.init).1 = .ok [] := by decide +kernel

end Bibleref.Tests

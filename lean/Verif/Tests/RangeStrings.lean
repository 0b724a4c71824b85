import Verif.Tests.Basic

/-!
# The tests of test/test_reference.py, run on the model

Written by tools/translate_tests.py, which translates the test methods statement by statement. The numbers are the lines of the
assertions. `BibleBook` as an iterable is the list of its members.
-/

namespace Bibleref.Tests

set_option linter.unusedVariables false

/-- `test_bible_range_to_string` (test/test_reference.py:552-606). -/
def test_bible_range_to_string : PM (List Nat) := do
  let e : Env := env
  let fails : List Nat := []
  let rng := (← mkRange e [(.book (.Rom : BibleBook)), (.int (1)), (.int (1)), .none, (.int (16)), (.int (27))] .none .none none)
  let fails := fails ++ (← check 554 do return decide ((← PM.lift (BibleRange.str uni e ⟨false, false, false, true, false⟩ none (rng))) = ("Romans".toList)))
  let rng := (← mkRange e [(.book (.Matt : BibleBook)), (.int (1)), (.int (1)), (.book (.John : BibleBook)), (.int (21)), (.int (25))] .none .none (some .MULTIBOOK))
  let fails := fails ++ (← check 557 do return decide ((← PM.lift (BibleRange.str uni e ⟨false, false, false, true, false⟩ none (rng))) = ("Matthew-John".toList)))
  let rng := (← mkRange e [(.book (.Matt : BibleBook)), (.int (5)), (.int (6)), (.book (.John : BibleBook)), (.int (21)), (.int (25))] .none .none (some .MULTIBOOK))
  let fails := fails ++ (← check 560 do return decide ((← PM.lift (BibleRange.str uni e ⟨false, false, false, true, false⟩ none (rng))) = ("Matthew 5:6-John".toList)))
  let rng := (← mkRange e [(.book (.Matt : BibleBook)), (.int (1)), (.int (1)), (.book (.John : BibleBook)), (.int (10)), (.int (11))] .none .none (some .MULTIBOOK))
  let fails := fails ++ (← check 563 do return decide ((← PM.lift (BibleRange.str uni e ⟨false, false, false, true, false⟩ none (rng))) = ("Matthew-John 10:11".toList)))
  let rng := (← mkRange e [(.book (.Matt : BibleBook)), (.int (5)), (.int (6)), (.book (.John : BibleBook)), (.int (10)), (.int (11))] .none .none (some .MULTIBOOK))
  let fails := fails ++ (← check 566 do return decide ((← PM.lift (BibleRange.str uni e ⟨false, false, false, true, false⟩ none (rng))) = ("Matthew 5:6-John 10:11".toList)))
  let rng := (← mkRange e [(.book (.Exod : BibleBook)), (.int (7)), (.int (1)), .none, (.int (7)), (.int (25))] .none .none none)
  let fails := fails ++ (← check 569 do return decide ((← PM.lift (BibleRange.str uni e ⟨false, false, false, true, false⟩ none (rng))) = ("Exodus 7".toList)))
  let rng := (← mkRange e [(.book (.Exod : BibleBook)), (.int (7)), (.int (1)), .none, (.int (10)), (.int (29))] .none .none none)
  let fails := fails ++ (← check 572 do return decide ((← PM.lift (BibleRange.str uni e ⟨false, false, false, true, false⟩ none (rng))) = ("Exodus 7-10".toList)))
  let rng := (← mkRange e [(.book (.Exod : BibleBook)), (.int (7)), (.int (4)), .none, (.int (10)), (.int (29))] .none .none none)
  let fails := fails ++ (← check 575 do return decide ((← PM.lift (BibleRange.str uni e ⟨false, false, false, true, false⟩ none (rng))) = ("Exodus 7:4-10:29".toList)))
  let rng := (← mkRange e [(.book (.Exod : BibleBook)), (.int (7)), (.int (4)), .none, .none, (.int (8))] .none .none none)
  let fails := fails ++ (← check 578 do return decide ((← PM.lift (BibleRange.str uni e ⟨false, false, false, true, false⟩ none (rng))) = ("Exodus 7:4-8".toList)))
  let rng := (← mkRange e [(.book (.Exod : BibleBook)), (.int (7)), (.int (1)), .none, (.int (10)), (.int (12))] .none .none none)
  let fails := fails ++ (← check 581 do return decide ((← PM.lift (BibleRange.str uni e ⟨false, false, false, true, false⟩ none (rng))) = ("Exodus 7-10:12".toList)))
  let fails := fails ++ (← check 582 do return decide ((← PM.lift (BibleRange.str uni e ⟨false, false, false, true, true⟩ none (rng))) = ("Exodus 7:1-10:12".toList)))
  let rng := (← mkRange e [(.book (.ICor : BibleBook)), (.int (15)), (.int (1)), (.book (.IICor : BibleBook)), (.int (1)), (.int (24))] .none .none (some .MULTIBOOK))
  let fails := fails ++ (← check 585 do return decide ((← PM.lift (BibleRange.str uni e ⟨false, false, false, true, false⟩ none (rng))) = ("1 Corinthians 15-2 Corinthians 1".toList)))
  let rng := (← mkRange e [(.book (.Obad : BibleBook)), (.int (1)), (.int (10)), .none, (.int (1)), (.int (12))] .none .none none)
  let fails := fails ++ (← check 588 do return decide ((← PM.lift (BibleRange.str uni e ⟨false, false, false, true, false⟩ none (rng))) = ("Obadiah 10-12".toList)))
  let rng := (← mkRange e [(.book (.Obad : BibleBook)), (.int (1)), (.int (10)), (.book (.Jonah : BibleBook)), (.int (1)), (.int (4))] .none .none (some .MULTIBOOK))
  let fails := fails ++ (← check 591 do return decide ((← PM.lift (BibleRange.str uni e ⟨false, false, false, true, false⟩ none (rng))) = ("Obadiah 10-Jonah 1:4".toList)))
  let rng := (← mkRange e [(.book (.Obad : BibleBook)), (.int (1)), (.int (10)), (.book (.Jonah : BibleBook)), (.int (2)), (.int (10))] .none .none (some .MULTIBOOK))
  let fails := fails ++ (← check 594 do return decide ((← PM.lift (BibleRange.str uni e ⟨false, false, false, true, false⟩ none (rng))) = ("Obadiah 10-Jonah 2".toList)))
  let rng := (← mkRange e [(.book (.IJn : BibleBook)), (.int (5)), (.int (18)), (.book (.IIIJn : BibleBook)), (.int (1)), (.int (14))] .none .none (some .MULTIBOOK))
  let fails := fails ++ (← check 597 do return decide ((← PM.lift (BibleRange.str uni e ⟨false, false, false, true, false⟩ none (rng))) = ("1 John 5:18-3 John".toList)))
  let rng := (← mkRange e [(.book (.IIJn : BibleBook)), (.int (1)), (.int (1)), (.book (.IIIJn : BibleBook)), (.int (1)), (.int (14))] .none .none (some .MULTIBOOK))
  let fails := fails ++ (← check 600 do return decide ((← PM.lift (BibleRange.str uni e ⟨false, false, false, true, false⟩ none (rng))) = ("2 John-3 John".toList)))
  let rng := (← mkRange e [(.book (.IIJn : BibleBook)), (.int (1)), (.int (6)), (.book (.IIIJn : BibleBook)), (.int (1)), (.int (14))] .none .none (some .MULTIBOOK))
  let fails := fails ++ (← check 603 do return decide ((← PM.lift (BibleRange.str uni e ⟨false, false, false, true, false⟩ none (rng))) = ("2 John 6-3 John".toList)))
  let rng := (← mkRange e [(.book (.IIJn : BibleBook)), (.int (1)), (.int (1)), (.book (.IIIJn : BibleBook)), (.int (1)), (.int (8))] .none .none (some .MULTIBOOK))
  let fails := fails ++ (← check 606 do return decide ((← PM.lift (BibleRange.str uni e ⟨false, false, false, true, false⟩ none (rng))) = ("2 John-3 John 8".toList)))
  return fails

theorem test_bible_range_to_string_passes : (test_bible_range_to_string PState.init).1 = .ok [] := by decide +kernel

/-- `test_bible_range_string_roundtrip` (test/test_reference.py:608-625). -/
def test_bible_range_string_roundtrip : PM (List Nat) := do
  let e : Env := env
  let fails : List Nat := []
  let fails := fails ++ (← forBooks fun book => do
    let fails : List Nat := []
    let orig_range := (← mkRange e [(.book (book)), (.int (1)), (.int (1)), .none, (.int (1)), (.int (2))] .none .none none)
    let string := (← PM.lift (BibleRange.str uni e ⟨true, false, false, true, false⟩ none (orig_range)))
    let final_range := (← mkRange e [(.str (string))] .none .none none)
    let fails := fails ++ (← check 620 do return decide ((orig_range) = (final_range)))
    let string := (← PM.lift (BibleRange.str uni e ⟨false, false, false, true, false⟩ none (orig_range)))
    let final_range := (← mkRange e [(.str (string))] .none .none none)
    let fails := fails ++ (← check 625 do return decide ((orig_range) = (final_range)))
    return fails)
  return fails

theorem test_bible_range_string_roundtrip_passes : (test_bible_range_string_roundtrip PState.init).1 = .ok [] := by decide +kernel

end Bibleref.Tests

import Verif.Tests.Basic

/-!
# The tests of test/test_reference.py, run on the model

Written by tools/translate_tests.py, which translates the test methods statement by statement. The numbers are the lines of the
assertions. `BibleBook` as an iterable is the list of its members.
-/

namespace Bibleref.Tests

set_option linter.unusedVariables false

/-- `test_bible_range_list_to_string` (test/test_reference.py:749-929). -/
def test_bible_range_list_to_string : PM (List Nat) := do
  let e : Env := env
  let fails : List Nat := []
  let fails := fails ++ (← check 751 do return decide ((← PM.lift (RangeList.str uni e ⟨false, false, false, true, false⟩ none (← RangeList.ofValues uni e [(.str ("Matthew 2:3-4:5; Matthew-Mark".toList))] (some .MULTIBOOK)))) = ("Matthew 2:3-4:5; Matthew-Mark".toList)))
  let fails := fails ++ (← check 756 do return decide ((← PM.lift (RangeList.str uni e ⟨false, false, false, false, false⟩ none (← RangeList.ofValues uni e [(.str ("Matthew 2:3, Matthew 3-4:5".toList))] none))) = ("Matthew 2:3; 3-4:5".toList)))
  let fails := fails ++ (← check 759 do return decide ((← PM.lift (RangeList.str uni e ⟨false, false, false, false, true⟩ none (← RangeList.ofValues uni e [(.str ("Matthew 2:3, Matthew 3-4:5".toList))] none))) = ("Matthew 2:3; 3:1-4:5".toList)))
  let fails := fails ++ (← check 762 do return decide ((← PM.lift (RangeList.str uni e ⟨false, false, false, true, false⟩ none (← RangeList.ofValues uni e [(.str ("Matthew 2:3; Matthew 3-4:5".toList))] none))) = ("Matthew 2:3; 3-4:5".toList)))
  let fails := fails ++ (← check 765 do return decide ((← PM.lift (RangeList.str uni e ⟨false, false, false, true, true⟩ none (← RangeList.ofValues uni e [(.str ("Matthew 2:3; Matthew 3-4:5".toList))] none))) = ("Matthew 2:3; 3:1-4:5".toList)))
  let fails := fails ++ (← check 768 do return decide ((← PM.lift (RangeList.str uni e ⟨false, false, false, true, false⟩ none (← RangeList.ofValues uni e [(.str ("Matthew 2:3, Matthew 3-4".toList))] none))) = ("Matthew 2:3, 3:1-4:25".toList)))
  let fails := fails ++ (← check 772 do return decide ((← PM.lift (RangeList.str uni e ⟨false, false, false, false, false⟩ none (← RangeList.ofValues uni e [(.str ("Matthew 2, Matthew 3-4:5".toList))] none))) = ("Matthew 2; 3-4:5".toList)))
  let fails := fails ++ (← check 775 do return decide ((← PM.lift (RangeList.str uni e ⟨false, false, false, false, true⟩ none (← RangeList.ofValues uni e [(.str ("Matthew 2, Matthew 3-4:5".toList))] none))) = ("Matthew 2; 3:1-4:5".toList)))
  let fails := fails ++ (← check 778 do return decide ((← PM.lift (RangeList.str uni e ⟨false, false, false, false, false⟩ none (← RangeList.ofValues uni e [(.str ("Matthew 2; Matthew 3-4:5".toList))] none))) = ("Matthew 2; 3-4:5".toList)))
  let fails := fails ++ (← check 781 do return decide ((← PM.lift (RangeList.str uni e ⟨false, false, false, false, true⟩ none (← RangeList.ofValues uni e [(.str ("Matthew 2; Matthew 3-4:5".toList))] none))) = ("Matthew 2; 3:1-4:5".toList)))
  let fails := fails ++ (← check 784 do return decide ((← PM.lift (RangeList.str uni e ⟨false, false, false, true, false⟩ none (← RangeList.ofValues uni e [(.str ("Matthew 2, Matthew 3:1-4:25".toList))] none))) = ("Matthew 2, 3-4".toList)))
  let fails := fails ++ (← check 787 do return decide ((← PM.lift (RangeList.str uni e ⟨false, false, false, true, true⟩ none (← RangeList.ofValues uni e [(.str ("Matthew 2, Matthew 3:1-4:25".toList))] none))) = ("Matthew 2, 3-4".toList)))
  let fails := fails ++ (← check 790 do return decide ((← PM.lift (RangeList.str uni e ⟨false, false, false, true, false⟩ none (← RangeList.ofValues uni e [(.str ("Matthew 2, Matthew 3:1-4:5".toList))] none))) = ("Matthew 2, 3:1-4:5".toList)))
  let fails := fails ++ (← check 794 do return decide ((← PM.lift (RangeList.str uni e ⟨false, false, false, false, false⟩ none (← RangeList.ofValues uni e [(.str ("Matthew 2:3, Mark 3-4:5".toList))] none))) = ("Matthew 2:3; Mark 3-4:5".toList)))
  let fails := fails ++ (← check 797 do return decide ((← PM.lift (RangeList.str uni e ⟨false, false, false, false, true⟩ none (← RangeList.ofValues uni e [(.str ("Matthew 2:3, Mark 3-4:5".toList))] none))) = ("Matthew 2:3; Mark 3:1-4:5".toList)))
  let fails := fails ++ (← check 800 do return decide ((← PM.lift (RangeList.str uni e ⟨false, false, false, true, false⟩ none (← RangeList.ofValues uni e [(.str ("Matthew 2:3, Mark 3-4:5".toList))] none))) = ("Matthew 2:3, Mark 3-4:5".toList)))
  let fails := fails ++ (← check 803 do return decide ((← PM.lift (RangeList.str uni e ⟨false, false, false, true, true⟩ none (← RangeList.ofValues uni e [(.str ("Matthew 2:3, Mark 3-4:5".toList))] none))) = ("Matthew 2:3, Mark 3:1-4:5".toList)))
  let fails := fails ++ (← check 808 do return decide ((← PM.lift (RangeList.str uni e ⟨false, false, false, true, false⟩ none (← RangeList.ofValues uni e [(.str ("Matthew 2:3, Matthew 2:6-10".toList))] none))) = ("Matthew 2:3, 6-10".toList)))
  let fails := fails ++ (← check 811 do return decide ((← PM.lift (RangeList.str uni e ⟨false, false, false, true, false⟩ none (← RangeList.ofValues uni e [(.str ("Matthew 2:3, Matthew 2:6-5:7".toList))] none))) = ("Matthew 2:3, 2:6-5:7".toList)))
  let fails := fails ++ (← check 814 do return decide ((← PM.lift (RangeList.str uni e ⟨false, false, false, false, false⟩ none (← RangeList.ofValues uni e [(.str ("Matthew 2:3, Matthew 2:6-5:7".toList))] none))) = ("Matthew 2:3; 2:6-5:7".toList)))
  let fails := fails ++ (← check 817 do return decide ((← PM.lift (RangeList.str uni e ⟨false, false, false, true, false⟩ none (← RangeList.ofValues uni e [(.str ("Matthew 2:3, Matthew 2:6-John 5:7".toList))] (some .MULTIBOOK)))) = ("Matthew 2:3, 2:6-John 5:7".toList)))
  let fails := fails ++ (← check 820 do return decide ((← PM.lift (RangeList.str uni e ⟨false, false, false, false, false⟩ none (← RangeList.ofValues uni e [(.str ("Matthew 2, Matthew 2:6-5:7".toList))] none))) = ("Matthew 2; 2:6-5:7".toList)))
  let fails := fails ++ (← check 823 do return decide ((← PM.lift (RangeList.str uni e ⟨false, false, false, true, false⟩ none (← RangeList.ofValues uni e [(.str ("Matthew 2, Matthew 2:6-5:7".toList))] none))) = ("Matthew 2, 2:6-5:7".toList)))
  let fails := fails ++ (← check 826 do return decide ((← PM.lift (RangeList.str uni e ⟨false, false, false, false, false⟩ none (← RangeList.ofValues uni e [(.str ("Matthew 2:3, Matthew 3:6-5:7".toList))] none))) = ("Matthew 2:3; 3:6-5:7".toList)))
  let fails := fails ++ (← check 829 do return decide ((← PM.lift (RangeList.str uni e ⟨false, false, false, true, false⟩ none (← RangeList.ofValues uni e [(.str ("Matthew 2:3, Matthew 3:6-5:7".toList))] none))) = ("Matthew 2:3, 3:6-5:7".toList)))
  let fails := fails ++ (← check 833 do return decide ((← PM.lift (RangeList.str uni e ⟨false, false, false, false, false⟩ none (← RangeList.ofValues uni e [(.str ("Matthew 2:3, Mark 2:6-5:7".toList))] none))) = ("Matthew 2:3; Mark 2:6-5:7".toList)))
  let fails := fails ++ (← check 836 do return decide ((← PM.lift (RangeList.str uni e ⟨false, false, false, true, false⟩ none (← RangeList.ofValues uni e [(.str ("Matthew 2:3, Mark 2:6-5:7".toList))] none))) = ("Matthew 2:3, Mark 2:6-5:7".toList)))
  let fails := fails ++ (← check 841 do return decide ((← PM.lift (RangeList.str uni e ⟨false, false, false, true, false⟩ none (← RangeList.ofValues uni e [(.str ("Matthew 2:3-4:5; Matthew".toList))] none))) = ("Matthew 2:3-4:5; Matthew".toList)))
  let fails := fails ++ (← check 845 do return decide ((← PM.lift (RangeList.str uni e ⟨false, false, false, true, false⟩ none (← RangeList.ofValues uni e [(.str ("Matthew 2:3-4:5; Matthew 7".toList))] none))) = ("Matthew 2:3-4:5; 7".toList)))
  let fails := fails ++ (← check 848 do return decide ((← PM.lift (RangeList.str uni e ⟨false, false, false, false, false⟩ none (← RangeList.ofValues uni e [(.str ("Matthew 2:3-4:5, Matthew 7".toList))] none))) = ("Matthew 2:3-4:5; 7".toList)))
  let fails := fails ++ (← check 851 do return decide ((← PM.lift (RangeList.str uni e ⟨false, false, false, true, false⟩ none (← RangeList.ofValues uni e [(.str ("Matthew 2:3-4:5, Matthew 7".toList))] none))) = ("Matthew 2:3-4:5, 7:1-29".toList)))
  let fails := fails ++ (← check 855 do return decide ((← PM.lift (RangeList.str uni e ⟨false, false, false, true, false⟩ none (← RangeList.ofValues uni e [(.str ("Matthew 2:3-4:5; Matthew 10:3".toList))] none))) = ("Matthew 2:3-4:5; 10:3".toList)))
  let fails := fails ++ (← check 858 do return decide ((← PM.lift (RangeList.str uni e ⟨false, false, false, false, false⟩ none (← RangeList.ofValues uni e [(.str ("Matthew 2:3-4:5, Matthew 10:3".toList))] none))) = ("Matthew 2:3-4:5; 10:3".toList)))
  let fails := fails ++ (← check 861 do return decide ((← PM.lift (RangeList.str uni e ⟨false, false, false, true, false⟩ none (← RangeList.ofValues uni e [(.str ("Matthew 2:3-4:5, Matthew 10:3".toList))] none))) = ("Matthew 2:3-4:5, 10:3".toList)))
  let fails := fails ++ (← check 866 do return decide ((← PM.lift (RangeList.str uni e ⟨false, false, false, true, false⟩ none (← RangeList.ofValues uni e [(.str ("Matthew 2:3-4:5; 6:7-Mark".toList))] (some .MULTIBOOK)))) = ("Matthew 2:3-4:5; 6:7-Mark".toList)))
  let fails := fails ++ (← check 870 do return decide ((← PM.lift (RangeList.str uni e ⟨false, false, false, true, false⟩ none (← RangeList.ofValues uni e [(.str ("Matthew 2:3-4:5; Matthew 6-9".toList))] none))) = ("Matthew 2:3-4:5; 6-9".toList)))
  let fails := fails ++ (← check 873 do return decide ((← PM.lift (RangeList.str uni e ⟨false, false, false, true, false⟩ none (← RangeList.ofValues uni e [(.str ("Matthew 2:3-4:5; Matthew 6-Mark 3".toList))] (some .MULTIBOOK)))) = ("Matthew 2:3-4:5; 6-Mark 3".toList)))
  let fails := fails ++ (← check 877 do return decide ((← PM.lift (RangeList.str uni e ⟨false, false, false, true, false⟩ none (← RangeList.ofValues uni e [(.str ("Matthew 2:3-4:5; Matthew 6:2-9:38".toList))] none))) = ("Matthew 2:3-4:5; 6:2-9:38".toList)))
  let fails := fails ++ (← check 880 do return decide ((← PM.lift (RangeList.str uni e ⟨false, false, false, true, false⟩ none (← RangeList.ofValues uni e [(.str ("Matthew 2:3-4:5; Matthew 6:4-Mark 3".toList))] (some .MULTIBOOK)))) = ("Matthew 2:3-4:5; 6:4-Mark 3".toList)))
  let fails := fails ++ (← check 884 do return decide ((← PM.lift (RangeList.str uni e ⟨false, false, false, true, false⟩ none (← RangeList.ofValues uni e [(.str ("Matthew 2:3-4:5; Matthew 6:2-9:5".toList))] none))) = ("Matthew 2:3-4:5; 6:2-9:5".toList)))
  let fails := fails ++ (← check 887 do return decide ((← PM.lift (RangeList.str uni e ⟨false, false, false, true, false⟩ none (← RangeList.ofValues uni e [(.str ("Matthew 2:3-4:5; Matthew 6:4-Mark 3:8".toList))] (some .MULTIBOOK)))) = ("Matthew 2:3-4:5; 6:4-Mark 3:8".toList)))
  let fails := fails ++ (← check 892 do return decide ((← PM.lift (RangeList.str uni e ⟨false, false, false, true, false⟩ none (← RangeList.ofValues uni e [(.str ("Matthew 2:3-4:5, 7, 9; 11-12".toList))] none))) = ("Matthew 2:3-4:5, 7, 9; 11-12".toList)))
  let fails := fails ++ (← check 897 do return decide ((← PM.lift (RangeList.str uni e ⟨false, false, false, true, false⟩ none (← RangeList.ofValues uni e [(.str ("Matthew 2:3-4:5, 7; Matthew 4:9, Matthew 11-12".toList))] none))) = ("Matthew 2:3-4:5, 7; 4:9, 11:1-12:50".toList)))
  let fails := fails ++ (← check 900 do return decide ((← PM.lift (RangeList.str uni e ⟨false, false, false, false, false⟩ none (← RangeList.ofValues uni e [(.str ("Matthew 2:3-4:5, 7; Matthew 4:9, Matthew 11-12".toList))] none))) = ("Matthew 2:3-4:5, 7, 9; 11-12".toList)))
  let fails := fails ++ (← check 906 do return decide ((← PM.lift (RangeList.str uni e ⟨false, false, false, true, false⟩ none (← RangeList.ofValues uni e [(.str (("Matthew; Mark 2; Jude 5; 8; Obadiah 2-3; John 3:16-18; 10-14:2; ".toList) ++ ("Romans 1:10-22; 2; 3:20-22, 24, 4:2-5:2, 10".toList)))] none))) = (("Matthew; Mark 2; Jude 5; 8; Obadiah 2-3; John 3:16-18; 10-14:2; ".toList) ++ ("Romans 1:10-22; 2; 3:20-22, 24, 4:2-5:2, 10".toList))))
  let fails := fails ++ (← check 912 do return decide ((← PM.lift (RangeList.str uni e ⟨true, false, false, true, false⟩ none (← RangeList.ofValues uni e [(.str (("Matthew; Mark 2; Jude 5; 8; Obadiah 2-3; John 3:16-18; 10-14:2; ".toList) ++ ("Romans 1:10-22; 2; 3:20-22, 24, 4:2-5:2, 10".toList)))] none))) = (("Matt; Mark 2; Jude 5; 8; Obad 2-3; John 3:16-18; 10-14:2; ".toList) ++ ("Rom 1:10-22; 2; 3:20-22, 24, 4:2-5:2, 10".toList))))
  let fails := fails ++ (← check 918 do return decide ((← PM.lift (RangeList.str uni e ⟨true, true, false, true, false⟩ none (← RangeList.ofValues uni e [(.str (("Matthew; Mark 2; Jude 5; 8; Obadiah 2-3; John 3:16-18; 10-14:2; ".toList) ++ ("Romans 1:10-22; 2; 3:20-22, 24, 4:2-5:2, 10".toList)))] none))) = (("Matt; Mark 2; Jude 5; 8; Obad 2-3; John 3.16-18; 10-14.2; ".toList) ++ ("Rom 1.10-22; 2; 3.20-22, 24, 4.2-5.2, 10".toList))))
  let fails := fails ++ (← check 924 do return decide ((← PM.lift (RangeList.str uni e ⟨true, true, true, true, false⟩ none (← RangeList.ofValues uni e [(.str (("Matthew; Mark 2; Jude 5; 8; Obadiah 2-3; John 3:16-18; 10-14:2; ".toList) ++ ("Romans 1:10-22; 2; 3:20-22, 24, 4:2-5:2, 10".toList)))] none))) = (("Matt;Mark2;Jude5;8;Obad2-3;John3.16-18;10-14.2;".toList) ++ ("Rom1.10-22;2;3.20-22,24,4.2-5.2,10".toList))))
  return fails

theorem test_bible_range_list_to_string_passes : (test_bible_range_list_to_string PState.init).1 = .ok [] := by decide +kernel

/-- `test_bible_range_list_sort` (test/test_reference.py:931-941). -/
def test_bible_range_list_sort : PM (List Nat) := do
  let e : Env := env
  let fails : List Nat := []
  let range_list_str := (("Matt 2:3-4:5; Mark 3:4-5:6; Mark 3:4-5:5; Gen 1:2-3:4; ".toList) ++ ("Matt 2:3-4:4; 1 Sam 2:2-3:3; Matt 1:2-11:1".toList))
  let range_list := (← RangeList.ofValues uni e [(.str (range_list_str))] none)
  let range_list ← PM.lift (RangeList.sort e range_list true)
  let sorted_list_str := (← PM.lift (RangeList.str uni e ⟨true, false, false, false, false⟩ none (range_list)))
  let expected_list_str := (("Gen 1:2-3:4; 1Sam 2:2-3:3; Matt 1:2-11:1; 2:3-4:4; ".toList) ++ ("2:3-4:5; Mark 3:4-5:5; 3:4-5:6".toList))
  let fails := fails ++ (← check 939 do return decide ((sorted_list_str) = (expected_list_str)))
  let fails := fails ++ (← check 940 do return decide ((← item (range_list).flatten 0) = (← mkRange e [(.str ("Gen 1:2-3:4".toList))] .none .none none)))
  let fails := fails ++ (← check 941 do return decide ((← item (range_list).flatten.reverse 0) = (← mkRange e [(.str ("Mark 3:4-5:6".toList))] .none .none none)))
  return fails

theorem test_bible_range_list_sort_passes : (test_bible_range_list_sort PState.init).1 = .ok [] := by decide +kernel

end Bibleref.Tests

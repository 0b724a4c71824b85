import Verif.Tests.Basic

/-!
# The tests of test/test_reference.py, run on the model

Written by tools/translate_tests.py, which translates the test methods statement by statement. The numbers are the lines of the
assertions. `BibleBook` as an iterable is the list of its members.
-/

namespace Bibleref.Tests

set_option linter.unusedVariables false

/-- `test_bible_range_list` (test/test_reference.py:627-639). -/
def test_bible_range_list : PM (List Nat) := do
  let e : Env := env
  let fails : List Nat := []
  let range_list := (← RangeList.ofValues uni e [(.str ("Mark 3:1-4:2; Mark 5:6-8; Mark 5:10; Matt 4".toList))] none)
  let expected_range_str := ("Mark 3-4:2; 5:6-8, 10; Matt 4".toList)
  let fails := fails ++ (← check 630 do return decide ((← PM.lift (RangeList.str uni e ⟨true, false, false, false, false⟩ none (range_list))) = (expected_range_str)))
  let range_list := (← RangeList.ofValues uni e [(.seq true [(.range (← mkRange e [(.str ("Mark 3:1-4:2".toList))] .none .none none)), (.range (← mkRange e [(.str ("Mark 5:6-8".toList))] .none .none none)), (.range (← mkRange e [(.str ("Mark 5:10".toList))] .none .none none)), (.range (← mkRange e [(.str ("Matt 4".toList))] .none .none none))])] none)
  let fails := fails ++ (← check 635 do return decide ((← PM.lift (RangeList.str uni e ⟨true, false, false, false, false⟩ none (range_list))) = (expected_range_str)))
  let range_list := (← RangeList.ofValues uni e [(.str ("Mark 3:1-4:2; Mark 5:6-8; Mark 5:10; Matt 4".toList))] none)
  let fails := fails ++ (← check 639 do return decide ((range_list) = (← RangeList.ofValues uni e [(.list (range_list))] none)))
  return fails

theorem test_bible_range_list_passes : (test_bible_range_list PState.init).1 = .ok [] := by decide +kernel

/-- `test_bible_range_list_verse_0` (test/test_reference.py:641-653). -/
def test_bible_range_list_verse_0 : PM (List Nat) := do
  let e : Env := env
  let fails : List Nat := []
  let list_with_0 := (← RangeList.ofValues uni e [(.str ("Ps 3:0-4:0; Matt 2:3-4:5".toList))] (some .VERSE_0))
  let list_with_1 := (← RangeList.ofValues uni e [(.str ("Ps 3:1-4:1; Matt 2:3-4:5".toList))] (some .VERSE_0))
  let no_verse_0 := (← RangeList.ofValues uni e [(.str ("Matt 2:3-4:5; Mark 6:7-8:9".toList))] none)
  let list_with_0 ← PM.lift (RangeList.verse0to1 e list_with_0)
  let fails := fails ++ (← check 646 do return decide ((list_with_0) = (list_with_1)))
  let list_with_0 := (← RangeList.ofValues uni e [(.str ("Ps 3:0-4:0; Matt 2:3-4:5".toList))] (some .VERSE_0))
  let list_with_1 ← PM.lift (RangeList.verse1to0 e list_with_1)
  let fails := fails ++ (← check 649 do return decide ((list_with_0) = (list_with_1)))
  let no_verse_0 ← PM.lift (RangeList.verse0to1 e no_verse_0)
  let fails := fails ++ (← check 651 do return decide ((no_verse_0) = (← RangeList.ofValues uni e [(.str ("Matt 2:3-4:5; Mark 6:7-8:9".toList))] none)))
  let no_verse_0 ← PM.lift (RangeList.verse1to0 e no_verse_0)
  let fails := fails ++ (← check 653 do return decide ((no_verse_0) = (← RangeList.ofValues uni e [(.str ("Matt 2:3-4:5; Mark 6:7-8:9".toList))] none)))
  return fails

theorem test_bible_range_list_verse_0_passes : (test_bible_range_list_verse_0 PState.init).1 = .ok [] := by decide +kernel

/-- `test_range_list_ranges` (test/test_reference.py:655-659). -/
def test_range_list_ranges : PM (List Nat) := do
  let e : Env := env
  let fails : List Nat := []
  let range_list := (← RangeList.ofValues uni e [(.str ("John 4:9; Luke 1:12; Mark 7:3; Matt 3:8".toList))] none)
  let fails := fails ++ (← check 657 do return decide ((← PM.lift (RangeList.range e (range_list))) = (← mkRange e [(.str ("Matt 3:8-John 4:9".toList))] .none .none (some .MULTIBOOK))))
  let fails := fails ++ (← check 658 do return decide ((← PM.lift (RangeList.chapRange e (range_list) none)) = (← mkRange e [(.str ("Matt 3-John 4".toList))] .none .none (some .MULTIBOOK))))
  let fails := fails ++ (← check 659 do return decide ((← PM.lift (RangeList.bookRange e (range_list) none)) = (← mkRange e [(.str ("Matt-John".toList))] .none .none (some .MULTIBOOK))))
  return fails

theorem test_range_list_ranges_passes : (test_range_list_ranges PState.init).1 = .ok [] := by decide +kernel

/-- `test_range_list_counts` (test/test_reference.py:661-668). -/
def test_range_list_counts : PM (List Nat) := do
  let e : Env := env
  let fails : List Nat := []
  let range_list := (← RangeList.ofValues uni e [(.str ("1 John 1:5-3 John 8; 1 John 1:5-3:10; 1 John 1:5-2:11; 3 John 5-10".toList))] (some .MULTIBOOK))
  let fails := fails ++ (← check 664 do return decide (((← PM.lift (RangeList.verseCount e (range_list))) : Int) = (190)))
  let fails := fails ++ (← check 665 do return decide (((← PM.lift (RangeList.chapCount e (range_list) false)) : Int) = (13)))
  let fails := fails ++ (← check 666 do return decide (((← PM.lift (RangeList.chapCount e (range_list) true)) : Int) = (6)))
  let fails := fails ++ (← check 667 do return decide (((← PM.lift (RangeList.bookCount e (range_list) false)) : Int) = (6)))
  let fails := fails ++ (← check 668 do return decide (((← PM.lift (RangeList.bookCount e (range_list) true)) : Int) = (1)))
  return fails

theorem test_range_list_counts_passes : (test_range_list_counts PState.init).1 = .ok [] := by decide +kernel

/-- `test_regroup` (test/test_reference.py:670-677). -/
def test_regroup : PM (List Nat) := do
  let e : Env := env
  let fails : List Nat := []
  let range_list := (← RangeList.ofValues uni e [(.str ("Matt 1:4-7, 9-15, 17-20, Luke, John".toList))] none)
  let range_list ← PM.lift (RangeList.regroup e none range_list.flatten)
  let fails := fails ++ (← check 673 do return decide ((range_list) = (← RangeList.ofValues uni e [(.str ("Matt 1:4-7, 9-15, 17-20; Luke; John".toList))] none)))
  let range_list := (← RangeList.ofValues uni e [(.str ("Matt 1:4-7, 9-15, 17-20, John 2, 3, Luke 2:1-5, 6-10, 11-15".toList))] none)
  let range_list ← PM.lift (RangeList.regroup e none range_list.flatten)
  let fails := fails ++ (← check 677 do return decide ((range_list) = (← RangeList.ofValues uni e [(.str ("Matt 1:4-7, 9-15, 17-20; John 2; 3; Luke 2:1-5, 6-10, 11-15".toList))] none)))
  return fails

theorem test_regroup_passes : (test_regroup PState.init).1 = .ok [] := by decide +kernel

/-- `test_bible_range_list_merge` (test/test_reference.py:679-694). -/
def test_bible_range_list_merge : PM (List Nat) := do
  let e : Env := env
  let fails : List Nat := []
  let range_list := (← RangeList.ofValues uni e [(.str ("John; Luke; Matt 1:17-20, 12-15, 9-11, 5-7, 4-6".toList))] (some .MULTIBOOK))
  let range_list ← PM.lift (RangeList.sort e range_list true)
  let range_list ← PM.lift (RangeList.merge e range_list (some .none))
  let fails := fails ++ (← check 683 do return decide ((range_list) = (← RangeList.ofValues uni e [(.str ("Matt 1:4-7, 9-15, 17-20; Luke; John".toList))] none)))
  let range_list ← PM.lift (RangeList.merge e range_list (some .MULTIBOOK))
  let fails := fails ++ (← check 685 do return decide ((range_list) = (← RangeList.ofValues uni e [(.str ("Matt 1:4-7, 9-15, 17-20; Luke-John".toList))] (some .MULTIBOOK))))
  let range_list := (← RangeList.ofValues uni e [(.seq true [(.seq true [(.range (← mkRange e [(.str ("Mark 3:1-4:2".toList))] .none .none none)), (.range (← mkRange e [(.str ("Mark 5:6-8".toList))] .none .none none))]), (.seq true [(.range (← mkRange e [(.str ("Mark 5:10".toList))] .none .none none)), (.range (← mkRange e [(.str ("Matt 4".toList))] .none .none none))])])] none)
  let fails := fails ++ (← check 690 do return decide (((((range_list).length : Int)) : Int) = (2)))
  let fails := fails ++ (← check 691 do return decide ((← item (← item (range_list) 0) 0) = (← mkRange e [(.str ("Mark 3:1-4:2".toList))] .none .none none)))
  let fails := fails ++ (← check 692 do return decide ((← item (← item (range_list) 0) 1) = (← mkRange e [(.str ("Mark 5:6-8".toList))] .none .none none)))
  let fails := fails ++ (← check 693 do return decide ((← item (← item (range_list) 1) 0) = (← mkRange e [(.str ("Mark 5:10".toList))] .none .none none)))
  let fails := fails ++ (← check 694 do return decide ((← item (← item (range_list) 1) 1) = (← mkRange e [(.str ("Matt 4".toList))] .none .none none)))
  return fails

theorem test_bible_range_list_merge_passes : (test_bible_range_list_merge PState.init).1 = .ok [] := by decide +kernel

/-- `test_bible_range_list_is_disjoint` (test/test_reference.py:696-701). -/
def test_bible_range_list_is_disjoint : PM (List Nat) := do
  let e : Env := env
  let fails : List Nat := []
  let test_list := (← RangeList.ofValues uni e [(.str ("Matt 2-4; Mark 6-8; Luke 10-12; John 14-16".toList))] none)
  let fails := fails ++ (← check 699 do return (← PM.lift (RangeList.isDisjointV e (test_list) (.list (← RangeList.ofValues uni e [(.str ("Matt 5-7; Mark 9-11; Luke 13-15; John 17-19".toList))] none)))))
  let fails := fails ++ (← check 700 do return !(← PM.lift (RangeList.isDisjointV e (test_list) (.list (← RangeList.ofValues uni e [(.str ("Matt 5-7; Mark 9-11; Luke 12-15; John 17-19".toList))] none)))))
  let fails := fails ++ (← check 701 do return !(← PM.lift (RangeList.isDisjointV e (test_list) (.list (← RangeList.ofValues uni e [(.str ("Matt 5-7; Mark 8:38-Mark 11; Luke 13-15; John 17-19".toList))] none)))))
  return fails

theorem test_bible_range_list_is_disjoint_passes : (test_bible_range_list_is_disjoint PState.init).1 = .ok [] := by decide +kernel

/-- `test_bible_range_list_contains` (test/test_reference.py:703-710). -/
def test_bible_range_list_contains : PM (List Nat) := do
  let e : Env := env
  let fails : List Nat := []
  let test_list := (← RangeList.ofValues uni e [(.str ("Matt 2-4; Mark 6-8; Luke 10-12; John 14-16".toList))] none)
  let fails := fails ++ (← check 706 do return (← PM.lift (RangeList.containsV e (← RangeList.ofValues uni e [(.str ("Matt 2-3, 4-5; Mark 5-9; Luke 9-11, 12-13; John".toList))] none) (.list (test_list)) none)))
  let fails := fails ++ (← check 707 do return !(← PM.lift (RangeList.containsV e (← RangeList.ofValues uni e [(.str ("Matt 2-3, 5-7; Mark 5-9; Luke 9-11, 12-13; John".toList))] none) (.list (test_list)) none)))
  let fails := fails ++ (← check 708 do return !(← PM.lift (RangeList.containsV e (← RangeList.ofValues uni e [(.str ("Matt 2-3, 4-5; Mark 7-9; Luke 9-11, 12-13; John".toList))] none) (.list (test_list)) none)))
  let fails := fails ++ (← check 709 do return !(← PM.lift (RangeList.containsV e (← RangeList.ofValues uni e [(.str ("Matt 2-3, 4-5; Mark 6-9; Luke 10:2-Luke 12; John".toList))] none) (.list (test_list)) none)))
  let fails := fails ++ (← check 710 do return !(← PM.lift (RangeList.containsV e (← RangeList.ofValues uni e [(.str ("Matt 2-3, 4-5; Mark 6-9; Luke 10:2-Luke 12; John 14:2-John 16".toList))] none) (.list (test_list)) none)))
  return fails

theorem test_bible_range_list_contains_passes : (test_bible_range_list_contains PState.init).1 = .ok [] := by decide +kernel

/-- `test_bible_range_list_union` (test/test_reference.py:712-719). -/
def test_bible_range_list_union : PM (List Nat) := do
  let e : Env := env
  let fails : List Nat := []
  let list_1 := (← RangeList.ofValues uni e [(.str ("Matt 2-4; Mark 6-8; Luke 10-12; John 14-16".toList))] none)
  let list_2 := (← RangeList.ofValues uni e [(.str ("John 1-3; Luke 9; Matt 3-5; Mark 12".toList))] none)
  let fails := fails ++ (← check 716 do return decide ((← PM.lift (RangeList.unionV e (list_1) (.list (list_2)) none)) = (← RangeList.ofValues uni e [(.str ("Matt 2-5; Mark 6-8; 12; Luke 9-12; John 1-3; 14-16".toList))] none)))
  let list_2 := (← RangeList.ofValues uni e [(.str ("John 12-13; Luke 13-15; Mark 1-3; Matt 15-16".toList))] none)
  let fails := fails ++ (← check 719 do return decide ((← PM.lift (RangeList.unionV e (list_1) (.list (list_2)) none)) = (← RangeList.ofValues uni e [(.str ("Matt 2-4; 15-16; Mark 1-3; 6-8; Luke 10-15; John 12-16".toList))] none)))
  return fails

theorem test_bible_range_list_union_passes : (test_bible_range_list_union PState.init).1 = .ok [] := by decide +kernel

/-- `test_bible_range_list_intersection` (test/test_reference.py:721-728). -/
def test_bible_range_list_intersection : PM (List Nat) := do
  let e : Env := env
  let fails : List Nat := []
  let list_1 := (← RangeList.ofValues uni e [(.str ("Matt 2-4; Mark 6-8; Luke 10-12; John 14-16".toList))] none)
  let list_2 := (← RangeList.ofValues uni e [(.str ("John 1-3; Luke 9-10; Matt 3-5; Mark 12".toList))] none)
  let fails := fails ++ (← check 725 do return decide ((← PM.lift (RangeList.intersectionV e (list_1) (.list (list_2)) none)) = (← RangeList.ofValues uni e [(.str ("Matt 3-4; Luke 10".toList))] none)))
  let list_2 := (← RangeList.ofValues uni e [(.str ("John 12-15; Luke 12-15; Mark 1-3; Matt 15-16".toList))] none)
  let fails := fails ++ (← check 728 do return decide ((← PM.lift (RangeList.intersectionV e (list_1) (.list (list_2)) none)) = (← RangeList.ofValues uni e [(.str ("Luke 12; John 14-15".toList))] none)))
  return fails

theorem test_bible_range_list_intersection_passes : (test_bible_range_list_intersection PState.init).1 = .ok [] := by decide +kernel

/-- `test_bible_range_list_difference` (test/test_reference.py:730-737). -/
def test_bible_range_list_difference : PM (List Nat) := do
  let e : Env := env
  let fails : List Nat := []
  let list_1 := (← RangeList.ofValues uni e [(.str ("Matt 2-4; Mark 6-8; Luke 10-12; John 14-18".toList))] none)
  let list_2 := (← RangeList.ofValues uni e [(.str ("John 1-3; Luke 9-10; Matt 3-5; Mark 12".toList))] none)
  let fails := fails ++ (← check 734 do return decide ((← PM.lift (RangeList.differenceV e (list_1) (.list (list_2)) none fuel)) = (← RangeList.ofValues uni e [(.str ("Matt 2; Mark 6-8; Luke 11-12; John 14-18".toList))] none)))
  let list_2 := (← RangeList.ofValues uni e [(.str ("John 16; Luke 11; Mark 1-3; Matt 15-16".toList))] none)
  let fails := fails ++ (← check 737 do return decide ((← PM.lift (RangeList.differenceV e (list_1) (.list (list_2)) none fuel)) = (← RangeList.ofValues uni e [(.str ("Matt 2-4; Mark 6-8; Luke 10; 12; John 14-15; 17-18".toList))] none)))
  return fails

theorem test_bible_range_list_difference_passes : (test_bible_range_list_difference PState.init).1 = .ok [] := by decide +kernel

/-- `test_bible_range_list_sym_difference` (test/test_reference.py:739-747). -/
def test_bible_range_list_sym_difference : PM (List Nat) := do
  let e : Env := env
  let fails : List Nat := []
  let list_1 := (← RangeList.ofValues uni e [(.str ("Matt 2-4; Mark 6-8; Luke 10-12; John 14-18".toList))] none)
  let list_2 := (← RangeList.ofValues uni e [(.str ("John 1-3; Luke 9-10; Matt 3-5; Mark 12".toList))] none)
  let fails := fails ++ (← check 743 do return decide ((← PM.lift (RangeList.symDifferenceV e (list_1) (.list (list_2)) none fuel)) = (← RangeList.ofValues uni e [(.str ("Matt 2; 5; Mark 6-8; 12; Luke 9; 11-12; John 1-3; 14-18".toList))] none)))
  let list_2 := (← RangeList.ofValues uni e [(.str ("John 16; Luke 11; Mark 1-3; Matt 15-16".toList))] none)
  let fails := fails ++ (← check 746 do return decide ((← PM.lift (RangeList.symDifferenceV e (list_1) (.list (list_2)) none fuel)) = (← RangeList.ofValues uni e [(.str ("Matt 2-4; 15-16; Mark 1-3; 6-8; Luke 10; 12; John 14-15; 17-18".toList))] none)))
  return fails

theorem test_bible_range_list_sym_difference_passes : (test_bible_range_list_sym_difference PState.init).1 = .ok [] := by decide +kernel

end Bibleref.Tests

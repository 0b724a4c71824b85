import Verif.Tests.Basic

/-!
# The tests of test/test_reference.py, run on the model

Written by tools/translate_tests.py, which translates the test methods statement by statement. The numbers are the lines of the
assertions. `BibleBook` as an iterable is the list of its members.
-/

namespace Bibleref.Tests

set_option linter.unusedVariables false

/-- `test_range_union` (test/test_reference.py:458-486). -/
def test_range_union : PM (List Nat) := do
  let e : Env := env
  let fails : List Nat := []
  let test_range := (← mkRange e [(.str ("Matt 1:10-15".toList))] .none .none none)
  let fails := fails ++ (← check 461 do return decide ((← PM.lift (BibleRange.unionV e (test_range) (.verse (← BibleVerse.ofValues uni e [(.str ("Matt 1:8".toList))] none)) none)) = (← RangeList.ofValues uni e [(.str ("Matt 1:8, 10-15".toList))] none)))
  let fails := fails ++ (← check 462 do return decide ((← PM.lift (BibleRange.unionV e (test_range) (.verse (← BibleVerse.ofValues uni e [(.str ("Matt 1:9".toList))] none)) none)) = (← RangeList.ofValues uni e [(.str ("Matt 1:9-15".toList))] none)))
  let fails := fails ++ (← check 463 do return decide ((← PM.lift (BibleRange.unionV e (test_range) (.verse (← BibleVerse.ofValues uni e [(.str ("Matt 1:10".toList))] none)) none)) = (← RangeList.ofValues uni e [(.str ("Matt 1:10-15".toList))] none)))
  let fails := fails ++ (← check 464 do return decide ((← PM.lift (BibleRange.unionV e (test_range) (.verse (← BibleVerse.ofValues uni e [(.str ("Matt 1:11".toList))] none)) none)) = (← RangeList.ofValues uni e [(.str ("Matt 1:10-15".toList))] none)))
  let fails := fails ++ (← check 466 do return decide ((← PM.lift (BibleRange.unionV e (test_range) (.range (← mkRange e [(.str ("Matt 1:5-8".toList))] .none .none none)) none)) = (← RangeList.ofValues uni e [(.str ("Matt 1:5-8, 10-15".toList))] none)))
  let fails := fails ++ (← check 467 do return decide ((← PM.lift (BibleRange.unionV e (test_range) (.range (← mkRange e [(.str ("Matt 1:5-9".toList))] .none .none none)) none)) = (← RangeList.ofValues uni e [(.str ("Matt 1:5-15".toList))] none)))
  let fails := fails ++ (← check 468 do return decide ((← PM.lift (BibleRange.unionV e (test_range) (.range (← mkRange e [(.str ("Matt 1:5-10".toList))] .none .none none)) none)) = (← RangeList.ofValues uni e [(.str ("Matt 1:5-15".toList))] none)))
  let fails := fails ++ (← check 469 do return decide ((← PM.lift (BibleRange.unionV e (test_range) (.range (← mkRange e [(.str ("Matt 1:5-11".toList))] .none .none none)) none)) = (← RangeList.ofValues uni e [(.str ("Matt 1:5-15".toList))] none)))
  let fails := fails ++ (← check 470 do return decide ((← PM.lift (BibleRange.unionV e (test_range) (.range (← mkRange e [(.str ("Matt 1:10-12".toList))] .none .none none)) none)) = (← RangeList.ofValues uni e [(.str ("Matt 1:10-15".toList))] none)))
  let fails := fails ++ (← check 471 do return decide ((← PM.lift (BibleRange.unionV e (test_range) (.range (← mkRange e [(.str ("Matt 1:11-14".toList))] .none .none none)) none)) = (← RangeList.ofValues uni e [(.str ("Matt 1:10-15".toList))] none)))
  let fails := fails ++ (← check 472 do return decide ((← PM.lift (BibleRange.unionV e (test_range) (.range (← mkRange e [(.str ("Matt 1:13-15".toList))] .none .none none)) none)) = (← RangeList.ofValues uni e [(.str ("Matt 1:10-15".toList))] none)))
  let fails := fails ++ (← check 473 do return decide ((← PM.lift (BibleRange.unionV e (test_range) (.range (← mkRange e [(.str ("Matt 1:10-15".toList))] .none .none none)) none)) = (← RangeList.ofValues uni e [(.str ("Matt 1:10-15".toList))] none)))
  let fails := fails ++ (← check 474 do return decide ((← PM.lift (BibleRange.unionV e (test_range) (.range (← mkRange e [(.str ("Matt 1:14-20".toList))] .none .none none)) none)) = (← RangeList.ofValues uni e [(.str ("Matt 1:10-20".toList))] none)))
  let fails := fails ++ (← check 475 do return decide ((← PM.lift (BibleRange.unionV e (test_range) (.range (← mkRange e [(.str ("Matt 1:15-20".toList))] .none .none none)) none)) = (← RangeList.ofValues uni e [(.str ("Matt 1:10-20".toList))] none)))
  let fails := fails ++ (← check 476 do return decide ((← PM.lift (BibleRange.unionV e (test_range) (.range (← mkRange e [(.str ("Matt 1:16-20".toList))] .none .none none)) none)) = (← RangeList.ofValues uni e [(.str ("Matt 1:10-20".toList))] none)))
  let fails := fails ++ (← check 477 do return decide ((← PM.lift (BibleRange.unionV e (test_range) (.range (← mkRange e [(.str ("Matt 1:17-20".toList))] .none .none none)) none)) = (← RangeList.ofValues uni e [(.str ("Matt 1:10-15, 17-20".toList))] none)))
  let fails := fails ++ (← check 479 do return decide ((← PM.lift (BibleRange.unionV e (test_range) (.list (← RangeList.ofValues uni e [(.str ("Matt 1:5-8; Mark 1-3".toList))] none)) none)) = (← RangeList.ofValues uni e [(.str ("Matt 1:5-8, 10-15; Mark 1-3".toList))] none)))
  let fails := fails ++ (← check 481 do return decide ((← PM.lift (BibleRange.unionV e (test_range) (.list (← RangeList.ofValues uni e [(.str ("Matt 1:5-9; Mark 1-3".toList))] none)) none)) = (← RangeList.ofValues uni e [(.str ("Matt 1:5-15; Mark 1-3".toList))] none)))
  let fails := fails ++ (← check 483 do return decide ((← PM.lift (BibleRange.unionV e (test_range) (.list (← RangeList.ofValues uni e [(.str ("Matt 1:5-10; Mark 1-3".toList))] none)) none)) = (← RangeList.ofValues uni e [(.str ("Matt 1:5-15; Mark 1-3".toList))] none)))
  let fails := fails ++ (← check 485 do return decide ((← PM.lift (BibleRange.unionV e (test_range) (.list (← RangeList.ofValues uni e [(.str ("Mark 4-6; Matt 1:5-9, 16-20".toList))] none)) none)) = (← RangeList.ofValues uni e [(.str ("Matt 1:5-20; Mark 4-6".toList))] none)))
  return fails

theorem test_range_union_passes : (test_range_union PState.init).1 = .ok [] := by decide +kernel

/-- `test_range_intersection` (test/test_reference.py:488-512). -/
def test_range_intersection : PM (List Nat) := do
  let e : Env := env
  let fails : List Nat := []
  let test_range := (← mkRange e [(.str ("Matt 1:10-15".toList))] .none .none none)
  let fails := fails ++ (← check 491 do return decide ((← PM.lift (BibleRange.intersectionV e (test_range) (.verse (← BibleVerse.ofValues uni e [(.str ("Matt 1:8".toList))] none)) none)) = (← RangeList.ofValues uni e [] none)))
  let fails := fails ++ (← check 492 do return decide ((← PM.lift (BibleRange.intersectionV e (test_range) (.verse (← BibleVerse.ofValues uni e [(.str ("Matt 1:9".toList))] none)) none)) = (← RangeList.ofValues uni e [] none)))
  let fails := fails ++ (← check 493 do return decide ((← PM.lift (BibleRange.intersectionV e (test_range) (.verse (← BibleVerse.ofValues uni e [(.str ("Matt 1:10".toList))] none)) none)) = (← RangeList.ofValues uni e [(.str ("Matt 1:10".toList))] none)))
  let fails := fails ++ (← check 494 do return decide ((← PM.lift (BibleRange.intersectionV e (test_range) (.verse (← BibleVerse.ofValues uni e [(.str ("Matt 1:11".toList))] none)) none)) = (← RangeList.ofValues uni e [(.str ("Matt 1:11".toList))] none)))
  let fails := fails ++ (← check 496 do return decide ((← PM.lift (BibleRange.intersectionV e (test_range) (.range (← mkRange e [(.str ("Matt 1:5-8".toList))] .none .none none)) none)) = (← RangeList.ofValues uni e [] none)))
  let fails := fails ++ (← check 497 do return decide ((← PM.lift (BibleRange.intersectionV e (test_range) (.range (← mkRange e [(.str ("Matt 1:5-9".toList))] .none .none none)) none)) = (← RangeList.ofValues uni e [] none)))
  let fails := fails ++ (← check 498 do return decide ((← PM.lift (BibleRange.intersectionV e (test_range) (.range (← mkRange e [(.str ("Matt 1:5-10".toList))] .none .none none)) none)) = (← RangeList.ofValues uni e [(.str ("Matt 1:10".toList))] none)))
  let fails := fails ++ (← check 499 do return decide ((← PM.lift (BibleRange.intersectionV e (test_range) (.range (← mkRange e [(.str ("Matt 1:5-11".toList))] .none .none none)) none)) = (← RangeList.ofValues uni e [(.str ("Matt 1:10-11".toList))] none)))
  let fails := fails ++ (← check 500 do return decide ((← PM.lift (BibleRange.intersectionV e (test_range) (.range (← mkRange e [(.str ("Matt 1:10-12".toList))] .none .none none)) none)) = (← RangeList.ofValues uni e [(.str ("Matt 1:10-12".toList))] none)))
  let fails := fails ++ (← check 501 do return decide ((← PM.lift (BibleRange.intersectionV e (test_range) (.range (← mkRange e [(.str ("Matt 1:11-14".toList))] .none .none none)) none)) = (← RangeList.ofValues uni e [(.str ("Matt 1:11-14".toList))] none)))
  let fails := fails ++ (← check 502 do return decide ((← PM.lift (BibleRange.intersectionV e (test_range) (.range (← mkRange e [(.str ("Matt 1:13-15".toList))] .none .none none)) none)) = (← RangeList.ofValues uni e [(.str ("Matt 1:13-15".toList))] none)))
  let fails := fails ++ (← check 503 do return decide ((← PM.lift (BibleRange.intersectionV e (test_range) (.range (← mkRange e [(.str ("Matt 1:10-15".toList))] .none .none none)) none)) = (← RangeList.ofValues uni e [(.str ("Matt 1:10-15".toList))] none)))
  let fails := fails ++ (← check 504 do return decide ((← PM.lift (BibleRange.intersectionV e (test_range) (.range (← mkRange e [(.str ("Matt 1:14-20".toList))] .none .none none)) none)) = (← RangeList.ofValues uni e [(.str ("Matt 1:14-15".toList))] none)))
  let fails := fails ++ (← check 505 do return decide ((← PM.lift (BibleRange.intersectionV e (test_range) (.range (← mkRange e [(.str ("Matt 1:15-20".toList))] .none .none none)) none)) = (← RangeList.ofValues uni e [(.str ("Matt 1:15".toList))] none)))
  let fails := fails ++ (← check 506 do return decide ((← PM.lift (BibleRange.intersectionV e (test_range) (.range (← mkRange e [(.str ("Matt 1:16-20".toList))] .none .none none)) none)) = (← RangeList.ofValues uni e [] none)))
  let fails := fails ++ (← check 507 do return decide ((← PM.lift (BibleRange.intersectionV e (test_range) (.range (← mkRange e [(.str ("Matt 1:17-20".toList))] .none .none none)) none)) = (← RangeList.ofValues uni e [] none)))
  let fails := fails ++ (← check 509 do return decide ((← PM.lift (BibleRange.intersectionV e (test_range) (.list (← RangeList.ofValues uni e [(.str ("Matt 1:5-8; Mark 1-3".toList))] none)) none)) = (← RangeList.ofValues uni e [] none)))
  let fails := fails ++ (← check 510 do return decide ((← PM.lift (BibleRange.intersectionV e (test_range) (.list (← RangeList.ofValues uni e [(.str ("Matt 1:5-9; Mark 1-3".toList))] none)) none)) = (← RangeList.ofValues uni e [] none)))
  let fails := fails ++ (← check 511 do return decide ((← PM.lift (BibleRange.intersectionV e (test_range) (.list (← RangeList.ofValues uni e [(.str ("Matt 1:5-10; Mark 1-3; Matt 1:14-20".toList))] none)) none)) = (← RangeList.ofValues uni e [(.str ("Matt 1:10, 14-15".toList))] none)))
  let fails := fails ++ (← check 512 do return decide ((← PM.lift (BibleRange.intersectionV e (test_range) (.list (← RangeList.ofValues uni e [(.str ("Mark 4-6; Matt 1:5-11, 16-20".toList))] none)) none)) = (← RangeList.ofValues uni e [(.str ("Matt 1:10-11".toList))] none)))
  return fails

theorem test_range_intersection_passes : (test_range_intersection PState.init).1 = .ok [] := by decide +kernel

/-- `test_range_difference` (test/test_reference.py:514-531). -/
def test_range_difference : PM (List Nat) := do
  let e : Env := env
  let fails : List Nat := []
  let test_range := (← mkRange e [(.str ("Matt 1:10-15".toList))] .none .none none)
  let fails := fails ++ (← check 516 do return decide ((← PM.lift (BibleRange.differenceV e (test_range) (.range (← mkRange e [(.str ("Matt 1:5-8".toList))] .none .none none)) none)) = (← RangeList.ofValues uni e [(.str ("Matt 1:10-15".toList))] none)))
  let fails := fails ++ (← check 517 do return decide ((← PM.lift (BibleRange.differenceV e (test_range) (.range (← mkRange e [(.str ("Matt 1:5-9".toList))] .none .none none)) none)) = (← RangeList.ofValues uni e [(.str ("Matt 1:10-15".toList))] none)))
  let fails := fails ++ (← check 518 do return decide ((← PM.lift (BibleRange.differenceV e (test_range) (.range (← mkRange e [(.str ("Matt 1:5-10".toList))] .none .none none)) none)) = (← RangeList.ofValues uni e [(.str ("Matt 1:11-15".toList))] none)))
  let fails := fails ++ (← check 519 do return decide ((← PM.lift (BibleRange.differenceV e (test_range) (.range (← mkRange e [(.str ("Matt 1:5-11".toList))] .none .none none)) none)) = (← RangeList.ofValues uni e [(.str ("Matt 1:12-15".toList))] none)))
  let fails := fails ++ (← check 520 do return decide ((← PM.lift (BibleRange.differenceV e (test_range) (.range (← mkRange e [(.str ("Matt 1:10-12".toList))] .none .none none)) none)) = (← RangeList.ofValues uni e [(.str ("Matt 1:13-15".toList))] none)))
  let fails := fails ++ (← check 521 do return decide ((← PM.lift (BibleRange.differenceV e (test_range) (.range (← mkRange e [(.str ("Matt 1:10-14".toList))] .none .none none)) none)) = (← RangeList.ofValues uni e [(.str ("Matt 1:15".toList))] none)))
  let fails := fails ++ (← check 522 do return decide ((← PM.lift (BibleRange.differenceV e (test_range) (.range (← mkRange e [(.str ("Matt 1:11-14".toList))] .none .none none)) none)) = (← RangeList.ofValues uni e [(.str ("Matt 1:10, 15".toList))] none)))
  let fails := fails ++ (← check 523 do return decide ((← PM.lift (BibleRange.differenceV e (test_range) (.range (← mkRange e [(.str ("Matt 1:12-13".toList))] .none .none none)) none)) = (← RangeList.ofValues uni e [(.str ("Matt 1:10-11, 14-15".toList))] none)))
  let fails := fails ++ (← check 524 do return decide ((← PM.lift (BibleRange.differenceV e (test_range) (.range (← mkRange e [(.str ("Matt 1:11-15".toList))] .none .none none)) none)) = (← RangeList.ofValues uni e [(.str ("Matt 1:10".toList))] none)))
  let fails := fails ++ (← check 525 do return decide ((← PM.lift (BibleRange.differenceV e (test_range) (.range (← mkRange e [(.str ("Matt 1:13-15".toList))] .none .none none)) none)) = (← RangeList.ofValues uni e [(.str ("Matt 1:10-12".toList))] none)))
  let fails := fails ++ (← check 526 do return decide ((← PM.lift (BibleRange.differenceV e (test_range) (.range (← mkRange e [(.str ("Matt 1:10-15".toList))] .none .none none)) none)) = (← RangeList.ofValues uni e [] none)))
  let fails := fails ++ (← check 527 do return decide ((← PM.lift (BibleRange.differenceV e (test_range) (.range (← mkRange e [(.str ("Matt 1:9-16".toList))] .none .none none)) none)) = (← RangeList.ofValues uni e [] none)))
  let fails := fails ++ (← check 528 do return decide ((← PM.lift (BibleRange.differenceV e (test_range) (.range (← mkRange e [(.str ("Matt 1:14-20".toList))] .none .none none)) none)) = (← RangeList.ofValues uni e [(.str ("Matt 1:10-13".toList))] none)))
  let fails := fails ++ (← check 529 do return decide ((← PM.lift (BibleRange.differenceV e (test_range) (.range (← mkRange e [(.str ("Matt 1:15-20".toList))] .none .none none)) none)) = (← RangeList.ofValues uni e [(.str ("Matt 1:10-14".toList))] none)))
  let fails := fails ++ (← check 530 do return decide ((← PM.lift (BibleRange.differenceV e (test_range) (.range (← mkRange e [(.str ("Matt 1:16-20".toList))] .none .none none)) none)) = (← RangeList.ofValues uni e [(.str ("Matt 1:10-15".toList))] none)))
  let fails := fails ++ (← check 531 do return decide ((← PM.lift (BibleRange.differenceV e (test_range) (.range (← mkRange e [(.str ("Matt 1:17-20".toList))] .none .none none)) none)) = (← RangeList.ofValues uni e [(.str ("Matt 1:10-15".toList))] none)))
  return fails

theorem test_range_difference_passes : (test_range_difference PState.init).1 = .ok [] := by decide +kernel

/-- `test_range_sym_difference` (test/test_reference.py:533-550). -/
def test_range_sym_difference : PM (List Nat) := do
  let e : Env := env
  let fails : List Nat := []
  let test_range := (← mkRange e [(.str ("Matt 1:10-15".toList))] .none .none none)
  let fails := fails ++ (← check 535 do return decide ((← PM.lift (BibleRange.symDifferenceV e (test_range) (.range (← mkRange e [(.str ("Matt 1:5-8".toList))] .none .none none)) none)) = (← RangeList.ofValues uni e [(.str ("Matt 1:5-8, 10-15".toList))] none)))
  let fails := fails ++ (← check 536 do return decide ((← PM.lift (BibleRange.symDifferenceV e (test_range) (.range (← mkRange e [(.str ("Matt 1:5-9".toList))] .none .none none)) none)) = (← RangeList.ofValues uni e [(.str ("Matt 1:5-15".toList))] none)))
  let fails := fails ++ (← check 537 do return decide ((← PM.lift (BibleRange.symDifferenceV e (test_range) (.range (← mkRange e [(.str ("Matt 1:5-10".toList))] .none .none none)) none)) = (← RangeList.ofValues uni e [(.str ("Matt 1:5-9, 11-15".toList))] none)))
  let fails := fails ++ (← check 538 do return decide ((← PM.lift (BibleRange.symDifferenceV e (test_range) (.range (← mkRange e [(.str ("Matt 1:5-11".toList))] .none .none none)) none)) = (← RangeList.ofValues uni e [(.str ("Matt 1:5-9, 12-15".toList))] none)))
  let fails := fails ++ (← check 539 do return decide ((← PM.lift (BibleRange.symDifferenceV e (test_range) (.range (← mkRange e [(.str ("Matt 1:10-12".toList))] .none .none none)) none)) = (← RangeList.ofValues uni e [(.str ("Matt 1:13-15".toList))] none)))
  let fails := fails ++ (← check 540 do return decide ((← PM.lift (BibleRange.symDifferenceV e (test_range) (.range (← mkRange e [(.str ("Matt 1:10-14".toList))] .none .none none)) none)) = (← RangeList.ofValues uni e [(.str ("Matt 1:15".toList))] none)))
  let fails := fails ++ (← check 541 do return decide ((← PM.lift (BibleRange.symDifferenceV e (test_range) (.range (← mkRange e [(.str ("Matt 1:11-14".toList))] .none .none none)) none)) = (← RangeList.ofValues uni e [(.str ("Matt 1:10, 15".toList))] none)))
  let fails := fails ++ (← check 542 do return decide ((← PM.lift (BibleRange.symDifferenceV e (test_range) (.range (← mkRange e [(.str ("Matt 1:12-13".toList))] .none .none none)) none)) = (← RangeList.ofValues uni e [(.str ("Matt 1:10-11, 14-15".toList))] none)))
  let fails := fails ++ (← check 543 do return decide ((← PM.lift (BibleRange.symDifferenceV e (test_range) (.range (← mkRange e [(.str ("Matt 1:11-15".toList))] .none .none none)) none)) = (← RangeList.ofValues uni e [(.str ("Matt 1:10".toList))] none)))
  let fails := fails ++ (← check 544 do return decide ((← PM.lift (BibleRange.symDifferenceV e (test_range) (.range (← mkRange e [(.str ("Matt 1:13-15".toList))] .none .none none)) none)) = (← RangeList.ofValues uni e [(.str ("Matt 1:10-12".toList))] none)))
  let fails := fails ++ (← check 545 do return decide ((← PM.lift (BibleRange.symDifferenceV e (test_range) (.range (← mkRange e [(.str ("Matt 1:10-15".toList))] .none .none none)) none)) = (← RangeList.ofValues uni e [] none)))
  let fails := fails ++ (← check 546 do return decide ((← PM.lift (BibleRange.symDifferenceV e (test_range) (.range (← mkRange e [(.str ("Matt 1:9-16".toList))] .none .none none)) none)) = (← RangeList.ofValues uni e [(.str ("Matt 1:9, 16".toList))] none)))
  let fails := fails ++ (← check 547 do return decide ((← PM.lift (BibleRange.symDifferenceV e (test_range) (.range (← mkRange e [(.str ("Matt 1:14-20".toList))] .none .none none)) none)) = (← RangeList.ofValues uni e [(.str ("Matt 1:10-13, 16-20".toList))] none)))
  let fails := fails ++ (← check 548 do return decide ((← PM.lift (BibleRange.symDifferenceV e (test_range) (.range (← mkRange e [(.str ("Matt 1:15-20".toList))] .none .none none)) none)) = (← RangeList.ofValues uni e [(.str ("Matt 1:10-14, 16-20".toList))] none)))
  let fails := fails ++ (← check 549 do return decide ((← PM.lift (BibleRange.symDifferenceV e (test_range) (.range (← mkRange e [(.str ("Matt 1:16-20".toList))] .none .none none)) none)) = (← RangeList.ofValues uni e [(.str ("Matt 1:10-20".toList))] none)))
  let fails := fails ++ (← check 550 do return decide ((← PM.lift (BibleRange.symDifferenceV e (test_range) (.range (← mkRange e [(.str ("Matt 1:17-20".toList))] .none .none none)) none)) = (← RangeList.ofValues uni e [(.str ("Matt 1:10-15, 17-20".toList))] none)))
  return fails

theorem test_range_sym_difference_passes : (test_range_sym_difference PState.init).1 = .ok [] := by decide +kernel

end Bibleref.Tests

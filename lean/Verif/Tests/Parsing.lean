import Verif.Tests.Basic
import Verif.Model.Positions

/-!
# The tests of test/test_parser.py and test/test_bibleref.py, run on the model
-/

namespace Bibleref.Tests

/-- `test_parse_success` (test/test_parser.py:8-36). -/
theorem test_parse_success_passes :
    (parse uni env none ("Matthew; Mark 2; Jude 5; 8; Obadiah 2-3; John 3.16-18; 10-14:2;".toList ++
      "Romans 1:10-22; 2; 3:20-22, 24, 4:2-5:2, 10".toList) PState.init).1 = ((do
    let one (l : List PyVal) : PM BibleRange := mkRange env l .none .none none
    return [
      [← one [.book .Matt]],
      [← one [.book .Mark, .int 2]],
      [← one [.book .Jude, .int 1, .int 5]],
      [← one [.book .Jude, .int 1, .int 8]],
      [← one [.book .Obad, .int 1, .int 2, .none, .none, .int 3]],
      [← one [.book .John, .int 3, .int 16, .none, .none, .int 18]],
      [← one [.book .John, .int 10, .int 1, .none, .int 14, .int 2]],
      [← one [.book .Rom, .int 1, .int 10, .none, .none, .int 22]],
      [← one [.book .Rom, .int 2]],
      [← one [.book .Rom, .int 3, .int 20, .none, .none, .int 22],
       ← one [.book .Rom, .int 3, .int 24],
       ← one [.book .Rom, .int 4, .int 2, .none, .int 5, .int 2],
       ← one [.book .Rom, .int 5, .int 10]]] : PM (List (List BibleRange))) PState.init).1 := by
  decide +kernel

/-- `test_parse_failure` (test/test_parser.py:38-47). -/
theorem test_parse_failure_passes : (parseAt uni env none "Mark 2, 20, 3".toList PState.init).1 = .error (8, 10) := by
  decide +kernel

/-- The data with the separators of test/test_bibleref.py:18-22. -/
def otherSeps : Env := ⟨{ defaultData with rangeSep := '_', majorListSep := '|', minorListSep := '/', verseSepStd := ',', verseSepAlt := '*' }, .none⟩

/-- `test_bible_data` (test/test_bibleref.py:7-35). -/
theorem test_bible_data_passes :
    (RangeList.ofValues uni env [.str "Mark 3:1-4:2; 5:6-8, 10; Matt 4".toList] none PState.init).1 =
      (RangeList.ofValues uni otherSeps [.str "Mark 3,1_4,2| 5,6_8/ 10| Matt 4".toList] none PState.init).1 ∧
    (RangeList.ofValues uni env [.str "Mark 3:1-4:2; 5:6-8, 10; Matt 4".toList] none PState.init).1.isOk = true := by
  decide +kernel

end Bibleref.Tests

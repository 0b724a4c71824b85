import Verif.SpecText

/-!
# Specification vocabulary: one string of references after another
-/

namespace Bibleref.Spec

/-- One list after another, the last group of the first and the first group of the second making one group. -/
def runOn : RangeList → RangeList → RangeList
  | [], m => m
  | [g], h :: m => (g ++ h) :: m
  | g :: l, m => g :: runOn l m

/-- One list after another: the groups as they are after a major list separator, and joined in the middle after a minor one. -/
def oneAfter (major : Bool) (l m : RangeList) : RangeList := if major then l ++ m else runOn l m

end Bibleref.Spec

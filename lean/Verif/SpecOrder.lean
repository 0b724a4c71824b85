import Verif.Model.Order
import Verif.Spec

/-!
# Specification vocabulary: comparisons of positions
-/

namespace Bibleref.Spec

/-- What an operator says of two positions. -/
def holds : Cmp → Nat → Nat → Prop
  | .lt, i, j => i < j
  | .le, i, j => i ≤ j
  | .gt, i, j => i > j
  | .ge, i, j => i ≥ j

end Bibleref.Spec

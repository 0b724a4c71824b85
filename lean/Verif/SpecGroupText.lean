import Verif.Model.Verse

/-!
# What the strings of groups are stated with (C84)
-/

namespace Bibleref.Spec

/-- Python's notation for a list whose items are written like this. -/
def bracketed (items : List (List Char)) : List Char := "[".toList ++ List.intercalate ", ".toList items ++ "]".toList

/-- The texts of the things in `D` can be told apart where they stand in a list, followed by a comma or the closing bracket. -/
structure Telling {α : Type} (text : α → List Char) (D : α → Prop) : Prop where
  start : ∀ x, D x → ∃ c r, text x = c :: r ∧ c ≠ ']'
  apart : ∀ x y, D x → D y → ∀ c ∈ [',', ']'], ∀ c' ∈ [',', ']'], ∀ s t, text x ++ c :: s = text y ++ c' :: t → x = y

end Bibleref.Spec

import Verif.SpecText

/-!
# Specification vocabulary: ways of writing the same reference
-/

namespace Bibleref.Spec

/-- One of the five separators. -/
def IsSep (d : BibleData) (c : Char) : Prop := c ∈ [d.rangeSep, d.majorListSep, d.minorListSep, d.verseSepStd, d.verseSepAlt]

instance (d : BibleData) (c : Char) : Decidable (IsSep d c) := by unfold IsSep; infer_instance

/-- The same character, the same letter in another case, or one verse separator for the other. -/
def SameChar (u : Uni) (d : BibleData) (a b : Char) : Prop :=
  a = b ∨ (a ∈ [d.verseSepStd, d.verseSepAlt] ∧ b ∈ [d.verseSepStd, d.verseSepAlt]) ∨
  (isWord u a = true ∧ isWord u b = true ∧ isDigit a = false ∧ isDigit b = false ∧ foldChar u a = foldChar u b)

/-- The white space that may be between any two parts of a reference. -/
def Blank (w : List Char) : Prop := ∀ c ∈ w, isWs c = true

instance (u : Uni) (d : BibleData) (a b : Char) : Decidable (SameChar u d a b) := by unfold SameChar; infer_instance

instance (w : List Char) : Decidable (Blank w) := by unfold Blank; infer_instance

/-- The strings differ only in letter case, in which verse separators they have, in how much white space there is between two
characters, and in whether there is some at the beginning, at the end, and on either side of a separator. The first argument says
whether a separator, or nothing, precedes. -/
inductive Respelt (u : Uni) (d : BibleData) : Prop → List Char → List Char → Prop
  | done {p w w'} : Blank w → Blank w' → Respelt u d p w w'
  | char {p w w' a b s t} : Blank w → Blank w' → isWs a = false → (p ∨ IsSep d a ∨ (w = [] ↔ w' = [])) → SameChar u d a b →
      Respelt u d (IsSep d a) s t → Respelt u d p (w ++ a :: s) (w' ++ b :: t)

end Bibleref.Spec

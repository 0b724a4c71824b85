import Verif.Spec

/-!
# What more flags do

A flag allows something: `VERSE_0` verse 0s, `MULTIBOOK` ranges across books.
-/

namespace Bibleref.Spec

/-- Whatever `f` allows, `g` allows too. -/
def Within (f g : BibleFlag) : Prop := (f.verse0 = true → g.verse0 = true) ∧ (f.multibook = true → g.multibook = true)

/-- `w` is the verse `v`, or `v` is the verse 1 of a chapter and `w` its verse 0. -/
def Lowered (v w : BibleVerse) : Prop := w = v ∨ (v.verse = 1 ∧ w = ⟨v.book, v.chap, 0⟩)

/-- `r'` is the range `r`, or begins or ends with a verse 0 where `r` begins or ends with the verse 1; this only if `VERSE_0` is set
in `g` and not in `f`. -/
def Kept (f g : BibleFlag) (r r' : BibleRange) : Prop :=
  Lowered r.start r'.start ∧ Lowered r.stop r'.stop ∧ (f.verse0 = g.verse0 → r' = r)

end Bibleref.Spec

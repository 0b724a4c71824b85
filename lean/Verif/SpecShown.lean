import Verif.Spec
import Verif.Model.Str
import Verif.SpecText

/-!
# Specification vocabulary for what a string shows
-/

namespace Bibleref.Spec

/-- What is shown of a verse when these parts are asked for: the book, the chapter and the verse number. The chapter of a book
with one chapter is never shown. -/
def shown (d : BibleData) (p : Parts) (v : BibleVerse) : Option BibleBook × Option Int × Option Int :=
  (if p.book then some v.book else none, if p.chap ∧ nChaps d v.book ≠ 1 then some v.chap else none,
    if p.verse then some v.verse else none)

/-- The names shown for two books read as names, and are different if the books are. -/
structure NamesApart (u : Uni) (d : BibleData) (o : StrOpts) (b c : BibleBook) : Prop where
  left : IsName u d (shownAs d o b)
  right : IsName u d (shownAs d o c)
  apart : shownAs d o b = shownAs d o c → b = c

/-- With `nospace` no blank at all, otherwise no white space at the beginning or end. -/
def Tidy (u : Uni) (o : StrOpts) (s : List Char) : Prop :=
  if o.nospace then ' ' ∉ s
  else (∀ c, s.head? = some c → isSpace u c = false) ∧ ∀ c, s.getLast? = some c → isSpace u c = false

end Bibleref.Spec

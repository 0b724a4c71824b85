import Verif.Model.Str

/-!
# Specification: which parts of the Bible data matter

What it means that two sets of Bible data have the same verses, show a book the same way, or read names the same way.
-/

namespace Bibleref

/-- The same books in the same order, with the same chapters and verses. Names and separators may differ. -/
def SameVerses (d d' : BibleData) : Prop :=
  d.bookOrder = d'.bookOrder ∧ d.maxVerses = d'.maxVerses ∧ d.verse0s = d'.verse0s

/-- The book has the same title or, for short strings, the same abbreviation, or no name data in both. -/
def SameShown (d d' : BibleData) (short : Bool) (b : BibleBook) : Prop :=
  (d.nameData b).map (fun n => if short then n.abbr else n.title) =
    (d'.nameData b).map (fun n => if short then n.abbr else n.title)

/-- The separator between chapter and verse that a string is to show. -/
def verseSepShown (d : BibleData) (alt : Bool) : Char := if alt then d.verseSepAlt else d.verseSepStd

/-- The same separators. -/
def SameSeps (d d' : BibleData) : Prop :=
  d.rangeSep = d'.rangeSep ∧ d.majorListSep = d'.majorListSep ∧ d.minorListSep = d'.minorListSep ∧
    d.verseSepStd = d'.verseSepStd ∧ d.verseSepAlt = d'.verseSepAlt

/-- Each book has the same name data apart from the abbreviation. -/
def SameReadNames (d d' : BibleData) : Prop :=
  ∀ b, (d.nameData b).map (fun n => (n.title, n.minChars, n.extra)) =
    (d'.nameData b).map (fun n => (n.title, n.minChars, n.extra))

end Bibleref

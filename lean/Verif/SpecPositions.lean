import Verif.SpecText

/-!
# Specification vocabulary for the positions of errors
-/

namespace Bibleref.Spec

/-- The string fits the grammar. -/
def Fits (u : Uni) (d : BibleData) (s : List Char) : Prop := ∃ t, ListRule u d s t

/-- The string is right so far: it fits the grammar, or only a number is missing at the end. -/
def RightSoFar (u : Uni) (d : BibleData) (s : List Char) : Prop := Fits u d s ∨ Fits u d (s ++ ['1'])

/-- Nothing but ignored white space. -/
def AllWs (w : List Char) : Prop := ∀ c ∈ w, isWs c = true

/-- The name in a reference, if there is one, is known. -/
def NameKnown (u : Uni) (d : BibleData) : Single → Prop
  | .book name | .bookNum name _ | .bookChapVerse name _ _ => BibleBook.fromStr u d name ≠ none
  | .chapVerse _ _ | .num _ => True

/-- Reading the text `pre` before a reference leads from the parser's state `st` to `st'` without an exception. It is white space,
or a list of references, possibly with a list separator at its end, possibly followed by a range separator. -/
def ReadBefore (u : Uni) (e : Env) (flags : Option BibleFlag) (st : PState) (pre : List Char) (st' : PState) : Prop :=
  (AllWs pre ∧ st' = st) ∨
  ∃ list w groups, pre = list ++ w ∧ (AllWs w ∨ ∃ w1 w2, AllWs w1 ∧ AllWs w2 ∧ w = w1 ++ e.data.rangeSep :: w2) ∧
    parse u e flags list st = (.ok groups, st')

/-- The text is just what is wrong when read in the parser's state `st`: an unknown name; or one reference, with a known name if
it has one, that cannot be read; or two references with a range separator between them, each of which can be read, but not as a
range. -/
inductive Culprit (u : Uni) (e : Env) (flags : Option BibleFlag) (st : PState) : List Char → Prop
  | name {text} : IsName u e.data text → BibleBook.fromStr u e.data text = none → Culprit u e flags st text
  | single {text x} : SingleRule u e.data text x [] → (∀ c, text.head? = some c → isWs c = false) → NameKnown u e.data x →
      (parse u e flags text st).1 = .error .parsing → Culprit u e flags st text
  | dual {a w1 w2 b x y r r' st1 st2} : SingleRule u e.data a x [] → (∀ c, a.head? = some c → isWs c = false) → AllWs w1 → AllWs w2 →
      SingleRule u e.data b y [] → parse u e flags a st = (.ok [[r]], st1) → parse u e flags b st1 = (.ok [[r']], st2) →
      (parse u e flags (a ++ w1 ++ e.data.rangeSep :: w2 ++ b) st).1 = .error .parsing →
      Culprit u e flags st (a ++ w1 ++ e.data.rangeSep :: w2 ++ b)

end Bibleref.Spec

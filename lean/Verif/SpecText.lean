import Verif.Model.Parser

/-!
# Specification vocabulary for strings

What the properties of names and strings are stated with.
-/

namespace Bibleref.Spec

/-- What matters about a string that is meant to be a name: the letters without their case (`some`), and where there is white
space (`none`), but not how much. -/
def shape (u : Uni) : List Char → List (Option Char)
  | [] => []
  | c :: s => if isSpace u c then none :: (shape u s).dropWhile (· = none) else some (foldChar u c) :: shape u s

/-- The shape without white space at the beginning and the end. -/
def trim (w : List (Option Char)) : List (Option Char) :=
  ((w.dropWhile (· = none)).reverse.dropWhile (· = none)).reverse

/-- The shape of a name of the name data, which has blanks for white space. -/
def nameShape (u : Uni) (s : List Char) : List (Option Char) := s.map fun c => if c = ' ' then none else some (foldChar u c)

/-- A title in two parts: the ways its number, if it has one, may be written, and the title without the number. -/
def splitTitle (u : Uni) : List Char → List (List (Option Char)) × List Char
  | '1' :: ' ' :: s => ([nameShape u ['1'], nameShape u ['1', ' '], nameShape u ['I', ' ']], s)
  | '2' :: ' ' :: s => ([nameShape u ['2'], nameShape u ['2', ' '], nameShape u ['I', 'I', ' ']], s)
  | '3' :: ' ' :: s => ([nameShape u ['3'], nameShape u ['3', ' '], nameShape u ['I', 'I', 'I', ' ']], s)
  | s => ([[]], s)

/-- The list has been got from the other one by leaving out some of the white space. -/
inductive FewerBlanks : List (Option Char) → List (Option Char) → Prop
  | nil : FewerBlanks [] []
  | cons {x w w'} : FewerBlanks w w' → FewerBlanks (x :: w) (x :: w')
  | drop {w w'} : FewerBlanks w w' → FewerBlanks w (none :: w')

/-- What is accepted as a name according to one entry of the name data (data.py:274-277, 120-127): the title, of which only a
certain number of letters at the beginning are needed, and the extra abbreviations, of which no blank is needed. -/
def Accepted (u : Uni) (n : NameData) (w : List (Option Char)) : Prop :=
  (∃ p ∈ (splitTitle u n.title).1, ∃ k, n.minChars ≤ k ∧ w = p ++ nameShape u ((splitTitle u n.title).2.take k)) ∨
  (∃ a ∈ n.extra, FewerBlanks w (nameShape u a))

/-- No two blanks are next to each other. -/
def NoDoubleBlank : List Char → Prop
  | a :: b :: s => ¬ (a = ' ' ∧ b = ' ') ∧ NoDoubleBlank (b :: s)
  | _ => True

instance decNoDoubleBlank : (s : List Char) → Decidable (NoDoubleBlank s)
  | [] => isTrue trivial
  | [_] => isTrue trivial
  | a :: b :: s => by
    have := decNoDoubleBlank (b :: s)
    unfold NoDoubleBlank
    infer_instance

/-- Name data for which a pattern of blanks is what it looks like: nowhere two blanks in a row. -/
structure PlainNames (n : NameData) : Prop where
  title : NoDoubleBlank n.title
  extra : ∀ a ∈ n.extra, NoDoubleBlank a

/-- The first thing in the reference is a book's name. -/
def NamesBook : Ref → Prop
  | .single (.book _) | .single (.bookNum _ _) | .single (.bookChapVerse _ _ _) => True
  | .dual (.book _) _ | .dual (.bookNum _ _) _ | .dual (.bookChapVerse _ _ _) _ => True
  | _ => False

/-- The state some parses with any outcome, of any strings and with any flags, leave the parser in. -/
def afterParses (u : Uni) (e : Env) : List (Option BibleFlag × List Char) → PState
  | [] => PState.init
  | (flags, s) :: before => (RangeList.ofStr u e flags s (afterParses u e before)).2

/-- What the terminal for names matches: letters, digits and white space, beginning with a letter or digit, and at the end one
character that is not a digit, white space or a separator. -/
def IsName (u : Uni) (d : BibleData) (name : List Char) : Prop :=
  ∃ c mid x, name = c :: (mid ++ [x]) ∧ isWord u c = true ∧ (∀ y ∈ mid, isWord u y = true ∨ isSpace u y = true) ∧
    isDigit x = false ∧ isSpace u x = false ∧ x ∉ [d.verseSepStd, d.verseSepAlt, d.majorListSep, d.minorListSep, d.rangeSep]

/-- The name a string shows for a book: its title or its abbreviation, without blanks if there are to be no spaces. -/
def shownAs (d : BibleData) (o : StrOpts) (b : BibleBook) : List Char :=
  if o.nospace then removeBlanks (b.shownName d o) else b.shownName d o

/-- The name shown for a book reads as one, and as that of this book. -/
def NameReads (u : Uni) (d : BibleData) (o : StrOpts) (b : BibleBook) : Prop :=
  IsName u d (shownAs d o b) ∧ BibleBook.fromStr u d (shownAs d o b) = some b

/-! ## The grammar (parser.py:209-247) as rules -/

/-- The separators can be told apart from names, numbers and white space, and from each other; only the two verse separators
may be the same. -/
structure PlainSeps (u : Uni) (d : BibleData) : Prop where
  plain : ∀ c ∈ [d.rangeSep, d.majorListSep, d.minorListSep, d.verseSepStd, d.verseSepAlt],
    isWord u c = false ∧ isSpace u c = false
  range : d.rangeSep ∉ [d.majorListSep, d.minorListSep, d.verseSepStd, d.verseSepAlt]
  major : d.majorListSep ∉ [d.minorListSep, d.verseSepStd, d.verseSepAlt]
  minor : d.minorListSep ∉ [d.verseSepStd, d.verseSepAlt]

/-- The second string is the first one after some ignored white space. -/
def Skips (s s' : List Char) : Prop := ∃ w, (∀ c ∈ w, isWs c = true) ∧ s = w ++ s'

/-- The string begins with a number; all the digits are taken. -/
def NumTok (s : List Char) (n : Nat) (rest : List Char) : Prop :=
  ∃ ds, ds ≠ [] ∧ (∀ c ∈ ds, isDigit c = true) ∧ s = ds ++ rest ∧ (∀ c, rest.head? = some c → isDigit c = false) ∧
    n = digitsVal ds

/-- The string begins with a name; as much as possible is taken. -/
def NameTok (u : Uni) (d : BibleData) (s name rest : List Char) : Prop :=
  IsName u d name ∧ s = name ++ rest ∧ ∀ name' rest', IsName u d name' → s = name' ++ rest' → name'.length ≤ name.length

/-- `single_ref`: the string begins with such a reference, and this is the rest. -/
inductive SingleRule (u : Uni) (d : BibleData) : List Char → Single → List Char → Prop
  | book {s s1 name rest} : Skips s s1 → NameTok u d s1 name rest → SingleRule u d s (.book name) rest
  | bookNum {s s1 name s2 s3 n rest} : Skips s s1 → NameTok u d s1 name s2 → Skips s2 s3 → NumTok s3 n rest →
      SingleRule u d s (.bookNum name n) rest
  | bookChapVerse {s s1 name s2 s3 c s4 x s5 s6 v rest} : Skips s s1 → NameTok u d s1 name s2 → Skips s2 s3 →
      NumTok s3 c s4 → Skips s4 (x :: s5) → x = d.verseSepStd ∨ x = d.verseSepAlt → Skips s5 s6 → NumTok s6 v rest →
      SingleRule u d s (.bookChapVerse name c v) rest
  | chapVerse {s s3 c s4 x s5 s6 v rest} : Skips s s3 → NumTok s3 c s4 → Skips s4 (x :: s5) →
      x = d.verseSepStd ∨ x = d.verseSepAlt → Skips s5 s6 → NumTok s6 v rest → SingleRule u d s (.chapVerse c v) rest
  | num {s s3 n rest} : Skips s s3 → NumTok s3 n rest → SingleRule u d s (.num n) rest

/-- `bible_ref`. -/
inductive RefRule (u : Uni) (d : BibleData) : List Char → Ref → List Char → Prop
  | single {s a rest} : SingleRule u d s a rest → RefRule u d s (.single a) rest
  | dual {s a s1 s2 b rest} : SingleRule u d s a s1 → Skips s1 (d.rangeSep :: s2) → SingleRule u d s2 b rest →
      RefRule u d s (.dual a b) rest

/-- `list_sep`. -/
def listSep (d : BibleData) (major : Bool) : Char := if major then d.majorListSep else d.minorListSep

/-- What comes after the first reference of a `ref_list`, up to the end of the string. -/
inductive RestRule (u : Uni) (d : BibleData) : List Char → List (Bool × Ref) → Option Bool → Prop
  | done {s} : Skips s [] → RestRule u d s [] none
  | trailing {s m s1} : Skips s (listSep d m :: s1) → Skips s1 [] → RestRule u d s [] (some m)
  | cons {s m s1 r s2 l t} : Skips s (listSep d m :: s1) → RefRule u d s1 r s2 → RestRule u d s2 l t →
      RestRule u d s ((m, r) :: l) t

/-- `ref_list`: the whole string is a list of references with this tree. -/
def ListRule (u : Uni) (d : BibleData) (s : List Char) (t : Tree) : Prop :=
  ∃ s1, RefRule u d s t.first s1 ∧ RestRule u d s1 t.rest t.trailing

end Bibleref.Spec

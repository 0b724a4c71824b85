import Verif.Model.Book

/-!
# Characters, names of books

Model of the regular expressions that recognise names of books (`src/bibleref/data.py:120-170`) and of `BibleBook.from_str`
(`src/bibleref/ref.py:126-146`). Strings are lists of characters.

What Python's `str` and `re` do with a character depends on the Unicode tables. For the characters below 128 they are written
out here; for all others they are a parameter, `Uni`, about which nothing is assumed.
-/

namespace Bibleref

/-- Unicode's say about characters from 128 on: whether they match `\w`, whether they match `\s` (and are removed by `strip`),
and the lower case letter they are equal to when case is ignored. -/
structure Uni where
  word : Char → Bool
  space : Char → Bool
  fold : Char → Char

/-- A digit, `[0-9]`. -/
def isDigit (c : Char) : Bool := decide (48 ≤ c.toNat) && decide (c.toNat ≤ 57)

/-- A capital letter below 128. -/
def isUpper (c : Char) : Bool := decide (65 ≤ c.toNat) && decide (c.toNat ≤ 90)

/-- A small letter below 128. -/
def isLower (c : Char) : Bool := decide (97 ≤ c.toNat) && decide (c.toNat ≤ 122)

/-- Matching `\s` (Python documentation of `re`, and `str.isspace`): tab to carriage return, the four separators, and blank. -/
def isSpace (u : Uni) (c : Char) : Bool :=
  if c.toNat < 128 then
    (decide (9 ≤ c.toNat) && decide (c.toNat ≤ 13)) || (decide (28 ≤ c.toNat) && decide (c.toNat ≤ 32))
  else u.space c

/-- Matching `\w`: letters, digits and the underscore. White space never does. -/
def isWord (u : Uni) (c : Char) : Bool :=
  if c.toNat < 128 then isDigit c || isUpper c || isLower c || decide (c = '_') else u.word c && !u.space c

/-- Capital letters below 128 made small. -/
def lower (c : Char) : Char := if isUpper c then Char.ofNat (c.toNat + 32) else c

/-- The character in lower case, as `re.IGNORECASE` compares it. -/
def foldChar (u : Uni) (c : Char) : Char := if c.toNat < 128 then lower c else u.fold c

/-- `str.strip` (ref.py:134 and others). -/
def strip (u : Uni) (s : List Char) : List Char :=
  ((s.dropWhile (isSpace u)).reverse.dropWhile (isSpace u)).reverse

/-- The regular expressions that occur: a character, `\s*`, `\s+`, sequence, alternative, `(...)?`. -/
inductive Rx where
  | eps
  | char (c : Char)
  | spaces
  | spaces1
  | seq (a b : Rx)
  | alt (a b : Rx)
  | opt (a : Rx)
  deriving DecidableEq, Repr

/-- Matching `\s*` before `k`. -/
def runSpaces (u : Uni) (k : List Char → Bool) : List Char → Bool
  | [] => k []
  | c :: s => k (c :: s) || (isSpace u c && runSpaces u k s)

/-- Whether a prefix of the string matches so that `k` accepts the rest: all ways of matching are tried. Case is ignored
(data.py:170). A character never matches white space: the only white space in names is the blank, which has been replaced. -/
def Rx.run (u : Uni) : Rx → (List Char → Bool) → List Char → Bool
  | .eps, k, s => k s
  | .char _, _, [] => false
  | .char p, k, c :: s => !isSpace u c && decide (foldChar u c = foldChar u p) && k s
  | .spaces, k, s => runSpaces u k s
  | .spaces1, _, [] => false
  | .spaces1, k, c :: s => isSpace u c && runSpaces u k s
  | .seq a b, k, s => a.run u (b.run u k) s
  | .alt a b, k, s => a.run u k s || b.run u k s
  | .opt a, k, s => a.run u k s || k s

/-- `regex.fullmatch(string) is not None` (ref.py:137). -/
def Rx.fullmatch (u : Uni) (r : Rx) (s : List Char) : Bool := r.run u List.isEmpty s

/-- A character of a full title: spaces have been replaced by `\s+` (data.py:162). The titles are supposed to have no
characters that are special in regular expressions. -/
def titleChar (c : Char) : Rx := if c = ' ' then .spaces1 else .char c

/-- A character of an extra abbreviation: spaces have been replaced by `\s*` (data.py:168). -/
def extraChar (c : Char) : Rx := if c = ' ' then .spaces else .char c

/-- The optional characters of the title (data.py:157-159): `(a(b(c)?)?)?`. -/
def optTail : List Char → Rx
  | [] => .eps
  | c :: s => .opt (.seq (titleChar c) (optTail s))

/-- A sequence of characters. -/
def seqOf (f : Char → Rx) : List Char → Rx
  | [] => .eps
  | c :: s => .seq (f c) (seqOf f s)

/-- The numeric prefix of a title (data.py:144-149), and the title without it. -/
def titlePrefix : List Char → Rx × List Char
  | '1' :: ' ' :: s => (.alt (.seq (.char '1') .spaces) (.seq (.char 'I') .spaces1), s)
  | '2' :: ' ' :: s => (.alt (.seq (.char '2') .spaces) (.seq (.char 'I') (.seq (.char 'I') .spaces1)), s)
  | '3' :: ' ' :: s => (.alt (.seq (.char '3') .spaces) (.seq (.char 'I') (.seq (.char 'I') (.seq (.char 'I') .spaces1))), s)
  | s => (.eps, s)

/-- The pattern for the full title (data.py:135-162). -/
def titleRx (title : List Char) (minChars : Nat) : Rx :=
  let (p, s) := titlePrefix title
  .seq p (.seq (seqOf titleChar (s.take minChars)) (optTail (s.drop minChars)))

/-- The regular expression of a book (data.py:120-170): the title and the extra abbreviations as alternatives. -/
def nameRx (n : NameData) : Rx := n.extra.foldl (fun r a => .alt r (seqOf extraChar a)) (titleRx n.title n.minChars)

/-- Whether the book's regular expression matches the whole string (ref.py:137); a book without name data has none
(data.py:129-131). -/
def BibleBook.matchesName (u : Uni) (d : BibleData) (b : BibleBook) (s : List Char) : Bool :=
  match d.nameData b with
  | none => false
  | some n => (nameRx n).fullmatch u s

/-- `BibleBook.from_str` with `raise_error=False` (ref.py:126-146): the first book in the order of definition that matches. -/
def BibleBook.fromStr (u : Uni) (d : BibleData) (s : List Char) : Option BibleBook :=
  BibleBook.all.find? fun b => b.matchesName u d (strip u s)

/-- `BibleBook.from_str` with `raise_error=True` (ref.py:140-144). -/
def BibleBook.fromStrE (u : Uni) (d : BibleData) (s : List Char) : Except PyErr BibleBook :=
  match BibleBook.fromStr u d s with
  | some b => .ok b
  | none => .error .invalidReference

end Bibleref

import Verif.Spec
import Verif.SpecText

/-!
# What a reference string means

As the section "List Grouping" of README.md has it. Everything is defined by looking back at the text, not by what the parser
remembers.
-/

namespace Bibleref.Spec

/-- What a string consists of: single references, list separators and range separators. -/
inductive Piece where
  | ref (x : Single)
  | sep (major : Bool)
  | dash
  deriving DecidableEq, Repr

/-- The book a single reference names. -/
def namedBook (u : Uni) (d : BibleData) : Single → Option BibleBook
  | .book name | .bookNum name _ | .bookChapVerse name _ _ => BibleBook.fromStr u d name
  | .chapVerse _ _ | .num _ => none

/-- The book that was named last. Like in the following definitions, the text is given backwards, with the last piece first. -/
def lastBook (u : Uni) (d : BibleData) : List Piece → Option BibleBook
  | [] => none
  | .ref x :: before => (namedBook u d x).or (lastBook u d before)
  | .sep _ :: before | .dash :: before => lastBook u d before

/-- The chapter that was last given together with a verse. -/
def lastChap : List Piece → Option Nat
  | [] => none
  | .ref (.bookChapVerse _ c _) :: _ | .ref (.chapVerse c _) :: _ => some c
  | .ref (.book _) :: before | .ref (.bookNum _ _) :: before | .ref (.num _) :: before | .sep _ :: before | .dash :: before =>
    lastChap before

/-- Whether a bare number means a verse: after a chapter with a verse it does, and after a bare number it means the same as that
one; but after a major list separator, or a book's name with or without a number, it means a chapter. -/
def meansVerse : List Piece → Bool
  | [] => false
  | .sep true :: _ => false
  | .sep false :: before | .dash :: before => meansVerse before
  | .ref (.bookChapVerse _ _ _) :: _ | .ref (.chapVerse _ _) :: _ => true
  | .ref (.book _) :: _ | .ref (.bookNum _ _) :: _ => false
  | .ref (.num _) :: before => meansVerse before

/-- A reference written out in full. -/
structure Full where
  book : BibleBook
  chap : Option Int
  verse : Option Int
  deriving DecidableEq, Repr

/-- A number after a book's name: a chapter, but a verse in a book of one chapter. -/
def numberIn (d : BibleData) (b : BibleBook) (n : Nat) : Full :=
  if (chapters d b).length = 1 then ⟨b, some 1, some n⟩ else ⟨b, some n, none⟩

/-- The single reference written out in full, given the text before it. -/
def fullRef (u : Uni) (d : BibleData) (before : List Piece) : Single → Option Full
  | .book name => (BibleBook.fromStr u d name).map fun b => ⟨b, none, none⟩
  | .bookNum name n => (BibleBook.fromStr u d name).map fun b => numberIn d b n
  | .bookChapVerse name c v => (BibleBook.fromStr u d name).map fun b => ⟨b, some c, some v⟩
  | .chapVerse c v => (lastBook u d before).map fun b => ⟨b, some c, some v⟩
  | .num n => (lastBook u d before).map fun b =>
      if (chapters d b).length = 1 ∨ meansVerse before = false then numberIn d b n
      else ⟨b, (lastChap before).map Int.ofNat, some n⟩

/-- The range of a full reference: from the first to the last verse with its book, chapter and verse number. -/
def fullRange (d : BibleData) (v0 : Bool) (w : Full) : Option BibleRange :=
  match firstOf d v0 w.book w.chap w.verse, lastOf d v0 w.book w.chap w.verse with
  | some s, some t => some ⟨s, t⟩
  | _, _ => none

/-- The meaning of a single reference. -/
def singleMeaning (u : Uni) (d : BibleData) (f : BibleFlag) (before : List Piece) (x : Single) : Option BibleRange :=
  (fullRef u d before x).bind (fullRange d f.verse0)

/-- Two references with a range separator between them: from the first verse of the first one to the last verse of the second one,
or backwards if this comes first. They must lie in one book if `MULTIBOOK` is not set. -/
def joined (d : BibleData) (f : BibleFlag) (r r' : BibleRange) : Option BibleRange :=
  if f.multibook = true ∨ r.start.book = r'.stop.book then
    some (if pos d r.start ≤ pos d r'.stop then ⟨r.start, r'.stop⟩ else ⟨r'.stop, r.start⟩)
  else none

/-- The meaning of one or two references. -/
def refMeaning (u : Uni) (d : BibleData) (f : BibleFlag) (before : List Piece) : Ref → Option BibleRange
  | .single x => singleMeaning u d f before x
  | .dual x y => (singleMeaning u d f before x).bind fun r =>
      (singleMeaning u d f (.dash :: .ref x :: before) y).bind fun r' => joined d f r r'

/-- The text up to the end of one or two references, backwards. -/
def upTo (before : List Piece) : Ref → List Piece
  | .single x => .ref x :: before
  | .dual x y => .ref y :: .dash :: .ref x :: before

/-- The text up to the end of a list of references, backwards. -/
def upToRest (before : List Piece) : List (Bool × Ref) → List Piece
  | [] => before
  | (major, r) :: l => upToRest (upTo (.sep major :: before) r) l

/-- The meanings of references with a list separator before each. -/
def restMeaning (u : Uni) (d : BibleData) (f : BibleFlag) (before : List Piece) :
    List (Bool × Ref) → Option (List (Bool × BibleRange))
  | [] => some []
  | (major, r) :: l => (refMeaning u d f (.sep major :: before) r).bind fun x =>
      (restMeaning u d f (upTo (.sep major :: before) r) l).map fun xs => (major, x) :: xs

/-- Ranges in groups: a new group begins with each range that has the major list separator before it. -/
def inGroups (x : BibleRange) : List (Bool × BibleRange) → List (List BibleRange)
  | [] => [[x]]
  | (true, y) :: l => [x] :: inGroups y l
  | (false, y) :: l => match inGroups y l with
    | [] => [[x]]
    | g :: gs => (x :: g) :: gs

/-- The meaning of a whole string, possibly with text before it. -/
def meaning (u : Uni) (d : BibleData) (f : BibleFlag) (before : List Piece) (t : Tree) : Option (List (List BibleRange)) :=
  (refMeaning u d f before t.first).bind fun x =>
    (restMeaning u d f (upTo before t.first) t.rest).map fun l => inGroups x l

/-- The whole string, after the text before it, backwards. -/
def allOf (before : List Piece) (t : Tree) : List Piece :=
  let l := upToRest (upTo before t.first) t.rest
  match t.trailing with
  | none => l
  | some major => .sep major :: l

/-! ## Text that cannot be read -/

/-- What counts of a single reference for the text after it: nothing if no full reference can be made of it. -/
def heardSingle (u : Uni) (d : BibleData) (before : List Piece) (x : Single) : List Piece :=
  match fullRef u d before x with
  | none => before
  | some _ => .ref x :: before

/-- What counts of one or two references: the text up to the first one without a meaning. -/
def heardRef (u : Uni) (d : BibleData) (f : BibleFlag) (before : List Piece) : Ref → List Piece
  | .single x => heardSingle u d before x
  | .dual x y => match singleMeaning u d f before x with
    | none => heardSingle u d before x
    | some _ => heardSingle u d (.dash :: .ref x :: before) y

/-- What counts of references with a list separator before each. -/
def heardRest (u : Uni) (d : BibleData) (f : BibleFlag) (before : List Piece) : List (Bool × Ref) → List Piece
  | [] => before
  | (major, r) :: l => match refMeaning u d f (.sep major :: before) r with
    | none => heardRef u d f (.sep major :: before) r
    | some _ => heardRest u d f (upTo (.sep major :: before) r) l

/-- What counts of a whole string. -/
def heardTree (u : Uni) (d : BibleData) (f : BibleFlag) (before : List Piece) (t : Tree) : List Piece :=
  match refMeaning u d f before t.first, restMeaning u d f (upTo before t.first) t.rest with
  | none, _ => heardRef u d f before t.first
  | some _, none => heardRest u d f (upTo before t.first) t.rest
  | some _, some _ => allOf before t

/-- What counts of a sequence of strings, the latest first, each with its flags. Strings that do not fit the grammar do not count. -/
inductive Heard (u : Uni) (e : Env) : List (Option BibleFlag × List Char) → List Piece → Prop
  | none : Heard u e [] []
  | fits {hist before flags s t} : Heard u e hist before → ListRule u e.data s t →
      Heard u e ((flags, s) :: hist) (heardTree u e.data (inForce e flags) before t)
  | unfit {hist before flags s} : Heard u e hist before → (∀ t, ¬ ListRule u e.data s t) → Heard u e ((flags, s) :: hist) before

end Bibleref.Spec

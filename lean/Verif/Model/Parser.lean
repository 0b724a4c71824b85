import Verif.Model.Str

/-!
# Parsing

Model of `src/bibleref/parser.py` and of the constructors that take a string (`src/bibleref/ref.py:322-329, 676-683,
1232-1239`).

The grammar (parser.py:209-247) is given to Lark, whose default is an Earley parser with a dynamic lexer: where the grammar
expects a terminal, Lark takes the match of the terminal's regular expression at the current position, or at the position
after a run of ignored white space. `parseTree` is a recursive descent parser for that. That it finds exactly the derivations
of the grammar is proved in `Verif/Props/Grammar.lean`; that Lark does is trusted. The text positions in error objects
are in `Verif/Model/Positions.lean`. `int(token)` is taken to accept digit strings of any length (CPython refuses more than 4300 digits).
-/

namespace Bibleref

/-! ## Terminals -/

/-- A character of the terminal `WS` of Lark's common library (parser.py:244): `[ \t\f\r\n]`. -/
def isWs (c : Char) : Bool := c = ' ' || c = '\t' || c = '\x0c' || c = '\r' || c = '\n'

/-- Skip ignored white space (parser.py:246). -/
def skipWs (s : List Char) : List Char := s.dropWhile isWs

/-- The value of a digit. -/
def digitVal (c : Char) : Nat := c.toNat - 48

/-- `int(token)` (parser.py:199-200) for a string of digits. -/
def digitsVal (s : List Char) : Nat := s.foldl (fun n c => 10 * n + digitVal c) 0

/-- The terminal `NUM` (parser.py:230, 245), `[0-9]+`: the number and the rest of the string. -/
def lexNum (s : List Char) : Option (Nat × List Char) :=
  if (s.takeWhile isDigit).isEmpty then none else some (digitsVal (s.takeWhile isDigit), s.dropWhile isDigit)

/-- A character a name may end in (parser.py:238): anything but digits, white space and the separators. -/
def isNameEnd (u : Uni) (d : BibleData) (c : Char) : Bool :=
  !isDigit c && !isSpace u c && c ≠ d.verseSepStd && c ≠ d.verseSepAlt && c ≠ d.majorListSep && c ≠ d.minorListSep &&
  c ≠ d.rangeSep

/-- The part of the terminal `BOOK_NAME` after its first character (parser.py:238): the longest match, as the regular
expression is greedy. -/
def lexNameTail (u : Uni) (d : BibleData) : List Char → Option (List Char × List Char)
  | [] => none
  | c :: s =>
    let here := if isNameEnd u d c then some ([c], s) else none
    if isWord u c || isSpace u c then
      match lexNameTail u d s with
      | some (name, rest) => some (c :: name, rest)
      | none => here
    else here

/-- The terminal `BOOK_NAME` (parser.py:238): the name and the rest of the string. -/
def lexName (u : Uni) (d : BibleData) : List Char → Option (List Char × List Char)
  | [] => none
  | c :: s => if isWord u c then (lexNameTail u d s).map fun (name, rest) => (c :: name, rest) else none

/-- A terminal that is one of some characters (parser.py:232-236): the rest of the string. -/
def lexChar (p : Char → Bool) : List Char → Option (List Char)
  | [] => none
  | c :: s => if p c then some s else none

/-! ## Trees -/

/-- The rule `single_ref` (parser.py:218-228) with the tokens' texts: a name, numbers. -/
inductive Single where
  | book (name : List Char)
  | bookNum (name : List Char) (num : Nat)
  | bookChapVerse (name : List Char) (chap verse : Nat)
  | chapVerse (chap verse : Nat)
  | num (num : Nat)
  deriving DecidableEq, Repr

/-- The rule `bible_ref` (parser.py:214-216). -/
inductive Ref where
  | single (a : Single)
  | dual (a b : Single)
  deriving DecidableEq, Repr

/-- The rule `ref_list` (parser.py:212): the first reference, the further ones each with whether the separator before it is the
major one, and possibly a last separator. -/
structure Tree where
  first : Ref
  rest : List (Bool × Ref)
  trailing : Option Bool
  deriving DecidableEq, Repr

/-- A verse separator (parser.py:236). -/
def isVerseSep (d : BibleData) (c : Char) : Bool := c = d.verseSepStd || c = d.verseSepAlt

/-- `VERSE_SEP NUM`, if the next terminal is `VERSE_SEP`. The result is `none` when a verse separator is not followed by a
number. -/
def parseVerse (d : BibleData) (s : List Char) : Option (Option Nat × List Char) :=
  match lexChar (isVerseSep d) (skipWs s) with
  | none => some (none, s)
  | some s => (lexNum (skipWs s)).map fun (n, s) => (some n, s)

/-- The rule `single_ref` (parser.py:218-228). -/
def parseSingle (u : Uni) (d : BibleData) (s : List Char) : Option (Single × List Char) :=
  match lexName u d (skipWs s) with
  | some (name, s) =>
    match lexNum (skipWs s) with
    | none => some (.book name, s)
    | some (n, s) => (parseVerse d s).map fun
      | (none, s) => (.bookNum name n, s)
      | (some v, s) => (.bookChapVerse name n v, s)
  | none => match lexNum (skipWs s) with
    | none => none
    | some (n, s) => (parseVerse d s).map fun
      | (none, s) => (.num n, s)
      | (some v, s) => (.chapVerse n v, s)

/-- The rule `bible_ref` (parser.py:214-216). -/
def parseRef (u : Uni) (d : BibleData) (s : List Char) : Option (Ref × List Char) :=
  match parseSingle u d s with
  | none => none
  | some (a, s) => match lexChar (· = d.rangeSep) (skipWs s) with
    | none => some (.single a, s)
    | some s => (parseSingle u d s).map fun (b, s) => (.dual a b, s)

/-- The rule `list_sep` (parser.py:233-235): whether it is the major one. -/
def lexListSep (d : BibleData) (s : List Char) : Option (Bool × List Char) :=
  match lexChar (· = d.majorListSep) s with
  | some s => some (true, s)
  | none => (lexChar (· = d.minorListSep) s).map fun s => (false, s)

/-- The part of `ref_list` after the first reference (parser.py:212), up to the end of the string. One unit of fuel per
separator. -/
def parseRest (u : Uni) (d : BibleData) : Nat → List Char → Option (List (Bool × Ref) × Option Bool)
  | fuel, s => match skipWs s with
    | [] => some ([], none)
    | c :: s' => match lexListSep d (c :: s'), fuel with
      | none, _ => none
      | some _, 0 => none
      | some (major, s), fuel + 1 => match skipWs s with
        | [] => some ([], some major)
        | _ :: _ => match parseRef u d s with
          | none => none
          | some (r, s) => (parseRest u d fuel s).map fun (l, t) => ((major, r) :: l, t)

/-- `_parser().parse(string)` (parser.py:45): the tree, or `none` for Lark's `UnexpectedInput`. -/
def parseTree (u : Uni) (d : BibleData) (s : List Char) : Option Tree :=
  match parseRef u d s with
  | none => none
  | some (r, rest) => (parseRest u d rest.length rest).map fun (l, t) => ⟨r, l, t⟩

/-! ## From trees to ranges -/

/-- The attributes of the `_BibleRefTransformer` singleton (parser.py:68-73) apart from its flags, which are set before each
use. They keep their values from one parse to the next. -/
structure PState where
  book : Option BibleBook
  chap : Option Int
  atVerse : Bool
  deriving DecidableEq, Repr

/-- The attributes of a new transformer (parser.py:70-72). -/
def PState.init : PState := ⟨none, none, false⟩

/-- Any exception but a parsing error is turned into one (e.g. parser.py:102-103). -/
def asParsing {α : Type} : Except PyErr α → Except PyErr α
  | .ok a => .ok a
  | .error _ => .error .parsing

/-- A callback of the transformer: it may change the attributes even when it raises an exception. -/
abbrev PM (α : Type) := PState → Except PyErr α × PState

/-- Sequence of callbacks. -/
def PM.bind {α β : Type} (m : PM α) (f : α → PM β) : PM β := fun s =>
  match m s with
  | (.ok a, s) => f a s
  | (.error err, s) => (.error err, s)

instance : Monad PM where
  pure a := fun s => (.ok a, s)
  bind := PM.bind

/-- `raise`. -/
def PM.raise {α : Type} (err : PyErr) : PM α := fun s => (.error err, s)

/-- A computation that does not look at the attributes. -/
def PM.lift {α : Type} (x : Except PyErr α) : PM α := fun s => (x, s)

/-- Read the attributes. -/
def PM.get : PM PState := fun s => (.ok s, s)

/-- Set the attributes. -/
def PM.set (s : PState) : PM Unit := fun _ => (.ok (), s)

/-- The callback `BOOK_NAME` (parser.py:192-197). -/
def nameCallback (u : Uni) (d : BibleData) (name : List Char) : PM BibleBook :=
  match BibleBook.fromStr u d name with
  | none => PM.raise .parsing
  | some b => pure b

/-- `ref.BibleRange(book, chap, verse, flags=self.flags)` with the exceptions of the callbacks (e.g. parser.py:142-145). -/
def oneRange (e : Env) (f : BibleFlag) (b : BibleBook) (c v : Option Int) : PM BibleRange :=
  PM.lift (asParsing (BibleRange.ofArgs e (some b) c v none none none (some f)))

/-- The callbacks for a `single_ref` and its tokens: `book_only_ref` (parser.py:106-114), `book_num_ref`
(parser.py:116-133), `book_chap_verse_ref` (parser.py:135-146), `chap_verse_ref` (parser.py:148-160) and `num_only_ref`
(parser.py:162-182). -/
def evalSingle (u : Uni) (e : Env) (f : BibleFlag) : Single → PM BibleRange
  | .book name => do
    let b ← nameCallback u e.data name
    let s ← PM.get
    PM.set { s with book := some b, atVerse := false }
    oneRange e f b none none
  | .bookNum name n => do
    let b ← nameCallback u e.data name
    let s ← PM.get
    if b.chapCount e.data = 1 then
      PM.set ⟨some b, some (b.minChapNum e.data), true⟩
      oneRange e f b (some (b.minChapNum e.data)) (some n)
    else
      PM.set { s with book := some b, chap := some (n : Int), atVerse := false }
      oneRange e f b (some n) none
  | .bookChapVerse name c v => do
    let b ← nameCallback u e.data name
    PM.set ⟨some b, some (c : Int), true⟩
    oneRange e f b (some c) (some v)
  | .chapVerse c v => do
    let s ← PM.get
    match s.book with
    | none => PM.raise .parsing
    | some b =>
      PM.set ⟨some b, some (c : Int), true⟩
      oneRange e f b (some c) (some v)
  | .num n => do
    let s ← PM.get
    match s.book with
    | none => PM.raise .parsing
    | some b =>
      if b.chapCount e.data = 1 then
        PM.set { s with chap := some (b.minChapNum e.data) }
        oneRange e f b (some (b.minChapNum e.data)) (some n)
      else if s.atVerse then
        match s.chap with
        | none => PM.raise .parsing
        | some c => oneRange e f b (some c) (some n)
      else oneRange e f b (some n) none

/-- The callbacks for a `bible_ref`; for two references `dual_ref` (parser.py:93-104). -/
def evalRef (u : Uni) (e : Env) (f : BibleFlag) : Ref → PM BibleRange
  | .single a => evalSingle u e f a
  | .dual a b => do
    let first ← evalSingle u e f a
    let second ← evalSingle u e f b
    PM.lift (asParsing (BibleRange.ofArgs e (some first.start.book) (some first.start.chap) (some first.start.verse)
      (some second.stop.book) (some second.stop.chap) (some second.stop.verse) (some f)))

/-- The callbacks `MAJOR_LIST_SEP` and `MINOR_LIST_SEP` (parser.py:184-190). -/
def evalSep (major : Bool) : PM Unit := do
  let s ← PM.get
  PM.set (if major then { s with atVerse := false } else s)

/-- The children of `ref_list` after the first one, transformed from left to right: the ranges, each with whether the
separator before it is the major one. -/
def evalRest (u : Uni) (e : Env) (f : BibleFlag) : List (Bool × Ref) → PM (List (Bool × BibleRange))
  | [] => pure []
  | (major, r) :: l => do
    evalSep major
    let x ← evalRef u e f r
    let rest ← evalRest u e f l
    return (major, x) :: rest

/-- One round of the loop of `ref_list` (parser.py:79-87) for a separator and the range after it. The state is `parent_list`
and `group_list`; `group_list` is never empty here, so a major separator always closes it. -/
def groupStep (s : List (List BibleRange) × List BibleRange) (x : Bool × BibleRange) :
    List (List BibleRange) × List BibleRange :=
  if x.1 then (s.1 ++ [s.2], [x.2]) else (s.1, s.2 ++ [x.2])

/-- The callback `ref_list` (parser.py:75-91): the list of groups. -/
def groupUp (r : BibleRange) (l : List (Bool × BibleRange)) : List (List BibleRange) :=
  let s := l.foldl groupStep ([], [r])
  s.1 ++ [s.2]

/-- `_transformer().transform(tree)` (parser.py:57). -/
def evalTree (u : Uni) (e : Env) (f : BibleFlag) (t : Tree) : PM (List (List BibleRange)) := do
  let r ← evalRef u e f t.first
  let l ← evalRest u e f t.rest
  match t.trailing with
  | none => pure ()
  | some major => evalSep major
  return groupUp r l

/-- `_parse` (parser.py:42-60). When the string does not fit the grammar the transformer is not used. -/
def parse (u : Uni) (e : Env) (flags : Option BibleFlag) (s : List Char) : PM (List (List BibleRange)) :=
  match parseTree u e.data s with
  | none => PM.raise .parsing
  | some t => evalTree u e (e.eff flags) t

/-- `BibleRangeList(string, flags=flags)` (ref.py:1232-1239). -/
def RangeList.ofStr (u : Uni) (e : Env) (flags : Option BibleFlag) (s : List Char) : PM RangeList := do
  let groups ← parse u e (some (e.eff flags)) s
  return RangeList.ofNested groups

/-- `BibleVerse(string, flags=flags)` (ref.py:322-329). -/
def BibleVerse.ofStr (u : Uni) (e : Env) (flags : Option BibleFlag) (s : List Char) : PM BibleVerse := do
  let l ← RangeList.ofStr u e flags s
  match l.flatten with
  | [r] => if r.isSingleVerse then pure r.start else PM.raise .invalidReference
  | _ => PM.raise .invalidReference

/-- `BibleRange(string, flags=flags)` (ref.py:664, 676-683). -/
def BibleRange.ofStr (u : Uni) (e : Env) (flags : Option BibleFlag) (s : List Char) : PM BibleRange := do
  let l ← RangeList.ofStr u e (some (e.eff flags)) s
  match l.flatten with
  | [r] => pure r
  | _ => PM.raise .invalidReference

end Bibleref

import Verif.Model.Parser

/-!
# Positions in parsing errors

`_parse` once more (`src/bibleref/parser.py:42-200`), now with the positions that `BibleRefParsingError` objects carry
(`src/bibleref/ref.py:1862-1873`). A tree of Lark begins where its first token begins and ends where its last token ends
(`propagate_positions`, parser.py:248). When a string does not fit the grammar, Lark raises an `UnexpectedInput` whose
`pos_in_stream` is the furthest position it has reached by reading tokens and ignored white space, or -1 if that is the end of
the string (`UnexpectedEOF`). What Lark reads is written as a small machine here: `scan` takes every terminal that the grammar
allows next.
-/

namespace Bibleref

/-! ## What Lark can read -/

/-- A place in the grammar (parser.py:210-228): what may come next. `second` means after a `RANGE_SEP`. -/
inductive Place where
  /-- at the beginning of a `single_ref` -/
  | ref (second : Bool)
  /-- after a `list_sep` -/
  | item
  /-- after a `BOOK_NAME` -/
  | book (second : Bool)
  /-- after the first `NUM` of a `single_ref` -/
  | num (second : Bool)
  /-- after a `VERSE_SEP` -/
  | sep (second : Bool)
  /-- after the `NUM` after a `VERSE_SEP` -/
  | verse (second : Bool)
  deriving DecidableEq, Repr

/-- A terminal that is one character (parser.py:232-236), as a step of the machine. -/
def scanChar (p : Char → Bool) (q : Place) (s : List Char) : List (Place × List Char) :=
  match lexChar p s with
  | none => []
  | some s => [(q, s)]

/-- The terminal `NUM` (parser.py:230), as a step of the machine. -/
def scanNum (q : Place) (s : List Char) : List (Place × List Char) :=
  match lexNum s with
  | none => []
  | some (_, s) => [(q, s)]

/-- The terminal `BOOK_NAME` (parser.py:238), as a step of the machine. -/
def scanName (u : Uni) (d : BibleData) (q : Place) (s : List Char) : List (Place × List Char) :=
  match lexName u d s with
  | none => []
  | some (_, s) => [(q, s)]

/-- Ignored white space (parser.py:246), as a step of the machine. -/
def scanWs (q : Place) (s : List Char) : List (Place × List Char) :=
  if (s.takeWhile isWs).isEmpty then [] else [(q, s.dropWhile isWs)]

/-- What may come after a `single_ref` (parser.py:212-216): a `list_sep`, and after the first one also a `RANGE_SEP`. -/
def scanEnd (d : BibleData) (second : Bool) (s : List Char) : List (Place × List Char) :=
  (if second then [] else scanChar (· = d.rangeSep) (.ref true) s) ++ scanChar (· = d.majorListSep) .item s ++
  scanChar (· = d.minorListSep) .item s

/-- The terminals that the grammar (parser.py:210-236) allows next and that match here: what may come next then, and the rest of the
string. -/
def scan (u : Uni) (d : BibleData) (q : Place) (s : List Char) : List (Place × List Char) :=
  scanWs q s ++ match q with
  | .ref second => scanName u d (.book second) s ++ scanNum (.num second) s
  | .item => scanName u d (.book false) s ++ scanNum (.num false) s
  | .book second => scanNum (.num second) s ++ scanEnd d second s
  | .num second => scanChar (isVerseSep d) (.sep second) s ++ scanEnd d second s
  | .sep second => scanNum (.verse second) s
  | .verse second => scanEnd d second s

/-- How much is left of the string in the place reached by reading as much as possible (at most `fuel` terminals). -/
def leftOver (u : Uni) (d : BibleData) : Nat → Place → List Char → Nat
  | 0, _, s => s.length
  | fuel + 1, q, s => ((scan u d q s).map fun x => leftOver u d fuel x.1 x.2).foldl min s.length

/-- `start_pos` and `end_pos` for a string that does not fit the grammar (parser.py:46-50). -/
def unexpectedAt (u : Uni) (d : BibleData) (s : List Char) : Int × Int :=
  let left := leftOver u d s.length (.ref false) s
  let pos : Int := if left = 0 then -1 else s.length - left
  (pos, pos + 1)

/-! ## Trees with positions -/

/-- A `single_ref` with the positions of its first character and after its last one. -/
structure LSingle where
  ref : Single
  start : Nat
  stop : Nat
  deriving DecidableEq, Repr

/-- A `bible_ref` with positions. -/
inductive LRef where
  | single (a : LSingle)
  | dual (a b : LSingle)
  deriving DecidableEq, Repr

/-- A `ref_list` with positions. -/
structure LTree where
  first : LRef
  rest : List (Bool × LRef)
  trailing : Option Bool
  deriving DecidableEq, Repr

/-- `parseSingle` with positions. Here `n` is the length of the whole string, of which `s` is the end. -/
def locSingle (u : Uni) (d : BibleData) (n : Nat) (s : List Char) : Option (LSingle × List Char) :=
  (parseSingle u d s).map fun (a, rest) => (⟨a, n - (skipWs s).length, n - rest.length⟩, rest)

/-- `parseRef` with positions (parser.py:214-216). -/
def locRef (u : Uni) (d : BibleData) (n : Nat) (s : List Char) : Option (LRef × List Char) :=
  match locSingle u d n s with
  | none => none
  | some (a, s) => match lexChar (· = d.rangeSep) (skipWs s) with
    | none => some (.single a, s)
    | some s => (locSingle u d n s).map fun (b, s) => (.dual a b, s)

/-- `parseRest` with positions (parser.py:212). -/
def locRest (u : Uni) (d : BibleData) (n : Nat) : Nat → List Char → Option (List (Bool × LRef) × Option Bool)
  | fuel, s => match skipWs s with
    | [] => some ([], none)
    | c :: s' => match lexListSep d (c :: s'), fuel with
      | none, _ => none
      | some _, 0 => none
      | some (major, s), fuel + 1 => match skipWs s with
        | [] => some ([], some major)
        | _ :: _ => match locRef u d n s with
          | none => none
          | some (r, s) => (locRest u d n fuel s).map fun (l, t) => ((major, r) :: l, t)

/-- `parseTree` with positions (parser.py:45). -/
def locTree (u : Uni) (d : BibleData) (s : List Char) : Option LTree :=
  match locRef u d s.length s with
  | none => none
  | some (r, rest) => (locRest u d s.length rest.length rest).map fun (l, t) => ⟨r, l, t⟩

/-! ## Callbacks -/

/-- A callback of the transformer, all of whose exceptions are parsing errors with positions. -/
def LM (α : Type) := PState → Except (Int × Int) α × PState

instance : Monad LM where
  pure a := fun s => (.ok a, s)
  bind m f := fun s => match m s with
    | (.ok a, s) => f a s
    | (.error p, s) => (.error p, s)

/-- `raise ref.BibleRefParsingError(…, start_pos, end_pos)`. -/
def LM.raise {α : Type} (p : Int × Int) : LM α := fun s => (.error p, s)

/-- Read the attributes. -/
def LM.get : LM PState := fun s => (.ok s, s)

/-- Set the attributes. -/
def LM.set (s : PState) : LM Unit := fun _ => (.ok (), s)

/-- `except Exception as e: raise ref.BibleRefParsingError(str(e), *_meta_info_to_pos(meta))` (e.g. parser.py:102-103, 62-63). -/
def LM.attempt {α : Type} (p : Int × Int) (x : Except PyErr α) : LM α := fun s => match x with
  | .ok a => (.ok a, s)
  | .error _ => (.error p, s)

/-- The callback `BOOK_NAME` (parser.py:192-197) for a name that begins at `start`. -/
def nameCallbackAt (u : Uni) (d : BibleData) (start : Nat) (name : List Char) : LM BibleBook :=
  match BibleBook.fromStr u d name with
  | none => LM.raise (start, start + name.length)
  | some b => pure b

/-- `_meta_info_to_pos(meta)` (parser.py:62-63). -/
def LSingle.pos (a : LSingle) : Int × Int := (a.start, a.stop)

/-- `ref.BibleRange(book, chap, verse, flags=self.flags)` with the exceptions of the callbacks (e.g. parser.py:142-145). -/
def oneRangeAt (e : Env) (f : BibleFlag) (p : Int × Int) (b : BibleBook) (c v : Option Int) : LM BibleRange :=
  LM.attempt p (BibleRange.ofArgs e (some b) c v none none none (some f))

/-- The callbacks for a `single_ref` and its tokens: `book_only_ref` (parser.py:106-114), `book_num_ref`
(parser.py:116-133), `book_chap_verse_ref` (parser.py:135-146), `chap_verse_ref` (parser.py:148-160) and `num_only_ref`
(parser.py:162-182). A name is at the beginning of its reference. -/
def evalSingleAt (u : Uni) (e : Env) (f : BibleFlag) (a : LSingle) : LM BibleRange := match a.ref with
  | .book name => do
    let b ← nameCallbackAt u e.data a.start name
    let s ← LM.get
    LM.set { s with book := some b, atVerse := false }
    oneRangeAt e f a.pos b none none
  | .bookNum name n => do
    let b ← nameCallbackAt u e.data a.start name
    let s ← LM.get
    if b.chapCount e.data = 1 then
      LM.set ⟨some b, some (b.minChapNum e.data), true⟩
      oneRangeAt e f a.pos b (some (b.minChapNum e.data)) (some n)
    else
      LM.set { s with book := some b, chap := some (n : Int), atVerse := false }
      oneRangeAt e f a.pos b (some n) none
  | .bookChapVerse name c v => do
    let b ← nameCallbackAt u e.data a.start name
    LM.set ⟨some b, some (c : Int), true⟩
    oneRangeAt e f a.pos b (some c) (some v)
  | .chapVerse c v => do
    let s ← LM.get
    match s.book with
    | none => LM.raise a.pos
    | some b =>
      LM.set ⟨some b, some (c : Int), true⟩
      oneRangeAt e f a.pos b (some c) (some v)
  | .num n => do
    let s ← LM.get
    match s.book with
    | none => LM.raise a.pos
    | some b =>
      if b.chapCount e.data = 1 then
        LM.set { s with chap := some (b.minChapNum e.data) }
        oneRangeAt e f a.pos b (some (b.minChapNum e.data)) (some n)
      else if s.atVerse then
        match s.chap with
        | none => LM.raise a.pos
        | some c => oneRangeAt e f a.pos b (some c) (some n)
      else oneRangeAt e f a.pos b (some n) none

/-- The callbacks for a `bible_ref`; for two references `dual_ref` (parser.py:93-104). -/
def evalRefAt (u : Uni) (e : Env) (f : BibleFlag) : LRef → LM BibleRange
  | .single a => evalSingleAt u e f a
  | .dual a b => do
    let first ← evalSingleAt u e f a
    let second ← evalSingleAt u e f b
    LM.attempt (a.start, b.stop) (BibleRange.ofArgs e (some first.start.book) (some first.start.chap) (some first.start.verse)
      (some second.stop.book) (some second.stop.chap) (some second.stop.verse) (some f))

/-- The callbacks `MAJOR_LIST_SEP` and `MINOR_LIST_SEP` (parser.py:184-190). -/
def evalSepAt (major : Bool) : LM Unit := do
  let s ← LM.get
  LM.set (if major then { s with atVerse := false } else s)

/-- The children of `ref_list` after the first one, transformed from left to right. -/
def evalRestAt (u : Uni) (e : Env) (f : BibleFlag) : List (Bool × LRef) → LM (List (Bool × BibleRange))
  | [] => pure []
  | (major, r) :: l => do
    evalSepAt major
    let x ← evalRefAt u e f r
    let rest ← evalRestAt u e f l
    return (major, x) :: rest

/-- `_transformer().transform(tree)` (parser.py:57). -/
def evalTreeAt (u : Uni) (e : Env) (f : BibleFlag) (t : LTree) : LM (List (List BibleRange)) := do
  let r ← evalRefAt u e f t.first
  let l ← evalRestAt u e f t.rest
  match t.trailing with
  | none => pure ()
  | some major => evalSepAt major
  return groupUp r l

/-- `_parse` (parser.py:42-60), with the positions of the exception. -/
def parseAt (u : Uni) (e : Env) (flags : Option BibleFlag) (s : List Char) : LM (List (List BibleRange)) :=
  match locTree u e.data s with
  | none => LM.raise (unexpectedAt u e.data s)
  | some t => evalTreeAt u e (e.eff flags) t

end Bibleref

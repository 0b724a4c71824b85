import Verif.Model.Parser

/-!
# Reading strings in several threads

`_parse` keeps everything it remembers in one transformer object that all calls share (parser.py:31-39, 54-57). This file models
the callbacks once more, this time as sequences of single accesses to what threads share, so that other threads can have their
turn between any two of them: the global `_transformer_obj`, and the attributes `cur_book`, `cur_chap_num`, `at_verse_level` and
`flags` of transformer objects. One access to a global or an attribute is one step; everything between two accesses uses nothing
that threads share. The Lark parser is left out: it remembers nothing from one string to the next, and a second one made by a race
at its first use is as good as the first. The settings do not change while the threads run.

That no other thread has its turn in the middle of an access is what the Python interpreter guarantees.
-/

namespace Bibleref

/-- The attributes of a transformer object (parser.py:70-73). -/
structure Attrs where
  book : Option BibleBook
  chap : Option Int
  atVerse : Bool
  flags : Option BibleFlag
  deriving DecidableEq, Repr

/-- What `_BibleRefTransformer()` makes (parser.py:68-73). -/
def Attrs.new : Attrs := ⟨none, none, false, none⟩

/-- What the threads share: the global `_transformer_obj` (parser.py:31) and all transformer objects ever made. -/
structure Shared where
  current : Option Nat
  objs : List Attrs
  deriving DecidableEq, Repr

/-- The attributes of a transformer. -/
def Shared.attrs (s : Shared) (t : Nat) : Attrs := s.objs[t]?.getD .new

/-- Change the attributes of a transformer. -/
def Shared.update (s : Shared) (t : Nat) (f : Attrs → Attrs) : Shared := { s with objs := s.objs.modify t f }

/-- What a thread has still to do: nothing, having returned a value or raised an exception, or one access to what threads share,
which may change it, and after which it goes on according to what it found. -/
inductive Thread (α : Type) where
  | done (r : Except PyErr α)
  | access (change : Shared → Shared) (next : Shared → Thread α)

namespace Thread

variable {α β : Type}

/-- One thing after another. An exception ends both. -/
def bind : Thread α → (α → Thread β) → Thread β
  | .done (.ok a), f => f a
  | .done (.error err), _ => .done (.error err)
  | .access change next, f => .access change fun s => (next s).bind f

instance : Monad Thread where
  pure a := .done (.ok a)
  bind := Thread.bind

/-- `raise`. -/
def raise (err : PyErr) : Thread α := .done (.error err)

/-- Something that does not look at what threads share. -/
def lift (x : Except PyErr α) : Thread α := .done x

/-- Read something. -/
def read (f : Shared → β) : Thread β := .access id fun s => .done (.ok (f s))

/-- Write something. -/
def write (f : Shared → Shared) : Thread Unit := .access f fun _ => .done (.ok ())

/-- The start of `_transformer()` (parser.py:37-38): the global is read, and if it is `None` a transformer is made and assigned to
it. -/
def ensureTransformer : Thread Unit := do
  let c ← read Shared.current
  match c with
  | some _ => pure ()
  | none =>
    let t ← .access (fun s => { s with objs := s.objs ++ [.new] }) fun s => .done (.ok s.objs.length)
    write fun s => { s with current := some t }

/-- `_transformer()` (parser.py:33-39): the global is read once more for the return value. -/
def transformer : Thread Nat := do
  ensureTransformer
  let c ← read Shared.current
  match c with
  | some t => pure t
  | none => raise .attributeError

/-- `self.cur_book = b`. -/
def setBook (t : Nat) (b : BibleBook) : Thread Unit := write fun s => s.update t fun a => { a with book := some b }
/-- `self.cur_chap_num = c`. -/
def setChap (t : Nat) (c : Int) : Thread Unit := write fun s => s.update t fun a => { a with chap := some c }
/-- `self.at_verse_level = x`. -/
def setAtVerse (t : Nat) (x : Bool) : Thread Unit := write fun s => s.update t fun a => { a with atVerse := x }
/-- `_transformer().flags = f` once `_transformer()` has returned. -/
def setFlags (t : Nat) (f : BibleFlag) : Thread Unit := write fun s => s.update t fun a => { a with flags := some f }

/-- `self.cur_book`. -/
def getBook (t : Nat) : Thread (Option BibleBook) := read fun s => (s.attrs t).book
/-- `self.cur_chap_num`. -/
def getChap (t : Nat) : Thread (Option Int) := read fun s => (s.attrs t).chap
/-- `self.at_verse_level`. -/
def getAtVerse (t : Nat) : Thread Bool := read fun s => (s.attrs t).atVerse
/-- `self.flags`. -/
def getFlags (t : Nat) : Thread (Option BibleFlag) := read fun s => (s.attrs t).flags

/-- The callback `BOOK_NAME` (parser.py:192-197). -/
def nameCallback (u : Uni) (d : BibleData) (name : List Char) : Thread BibleBook :=
  match BibleBook.fromStr u d name with
  | none => raise .parsing
  | some b => pure b

/-- `ref.BibleRange(book, chap, verse, flags=self.flags)` with the exceptions of the callbacks (e.g. parser.py:142-145); the last of
its arguments to be evaluated is `self.flags`. -/
def oneRange (e : Env) (t : Nat) (b : Option BibleBook) (c v : Option Int) : Thread BibleRange := do
  let f ← getFlags t
  lift (asParsing (BibleRange.ofArgs e b c v none none none f))

/-- The callbacks for a `single_ref` and its tokens: `book_only_ref` (parser.py:106-114), `book_num_ref`
(parser.py:116-133), `book_chap_verse_ref` (parser.py:135-146), `chap_verse_ref` (parser.py:148-160) and `num_only_ref`
(parser.py:162-182). Where an attribute is read twice, so it is here. -/
def evalSingle (u : Uni) (e : Env) (t : Nat) : Single → Thread BibleRange
  | .book name => do
    let b ← nameCallback u e.data name
    setBook t b
    setAtVerse t false
    oneRange e t (some b) none none
  | .bookNum name n => do
    let b ← nameCallback u e.data name
    setBook t b
    setAtVerse t (b.chapCount e.data = 1)
    if b.chapCount e.data = 1 then
      setChap t (b.minChapNum e.data)
      let c ← getChap t
      oneRange e t (some b) c (some n)
    else
      setChap t n
      oneRange e t (some b) (some n) none
  | .bookChapVerse name c v => do
    let b ← nameCallback u e.data name
    setBook t b
    setChap t c
    setAtVerse t true
    oneRange e t (some b) (some c) (some v)
  | .chapVerse c v => do
    let b ← getBook t
    match b with
    | none => raise .parsing
    | some _ =>
      let b ← getBook t
      setChap t c
      setAtVerse t true
      oneRange e t b (some c) (some v)
  | .num n => do
    let b ← getBook t
    match b with
    | none => raise .parsing
    | some _ =>
      let b ← getBook t
      match b with
      | none => raise .attributeError
      | some b =>
        let atVerse ← getAtVerse t
        if atVerse ∨ b.chapCount e.data = 1 then
          if b.chapCount e.data = 1 then setChap t (b.minChapNum e.data)
          else
            let c ← getChap t
            match c with
            | none => raise .parsing
            | some _ => pure ()
          let c ← getChap t
          oneRange e t (some b) c (some n)
        else oneRange e t (some b) (some n) none

/-- The callbacks for a `bible_ref`; for two references `dual_ref` (parser.py:93-104). -/
def evalRef (u : Uni) (e : Env) (t : Nat) : Ref → Thread BibleRange
  | .single a => evalSingle u e t a
  | .dual a b => do
    let first ← evalSingle u e t a
    let second ← evalSingle u e t b
    let f ← getFlags t
    lift (asParsing (BibleRange.ofArgs e (some first.start.book) (some first.start.chap) (some first.start.verse)
      (some second.stop.book) (some second.stop.chap) (some second.stop.verse) f))

/-- The callbacks `MAJOR_LIST_SEP` and `MINOR_LIST_SEP` (parser.py:184-190). -/
def evalSep (t : Nat) (major : Bool) : Thread Unit := if major then setAtVerse t false else pure ()

/-- The children of `ref_list` after the first one, from left to right. -/
def evalRest (u : Uni) (e : Env) (t : Nat) : List (Bool × Ref) → Thread (List (Bool × BibleRange))
  | [] => pure []
  | (major, r) :: l => do
    evalSep t major
    let x ← evalRef u e t r
    let rest ← evalRest u e t l
    return (major, x) :: rest

/-- `transform(tree)` (parser.py:57); `ref_list` uses nothing that threads share. -/
def evalTree (u : Uni) (e : Env) (t : Nat) (tree : Tree) : Thread (List (List BibleRange)) := do
  let r ← evalRef u e t tree.first
  let l ← evalRest u e t tree.rest
  match tree.trailing with
  | none => pure ()
  | some major => evalSep t major
  return groupUp r l

/-- `_parse` (parser.py:42-60): `_transformer()` is called once for setting the flags and once more for the transformation. -/
def parse (u : Uni) (e : Env) (flags : Option BibleFlag) (s : List Char) : Thread (List (List BibleRange)) :=
  match parseTree u e.data s with
  | none => raise .parsing
  | some tree => do
    let t ← transformer
    setFlags t (e.eff flags)
    let t ← transformer
    evalTree u e t tree

/-- `BibleRangeList(string, flags=flags)` (ref.py:1232-1239). -/
def listOfStr (u : Uni) (e : Env) (flags : Option BibleFlag) (s : List Char) : Thread RangeList := do
  let groups ← parse u e (some (e.eff flags)) s
  return RangeList.ofNested groups

/-- What is shared, and what each thread has still to do. -/
abbrev System (α : Type) := Shared × List (Thread α)

/-- Thread `i` has its turn. If it has ended, or there is no such thread, nothing happens. -/
def turn (i : Nat) (x : System α) : System α :=
  match x.2[i]? with
  | some (.access change next) => (change x.1, x.2.set i (next x.1))
  | _ => x

/-- The threads have their turns in the given order. -/
def run (schedule : List Nat) (x : System α) : System α := schedule.foldl (fun x i => turn i x) x

/-- The result of a thread that has ended. -/
def result : Thread α → Option (Except PyErr α)
  | .done r => some r
  | .access _ _ => none

/-- A thread without any other: all it has to do, one thing after another. -/
def alone : Thread α → Shared → Except PyErr α × Shared
  | .done r, s => (r, s)
  | .access change next, s => (next s).alone (change s)

end Thread

end Bibleref

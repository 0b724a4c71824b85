import Verif.Model.Range

/-!
# Iterators over the verses of a range

`BibleRange.__iter__` (ref.py:1104-1108) is a generator: each `next()` runs its loop up to the next `yield`, with the settings
of that time.
-/

namespace Bibleref

/-- Where the generator stands: not begun, waiting at `yield verse`, or at its end. -/
inductive VerseIter where
  | fresh
  | at (v : BibleVerse)
  | finished
  deriving DecidableEq, Repr

namespace VerseIter

/-- The condition of the loop and the `yield` (ref.py:1106-1107). An exception ends a generator. -/
def test (e : Env) (r : BibleRange) (v : BibleVerse) : Except PyErr (Option BibleVerse) × VerseIter :=
  match v.lessEq e.data r.stop with
  | .ok true => (.ok (some v), .at v)
  | .ok false => (.ok none, .finished)
  | .error err => (.error err, .finished)

/-- `next(iterator)`: the verse it gives, or `none` for `StopIteration` (ref.py:1104-1108). -/
def next (e : Env) (r : BibleRange) : VerseIter → Except PyErr (Option BibleVerse) × VerseIter
  | .fresh => test e r r.start
  | .at v =>
    match v.add e 1 (some .MULTIBOOK) with
    | .ok (some w) => test e r w
    | .ok none => (.ok none, .finished)
    | .error err => (.error err, .finished)
  | .finished => (.ok none, .finished)

end VerseIter

/-- What a program does with such iterators: make one (they are numbered as they are made), ask one for the next verse, or assign
to `bibleref.flags`. -/
inductive IterStep where
  | make (r : BibleRange)
  | next (i : Nat)
  | setFlags (f : BibleFlag)
  deriving DecidableEq, Repr

/-- The iterators with their ranges, and for each what it has given so far, the latest last. -/
structure IterState where
  flags : BibleFlag
  iters : List (BibleRange × VerseIter × List (Except PyErr (Option BibleVerse)))

/-- One thing the program does. Asking an iterator that does not exist does nothing. -/
def IterStep.run (d : BibleData) (x : IterStep) (s : IterState) : IterState :=
  match x with
  | .make r => { s with iters := s.iters ++ [(r, .fresh, [])] }
  | .next i => { s with iters := s.iters.modify i fun it =>
      let res := it.2.1.next ⟨d, s.flags⟩ it.1
      (it.1, res.2, it.2.2 ++ [res.1]) }
  | .setFlags f => { s with flags := f }

/-- The whole program, starting with no iterators. -/
def runIters (d : BibleData) (f : BibleFlag) (prog : List IterStep) : IterState :=
  prog.foldl (fun s x => x.run d s) ⟨f, []⟩

end Bibleref

import Verif.Lemmas.Text
import Verif.Model.DefaultData

/-! # No default name belongs to two books: a computation over the whole table of names -/

namespace Bibleref

/-- A number for a word. -/
def wordCode (w : List (Option Char)) : Nat :=
  w.foldl (fun n x => n * 256 + match x with | none => 1 | some c => c.toNat) 0

/-- The numbers of the words of a book's names. -/
def bookCodes (b : BibleBook) : List Nat := match defaultNameData b with
  | none => []
  | some n => ((nameRx n).lang lower).map wordCode

/-- No number is in both lists. -/
def apart (x y : List Nat) : Bool := x.all fun a => y.all fun b => !Nat.beq a b

/-- No number is in two of the lists. -/
def allApart : List (List Nat) → Bool
  | [] => true
  | x :: l => l.all (apart x) && allApart l

set_option maxRecDepth 100000 in
theorem bookCodes_apart : allApart (BibleBook.all.map bookCodes) = true := by decide +kernel

end Bibleref

import Verif.Model.Range

/-!
# Specification vocabulary

What the properties are stated with. Apart from the record types, nothing here refers to the modelled methods: the list
of verses in reading order is built directly from the data tables.
-/

namespace Bibleref

/-- Well-formed Bible data: no book is listed twice in the book order, every book has at least one chapter, and every
chapter has at least one verse. The book order need not list all books. Verse-0 sets and names are arbitrary. -/
structure BibleData.WF (d : BibleData) : Prop where
  nodup : d.bookOrder.Nodup
  chaps : ∀ b, ∃ l, d.maxVerses b = some l ∧ l ≠ [] ∧ ∀ m ∈ l, 1 ≤ m

/-- Well-formed Bible data whose book order lists every book. -/
structure BibleData.Full (d : BibleData) : Prop extends d.WF where
  listed : ∀ b, b ∈ d.bookOrder

namespace Spec

/-- The flags in force for a call: the flags passed to it, or the global ones when none (or no flag at all) is passed. -/
def inForce (e : Env) : Option BibleFlag → BibleFlag
  | none => e.flags
  | some ⟨false, false⟩ => e.flags
  | some f => f

/-- The method returns, and what it returns says whether `P` holds. -/
def Answers (x : Except PyErr Bool) (P : Prop) : Prop := ∃ b, x = .ok b ∧ (b = true ↔ P)

/-- Number of verses-table entries, i.e. of chapters, of a book. -/
def nChaps (d : BibleData) (b : BibleBook) : Nat := ((d.maxVerses b).getD []).length

/-- Highest verse number of chapter `c` (counted from 1) of a book. -/
def lastNum (d : BibleData) (b : BibleBook) (c : Int) : Int := ((d.maxVerses b).getD [])[(c - 1).toNat]?.getD 0

/-- Lowest verse number of a chapter when verse 0s are allowed (`v0 = true`) or not. -/
def firstNum (d : BibleData) (v0 : Bool) (b : BibleBook) (c : Int) : Int := if v0 ∧ c ∈ d.verse0s b then 0 else 1

/-- The integers from `a` to `b` inclusive, ascending. -/
def intRange (a b : Int) : List Int := (List.range (b + 1 - a).toNat).map fun (i : Nat) => a + (i : Int)

/-- The chapters of a book in order. -/
def chapters (d : BibleData) (b : BibleBook) : List Int := intRange 1 (nChaps d b)

/-- The verses of a chapter in order. -/
def chapVerses (d : BibleData) (v0 : Bool) (b : BibleBook) (c : Int) : List BibleVerse :=
  (intRange (firstNum d v0 b c) (lastNum d b c)).map fun n => ⟨b, c, n⟩

/-- The verses of a book in order. -/
def bookVerses (d : BibleData) (v0 : Bool) (b : BibleBook) : List BibleVerse :=
  (chapters d b).flatMap (chapVerses d v0 b)

/-- All verses of the Bible in reading order; with `v0 = true` the verse 0s are among them. -/
def canon (d : BibleData) (v0 : Bool) : List BibleVerse := d.bookOrder.flatMap (bookVerses d v0)

/-- Position of a verse in reading order, verse 0s included. -/
def pos (d : BibleData) (v : BibleVerse) : Nat := (canon d true).idxOf v

/-- A range whose endpoints exist (with `v0`: verse 0s allowed) and are in reading order. -/
structure RangeOK (d : BibleData) (v0 : Bool) (r : BibleRange) : Prop where
  start_mem : r.start ∈ canon d v0
  stop_mem : r.stop ∈ canon d v0
  ordered : pos d r.start ≤ pos d r.stop

/-- The verse lies between the endpoints of the range, inclusive. -/
def InRange (d : BibleData) (r : BibleRange) (v : BibleVerse) : Prop := pos d r.start ≤ pos d v ∧ pos d v ≤ pos d r.stop

instance (d r v) : Decidable (InRange d r v) := by unfold InRange; infer_instance

/-- The verses of a range in reading order; with `v0 = true` the verse 0s are among them. -/
def versesOf (d : BibleData) (v0 : Bool) (r : BibleRange) : List BibleVerse := (canon d v0).filter fun v => InRange d r v

/-- The verse lies in some range of the list. -/
def Covered (d : BibleData) (l : List BibleRange) (v : BibleVerse) : Prop := ∃ r ∈ l, InRange d r v

/-- A range that the flags allow: its endpoints exist and are in order, and it crosses books only with `MULTIBOOK`. -/
structure Allowed (d : BibleData) (f : BibleFlag) (r : BibleRange) : Prop where
  ok : RangeOK d f.verse0 r
  one_book : f.multibook = true ∨ r.start.book = r.stop.book

/-- The relation holds between any two neighbouring elements of the list. -/
def Neighbours {α : Type} (R : α → α → Prop) : List α → Prop
  | a :: b :: l => R a b ∧ Neighbours R (b :: l)
  | _ => True

/-- The first range ends before the second begins, and they cannot be joined: a verse lies between them, or they are in
different books and `MULTIBOOK` is not set. -/
def Apart (d : BibleData) (f : BibleFlag) (p q : BibleRange) : Prop :=
  pos d p.stop < pos d q.start ∧ ((∃ v ∈ canon d f.verse0, pos d p.stop < pos d v ∧ pos d v < pos d q.start) ∨
    (f.multibook = false ∧ p.stop.book ≠ q.start.book))

/-- The ranges of the list are in reading order, disjoint and not adjacent. -/
def Canonical (d : BibleData) (f : BibleFlag) (l : List BibleRange) : Prop := Neighbours (Apart d f) l

/-- Exactly `n` values satisfy the predicate. -/
def HasCard {α : Type} (p : α → Prop) (n : Nat) : Prop := ∃ l : List α, l.Nodup ∧ (∀ a, a ∈ l ↔ p a) ∧ l.length = n

/-- There are verses before and after the stretch from `s` to `t` (in the same book unless `MULTIBOOK`). -/
def HasRoom (d : BibleData) (f : BibleFlag) (s t : BibleVerse) : Prop :=
  ∃ p ∈ canon d f.verse0, ∃ q ∈ canon d f.verse0, pos d p < pos d s ∧ pos d t < pos d q ∧
    (f.multibook = true ∨ (p.book = s.book ∧ q.book = t.book))

/-- The verse has the given book, the given chapter (if one is given) and the given verse number (if one is given). -/
def Matches (b : BibleBook) (c n : Option Int) (v : BibleVerse) : Bool :=
  v.book = b && c.all (fun c' => v.chap = c') && n.all (fun n' => v.verse = n')

/-- First and last verse in reading order with the given book, chapter and verse number. -/
def firstOf (d : BibleData) (v0 : Bool) (b : BibleBook) (c n : Option Int) : Option BibleVerse :=
  (canon d v0).find? (Matches b c n)
def lastOf (d : BibleData) (v0 : Bool) (b : BibleBook) (c n : Option Int) : Option BibleVerse :=
  (canon d v0).reverse.find? (Matches b c n)

/-- The verse at which a range given by book, chapter and verse numbers starts: the first one with the given numbers. A
verse number needs a chapter number. -/
def argStart (d : BibleData) (v0 : Bool) (sb : BibleBook) (sc sv : Option Int) : Option BibleVerse :=
  if sc = none ∧ sv ≠ none then none else firstOf d v0 sb sc sv

/-- The verse at which it ends: the last one with the numbers given for the end, where the book defaults to the start book
and, for a lone verse number, the chapter to the start chapter; if nothing is given for the end, the last verse with the
numbers given for the start. -/
def argStop (d : BibleData) (v0 : Bool) (sb : BibleBook) (sc sv : Option Int) (eb : Option BibleBook) (ec ev : Option Int) :
    Option BibleVerse :=
  match eb, ec, ev with
  | none, none, none => lastOf d v0 sb sc sv
  | _, none, some n => if eb.getD sb = sb then lastOf d v0 sb (some (sc.getD 1)) (some n) else none
  | _, _, _ => lastOf d v0 (eb.getD sb) ec ev

/-- The range from one verse to another if both exist and `MULTIBOOK` is set or they are in one book. -/
def rangeFrom (f : BibleFlag) : Option BibleVerse → Option BibleVerse → Except PyErr BibleRange
  | some s, some t => if f.multibook = true ∨ s.book = t.book then .ok ⟨s, t⟩ else .error .multibookRange
  | _, _ => .error .invalidReference

/-- The range given by book, chapter and verse numbers that are in order. -/
def argRange (d : BibleData) (f : BibleFlag) (sb : BibleBook) (sc sv : Option Int) (eb : Option BibleBook) (ec ev : Option Int) :
    Except PyErr BibleRange :=
  rangeFrom f (argStart d f.verse0 sb sc sv) (argStop d f.verse0 sb sc sv eb ec ev)

/-- The numbers given for the end come before those given for the start. -/
def Reversed (d : BibleData) (sb : BibleBook) (sc sv : Option Int) (eb : Option BibleBook) (ec ev : Option Int) : Prop :=
  (∃ b, eb = some b ∧ d.bookOrder.idxOf b < d.bookOrder.idxOf sb) ∨
  ((eb = none ∨ eb = some sb) ∧ ∃ c, sc = some c ∧ ((∃ c', ec = some c' ∧ c' < c) ∨
    ((ec = none ∨ ec = some c) ∧ ∃ n n', sv = some n ∧ ev = some n' ∧ n' < n)))

end Spec

end Bibleref

import Verif.Lemmas.Basic
import Verif.Model.RangeList

/-!
Comparisons as total functions, and the methods written with them. They agree with the modelled ones as long as no comparison
raises an exception: between verses of one book, or of books in the book order.
-/

namespace Bibleref

namespace BibleBook

/-- Whether two books can be compared. -/
def comparable (d : BibleData) (a b : BibleBook) : Bool := (a.order d).isSome && (b.order d).isSome

/-- The order of a book, extended to books that are not in the order. -/
def rank (d : BibleData) (b : BibleBook) : Nat := match b.order d with
  | some i => i
  | none => d.bookOrder.length + BibleBook.all.idxOf b

def lt (d : BibleData) (a b : BibleBook) : Bool := a.rank d < b.rank d
def le (d : BibleData) (a b : BibleBook) : Bool := a.rank d ≤ b.rank d

theorem less_eq {d : BibleData} {a b : BibleBook} (h : a.comparable d b = true) : a.less d b = .ok (a.lt d b) := by
  rw [comparable, Bool.and_eq_true, Option.isSome_iff_exists, Option.isSome_iff_exists] at h
  obtain ⟨⟨i, hi⟩, j, hj⟩ := h
  simp only [less, lt, rank, hi, hj]

theorem lessEq_eq {d : BibleData} {a b : BibleBook} (h : a.comparable d b = true) : a.lessEq d b = .ok (a.le d b) := by
  rw [comparable, Bool.and_eq_true, Option.isSome_iff_exists, Option.isSome_iff_exists] at h
  obtain ⟨⟨i, hi⟩, j, hj⟩ := h
  simp only [lessEq, le, rank, hi, hj]

theorem less_error {d : BibleData} {a b : BibleBook} (h : a.comparable d b = false) : a.less d b = .error .typeError := by
  unfold less
  unfold comparable at h
  split
  · rename_i h1 h2
    rw [h1, h2] at h; cases h
  · rfl

theorem lessEq_error {d : BibleData} {a b : BibleBook} (h : a.comparable d b = false) : a.lessEq d b = .error .typeError := by
  unfold lessEq
  unfold comparable at h
  split
  · rename_i h1 h2
    rw [h1, h2] at h; cases h
  · rfl

theorem comparable_comm (d : BibleData) (a b : BibleBook) : a.comparable d b = b.comparable d a := Bool.and_comm _ _

end BibleBook

theorem book_comparable {d : BibleData} {a b : BibleBook} : a.comparable d b = true ↔ a ∈ d.bookOrder ∧ b ∈ d.bookOrder := by
  simp only [BibleBook.comparable, BibleBook.order, Bool.and_eq_true, List.isSome_idxOf?]

namespace BibleVerse

/-- Whether two verses can be compared: their books are only compared when they are different. -/
def comparable (d : BibleData) (a b : BibleVerse) : Bool := a.book = b.book || a.book.comparable d b.book

def lt (d : BibleData) (a b : BibleVerse) : Bool :=
  if a.book ≠ b.book then a.book.lt d b.book
  else if a.chap ≠ b.chap then a.chap < b.chap
  else a.verse < b.verse

def le (d : BibleData) (a b : BibleVerse) : Bool :=
  if a.book ≠ b.book then a.book.le d b.book
  else if a.chap ≠ b.chap then a.chap < b.chap
  else a.verse ≤ b.verse

theorem comparable_comm (d : BibleData) (a b : BibleVerse) : a.comparable d b = b.comparable d a := by
  unfold comparable
  rw [BibleBook.comparable_comm, show decide (a.book = b.book) = decide (b.book = a.book) from decide_eq_decide.mpr eq_comm]

theorem less_eq {d : BibleData} {a b : BibleVerse} (h : a.comparable d b = true) : a.less d b = .ok (a.lt d b) := by
  unfold less lt
  by_cases hb : a.book ≠ b.book
  · rw [if_pos hb, if_pos hb, BibleBook.less_eq]
    simpa [comparable, hb] using h
  · rw [if_neg hb, if_neg hb]; split <;> rfl

theorem lessEq_eq {d : BibleData} {a b : BibleVerse} (h : a.comparable d b = true) : a.lessEq d b = .ok (a.le d b) := by
  unfold lessEq le
  by_cases hb : a.book ≠ b.book
  · rw [if_pos hb, if_pos hb, BibleBook.lessEq_eq]
    simpa [comparable, hb] using h
  · rw [if_neg hb, if_neg hb]; split <;> rfl

theorem less_error {d : BibleData} {a b : BibleVerse} (h : a.comparable d b = false) : a.less d b = .error .typeError := by
  unfold comparable at h
  rw [Bool.or_eq_false_iff, decide_eq_false_iff_not] at h
  unfold less
  rw [if_pos h.1, BibleBook.less_error h.2]

theorem lessEq_error {d : BibleData} {a b : BibleVerse} (h : a.comparable d b = false) : a.lessEq d b = .error .typeError := by
  unfold comparable at h
  rw [Bool.or_eq_false_iff, decide_eq_false_iff_not] at h
  unfold lessEq
  rw [if_pos h.1, BibleBook.lessEq_error h.2]

end BibleVerse

theorem comparable_book {d : BibleData} {s t : BibleVerse} (hb : s.book = t.book) : s.comparable d t = true := by
  simp [BibleVerse.comparable, hb]

theorem comparable_mem {d : BibleData} {s t : BibleVerse} (hs : s.book ∈ d.bookOrder) (ht : t.book ∈ d.bookOrder) :
    s.comparable d t = true := by
  simp only [BibleVerse.comparable, Bool.or_eq_true, book_comparable]
  exact .inr ⟨hs, ht⟩

theorem comparable_listed {d : BibleData} {v0 w0} {s t : BibleVerse} (hs : Valid d v0 s) (ht : Valid d w0 t) :
    s.comparable d t = true := comparable_mem hs.listed ht.listed

theorem BibleVerse.less_true {d : BibleData} {s t : BibleVerse} (h : s.comparable d t = true) :
    s.less d t = .ok true ↔ s.lt d t = true := by rw [BibleVerse.less_eq h]; simp

theorem BibleVerse.lessEq_true {d : BibleData} {s t : BibleVerse} (h : s.comparable d t = true) :
    s.lessEq d t = .ok true ↔ s.le d t = true := by rw [BibleVerse.lessEq_eq h]; simp

theorem less_listed {d : BibleData} {v0 w0} {s t : BibleVerse} (hs : Valid d v0 s) (ht : Valid d w0 t) :
    s.less d t = .ok true ↔ s.lt d t = true := BibleVerse.less_true (comparable_listed hs ht)

theorem lessEq_listed {d : BibleData} {v0 w0} {s t : BibleVerse} (hs : Valid d v0 s) (ht : Valid d w0 t) :
    s.lessEq d t = .ok true ↔ s.le d t = true := BibleVerse.lessEq_true (comparable_listed hs ht)

/-- The endpoints of one range can be compared with those of the other. -/
structure Alike (d : BibleData) (a b : BibleRange) : Prop where
  ss : a.start.comparable d b.start = true
  st : a.start.comparable d b.stop = true
  ts : a.stop.comparable d b.start = true
  tt : a.stop.comparable d b.stop = true

theorem Alike.symm {d : BibleData} {a b : BibleRange} (h : Alike d a b) : Alike d b a :=
  ⟨by rw [BibleVerse.comparable_comm]; exact h.ss, by rw [BibleVerse.comparable_comm]; exact h.ts,
    by rw [BibleVerse.comparable_comm]; exact h.st, by rw [BibleVerse.comparable_comm]; exact h.tt⟩

/-- Both books of the range are in the book order. -/
def Listed (d : BibleData) (r : BibleRange) : Prop := r.start.book ∈ d.bookOrder ∧ r.stop.book ∈ d.bookOrder

theorem Listed.alike {d : BibleData} {a b : BibleRange} (ha : Listed d a) (hb : Listed d b) : Alike d a b :=
  ⟨comparable_mem ha.1 hb.1, comparable_mem ha.1 hb.2, comparable_mem ha.2 hb.1, comparable_mem ha.2 hb.2⟩

theorem alike_book {d : BibleData} {a b : BibleRange} (ha : a.start.book = a.stop.book) (hb : b.start.book = b.stop.book)
    (hab : a.start.book = b.start.book) : Alike d a b :=
  ⟨comparable_book hab, comparable_book (by rw [hab, hb]), comparable_book (by rw [← ha, hab]), comparable_book (by rw [← ha, hab, hb])⟩

namespace BibleRange

def lt (d : BibleData) (a b : BibleRange) : Bool :=
  if a.start ≠ b.start then a.start.lt d b.start
  else if a.stop ≠ b.stop then a.stop.lt d b.stop
  else false

def le (d : BibleData) (a b : BibleRange) : Bool :=
  if a.start ≠ b.start then a.start.le d b.start
  else if a.stop ≠ b.stop then a.stop.le d b.stop
  else true

def compareBooks (d : BibleData) (sb : BibleBook) (eb : Option BibleBook) : Except PyErr Unit := match eb with
  | some eb' => if sb.comparable d eb' then .ok () else .error .typeError
  | none => .ok ()

def earlierT (d : BibleData) (sb : BibleBook) (eb : Option BibleBook) : Option BibleBook := match eb with
  | some eb' => if eb'.lt d sb then some eb' else none
  | none => none

def lowerHigher (d : BibleData) (a b : BibleRange) : BibleRange × BibleRange := if a.lt d b then (a, b) else (b, a)

def disjointT (d : BibleData) (a b : BibleRange) : Bool :=
  let (lower, higher) := lowerHigher d a b
  lower.stop.lt d higher.start

def containsT (d : BibleData) (a b : BibleRange) : Bool :=
  (a.start.le d b.start && b.start.le d a.stop) && (a.start.le d b.stop && b.stop.le d a.stop)

def surroundsT (d : BibleData) (a b : BibleRange) : Bool :=
  (a.start.lt d b.start && b.start.lt d a.stop) && (a.start.lt d b.stop && b.stop.lt d a.stop)

def minVerse (d : BibleData) (a b : BibleVerse) : BibleVerse := if b.lt d a then b else a
def maxVerse (d : BibleData) (a b : BibleVerse) : BibleVerse := if a.lt d b then b else a

variable {d : BibleData} {e : Env} {a b : BibleRange}

theorem less_eq (h : Alike d a b) : a.less d b = .ok (a.lt d b) := by
  unfold less lt
  split
  · exact BibleVerse.less_eq h.ss
  · split
    · exact BibleVerse.less_eq h.tt
    · rfl

theorem lessEq_eq (h : Alike d a b) : a.lessEq d b = .ok (a.le d b) := by
  unfold lessEq le
  split
  · exact BibleVerse.lessEq_eq h.ss
  · split
    · exact BibleVerse.lessEq_eq h.tt
    · rfl

theorem earlierBook_eq (d : BibleData) (sb : BibleBook) (eb : Option BibleBook) :
    earlierBook d sb eb = (do compareBooks d sb eb; return earlierT d sb eb) := by
  cases eb with
  | none => rfl
  | some eb' =>
    simp only [earlierBook, compareBooks, earlierT]
    cases hc : sb.comparable d eb' with
    | true => rw [BibleBook.less_eq (by rw [BibleBook.comparable_comm]; exact hc)]; rfl
    | false => rw [BibleBook.less_error (by rw [BibleBook.comparable_comm]; exact hc)]; rfl

theorem earlierBook_bind {β : Type} (d : BibleData) (sb : BibleBook) (eb : Option BibleBook) (k : Option BibleBook → Except PyErr β) :
    (earlierBook d sb eb >>= k) = (compareBooks d sb eb >>= fun _ => k (earlierT d sb eb)) := by
  rw [earlierBook_eq]
  cases compareBooks d sb eb <;> rfl

theorem new_eq (e : Env) (start stop : Option BibleVerse) (flags : Option BibleFlag) : new e start stop flags =
    match start, stop with
    | some s, some t =>
      if (e.eff flags).multibook = false ∧ s.book ≠ t.book then .error .multibookRange
      else if s.comparable e.data t = false then .error .typeError
      else if t.lt e.data s then .ok ⟨t, s⟩ else .ok ⟨s, t⟩
    | _, _ => if (e.eff flags).multibook = false then .error .attributeError else .error .typeError := by
  unfold new
  cases start with
  | none => rfl
  | some s =>
    cases stop with
    | none => rfl
    | some t =>
      dsimp only
      split
      · rfl
      · cases hc : s.comparable e.data t with
        | true =>
          rw [BibleVerse.less_eq (by rw [BibleVerse.comparable_comm]; exact hc)]
          rw [if_neg (by decide)]
          simp only [bind, Except.bind, pure, Except.pure]
          split <;> rfl
        | false =>
          rw [BibleVerse.less_error (by rw [BibleVerse.comparable_comm]; exact hc)]
          rw [if_pos rfl]; rfl

theorem inOrder_eq (h : Alike d a b) : inOrder d a b = .ok (lowerHigher d a b) := by
  simp only [inOrder, less_eq h, lowerHigher]; rfl

theorem lowerHigher_alike (h : Alike d a b) : Alike d (lowerHigher d a b).1 (lowerHigher d a b).2 := by
  unfold lowerHigher; split
  · exact h
  · exact h.symm

theorem isDisjoint_eq (h : Alike d a b) : a.isDisjoint d b = .ok (a.disjointT d b) := by
  have h2 := (lowerHigher_alike h).ts
  simp only [isDisjoint, inOrder_eq h, disjointT, bind, Except.bind]
  exact BibleVerse.less_eq h2

theorem andThen_ok (x y : Bool) : andThen (.ok x) (.ok y) = .ok (x && y) := by
  cases x <;> rfl

theorem contains_eq (h : Alike d a b) : a.contains d b = .ok (a.containsT d b) := by
  unfold contains containsT
  rw [BibleVerse.lessEq_eq h.ss, BibleVerse.lessEq_eq h.symm.st, BibleVerse.lessEq_eq h.st, BibleVerse.lessEq_eq h.symm.tt,
    andThen_ok, andThen_ok, andThen_ok]

theorem surrounds_eq (h : Alike d a b) : a.surrounds d b = .ok (a.surroundsT d b) := by
  unfold surrounds surroundsT
  rw [BibleVerse.less_eq h.ss, BibleVerse.less_eq h.symm.st, BibleVerse.less_eq h.st, BibleVerse.less_eq h.symm.tt,
    andThen_ok, andThen_ok, andThen_ok]

theorem isDisjoint_true (h : Alike d a b) : a.isDisjoint d b = .ok true ↔ a.disjointT d b = true := by
  rw [isDisjoint_eq h]; simp

theorem isDisjoint_false (h : Alike d a b) : a.isDisjoint d b = .ok false ↔ a.disjointT d b = false := by
  rw [isDisjoint_eq h]; simp

theorem contains_true (h : Alike d a b) : a.contains d b = .ok true ↔ a.containsT d b = true := by
  rw [contains_eq h]; simp

theorem surrounds_true (h : Alike d a b) : a.surrounds d b = .ok true ↔ a.surroundsT d b = true := by
  rw [surrounds_eq h]; simp

theorem minOf_eq {v w : BibleVerse} (h : v.comparable d w = true) : minOf d v w = .ok (minVerse d v w) := by
  unfold minOf minVerse
  rw [BibleVerse.less_eq (by rw [BibleVerse.comparable_comm]; exact h)]; rfl

theorem maxOf_eq {v w : BibleVerse} (h : v.comparable d w = true) : maxOf d v w = .ok (maxVerse d v w) := by
  unfold maxOf maxVerse
  rw [BibleVerse.less_eq h]; rfl

theorem isAdjacent_eq (h : Alike e.data a b) (flags : Option BibleFlag) : a.isAdjacent e b flags = (do
    let (lower, higher) := lowerHigher e.data a b
    let next ← lower.stop.add e 1 flags
    return decide (next = some higher.start)) := by
  unfold isAdjacent
  rw [inOrder_eq h]; rfl

theorem union_eq (h : Alike e.data a b) (flags : Option BibleFlag) : a.union e b flags = (do
    let apart ← (if a.disjointT e.data b then do
        let adj ← a.isAdjacent e b flags
        pure (!adj)
      else pure false : Except PyErr Bool)
    if apart then
      let (lower, higher) := lowerHigher e.data a b
      return [lower, higher]
    else
      let r ← new e (some (minVerse e.data a.start b.start)) (some (maxVerse e.data a.stop b.stop)) flags
      return [r]) := by
  unfold union
  rw [isDisjoint_eq h, inOrder_eq h, minOf_eq h.ss, maxOf_eq h.tt]; rfl

theorem intersection_eq (h : Alike e.data a b) (flags : Option BibleFlag) : a.intersection e b flags = (do
    if a.disjointT e.data b then return []
    else
      let r ← new e (some (maxVerse e.data a.start b.start)) (some (minVerse e.data a.stop b.stop)) flags
      return [r]) := by
  unfold intersection
  rw [isDisjoint_eq h, maxOf_eq h.ss, minOf_eq h.tt]; rfl

theorem difference_eq (h : Alike e.data a b) (flags : Option BibleFlag) : a.difference e b flags = (do
    if a.disjointT e.data b then return [a]
    else if b.containsT e.data a then return []
    else
      let before ← b.start.sub e 1 flags
      let lower ← new e (some a.start) before none
      let after ← b.stop.add e 1 flags
      let upper ← new e after (some a.stop) none
      if a.surroundsT e.data b then return [lower, upper]
      else if a.lt e.data b then return [lower]
      else return [upper]) := by
  unfold difference
  rw [isDisjoint_eq h, contains_eq h.symm, surrounds_eq h, less_eq h]
  simp only [bind, Except.bind, pure, Except.pure]
  split
  · rfl
  · split
    · rfl
    · repeat' split
      all_goals rfl

end BibleRange

/-! ## Tests over lists -/

theorem allM_ok {α : Type} (l : List α) (f : α → Except PyErr Bool) (g : α → Bool) (h : ∀ a ∈ l, f a = .ok (g a)) :
    l.allM f = .ok (l.all g) := by
  induction l with
  | nil => rfl
  | cons a l ih =>
    rw [List.allM, h a (by simp), List.all_cons]
    simp only [bind, Except.bind]
    cases g a with
    | true => simpa using ih fun b hb => h b (by simp [hb])
    | false => rfl

theorem anyM_ok {α : Type} (l : List α) (f : α → Except PyErr Bool) (g : α → Bool) (h : ∀ a ∈ l, f a = .ok (g a)) :
    l.anyM f = .ok (l.any g) := by
  induction l with
  | nil => rfl
  | cons a l ih =>
    rw [List.anyM, h a (by simp), List.any_cons]
    simp only [bind, Except.bind]
    cases g a with
    | false => simpa using ih fun b hb => h b (by simp [hb])
    | true => rfl

theorem allM_map {α β : Type} (f : α → β) (g : β → Except PyErr Bool) (l : List α) : (l.map f).allM g = l.allM fun a => g (f a) := by
  induction l with
  | nil => rfl
  | cons a l ih => rw [List.map_cons, List.allM, List.allM, ih]

/-! ## Answers -/

namespace Spec.Answers

variable {x : Except PyErr Bool} {P Q : Prop}

theorem cases (h : Spec.Answers x P) : (x = .ok true ∧ P) ∨ (x = .ok false ∧ ¬ P) := by
  obtain ⟨b, h1, h2⟩ := h
  cases b with
  | true => exact .inl ⟨h1, h2.mp rfl⟩
  | false => exact .inr ⟨h1, fun hp => by cases h2.mpr hp⟩

theorem yes (h : Spec.Answers x P) : x = .ok true ↔ P := by
  rcases h.cases with ⟨rfl, hp⟩ | ⟨rfl, hp⟩
  · exact ⟨fun _ => hp, fun _ => rfl⟩
  · exact ⟨(by intro k; cases k), fun k => absurd k hp⟩

theorem no (h : Spec.Answers x P) : x = .ok false ↔ ¬ P := by
  rcases h.cases with ⟨rfl, hp⟩ | ⟨rfl, hp⟩
  · exact ⟨(by intro k; cases k), fun k => absurd hp k⟩
  · exact ⟨fun _ => hp, fun _ => rfl⟩

theorem congr (h : Spec.Answers x P) (hpq : P ↔ Q) : Spec.Answers x Q := by
  obtain ⟨b, h1, h2⟩ := h
  exact ⟨b, h1, h2.trans hpq⟩

end Spec.Answers

/-! ## Whatever is compared -/

theorem BibleBook.less_result (d : BibleData) (a b : BibleBook) : a.less d b = .error .typeError ∨ ∃ c, a.less d b = .ok c := by
  cases hc : a.comparable d b with
  | true => exact .inr ⟨_, BibleBook.less_eq hc⟩
  | false => exact .inl (BibleBook.less_error hc)

theorem BibleVerse.less_result (d : BibleData) (a b : BibleVerse) : a.less d b = .error .typeError ∨ ∃ c, a.less d b = .ok c := by
  cases hc : a.comparable d b with
  | true => exact .inr ⟨_, BibleVerse.less_eq hc⟩
  | false => exact .inl (BibleVerse.less_error hc)

theorem BibleRange.less_result (d : BibleData) (a b : BibleRange) : a.less d b = .error .typeError ∨ ∃ c, a.less d b = .ok c := by
  unfold BibleRange.less
  split
  · exact BibleVerse.less_result _ _ _
  · split
    · exact BibleVerse.less_result _ _ _
    · exact .inr ⟨_, rfl⟩

theorem BibleRange.compareBooks_result (d : BibleData) (sb : BibleBook) (eb : Option BibleBook) :
    compareBooks d sb eb = .error .typeError ∨ compareBooks d sb eb = .ok () := by
  unfold compareBooks; split
  · split
    · exact .inr rfl
    · exact .inl rfl
  · exact .inr rfl

end Bibleref

import Verif.SpecOrder
import Verif.Props.RangeLists2

/-!
# The four comparisons (C76)
-/

namespace Bibleref
open Spec

theorem ints_holds (o : Cmp) (i j : Nat) : o.ints i j = true ↔ holds o i j := by
  cases o <;> simp [Cmp.ints, holds]

theorem BibleBook.cmp_less (d : BibleData) (a b : BibleBook) : a.cmp d .lt b = a.less d b ∧ a.cmp d .le b = a.lessEq d b ∧
    a.cmp d .gt b = b.less d a ∧ a.cmp d .ge b = b.lessEq d a := by
  unfold BibleBook.cmp BibleBook.less BibleBook.lessEq
  cases a.order d <;> cases b.order d <;> simp [Cmp.ints]

theorem BibleVerse.cmp_less (d : BibleData) (a b : BibleVerse) : a.cmp d .lt b = a.less d b ∧ a.cmp d .le b = a.lessEq d b ∧
    a.cmp d .gt b = b.less d a ∧ a.cmp d .ge b = b.lessEq d a := by
  obtain ⟨h1, h2, h3, h4⟩ := BibleBook.cmp_less d a.book b.book
  unfold BibleVerse.cmp BibleVerse.less BibleVerse.lessEq
  have dec : ∀ {p q : Prop} [Decidable p] [Decidable q], (p ↔ q) → (Except.ok (decide p) : Except PyErr Bool) = .ok (decide q) := by
    intro p q _ _ hpq
    rw [decide_eq_decide.2 hpq]
  by_cases hb : a.book = b.book
  · simp only [if_neg (fun k : ¬ _ => k hb), if_neg (fun k : ¬ _ => k hb.symm)]
    by_cases hc : a.chap = b.chap
    · simp only [if_neg (fun k : ¬ _ => k hc), if_neg (fun k : ¬ _ => k hc.symm)]
      by_cases hv : a.verse = b.verse
      · simp only [if_neg (fun k : ¬ _ => k hv)]
        simp only [Cmp.ints]
        exact ⟨dec (by omega), dec (by omega), dec (by omega), dec (by omega)⟩
      · simp only [if_pos hv]
        exact ⟨dec (by omega), dec (by omega), dec (by omega), dec (by omega)⟩
    · simp only [if_pos hc, if_pos (Ne.symm hc)]
      exact ⟨dec (by omega), dec (by omega), dec (by omega), dec (by omega)⟩
  · simp only [if_pos hb, if_pos (Ne.symm hb)]
    exact ⟨h1, h2, h3, h4⟩

theorem BibleRange.cmp_less (d : BibleData) (a b : BibleRange) : a.cmp d .lt b = a.less d b ∧ a.cmp d .le b = a.lessEq d b ∧
    a.cmp d .gt b = b.less d a ∧ a.cmp d .ge b = b.lessEq d a := by
  have hs := BibleVerse.cmp_less d a.start b.start
  have ht := BibleVerse.cmp_less d a.stop b.stop
  unfold BibleRange.cmp BibleRange.less BibleRange.lessEq
  by_cases h1 : a.start = b.start
  · by_cases h2 : a.stop = b.stop
    · simp [h1, h2, Cmp.ints]
    · have : ¬ b.stop = a.stop := Ne.symm h2
      simp only [h1, h2, this, ne_eq, not_true, if_false, not_false_eq_true, if_true]
      exact ht
  · have : ¬ b.start = a.start := Ne.symm h1
    simp only [h1, this, ne_eq, not_false_eq_true, if_true]
    exact hs

/-- **C76.** For books, verses and ranges, listed or not, `a > b` is `b < a` and `a >= b` is `b <= a`, exceptions included; `<` and `<=`
are those of the other properties. -/
theorem C76_swapped (d : BibleData) :
    (∀ a b : BibleBook, a.cmp d .gt b = b.cmp d .lt a ∧ a.cmp d .ge b = b.cmp d .le a ∧ a.cmp d .lt b = a.less d b ∧
      a.cmp d .le b = a.lessEq d b) ∧
    (∀ a b : BibleVerse, a.cmp d .gt b = b.cmp d .lt a ∧ a.cmp d .ge b = b.cmp d .le a ∧ a.cmp d .lt b = a.less d b ∧
      a.cmp d .le b = a.lessEq d b) ∧
    ∀ a b : BibleRange, a.cmp d .gt b = b.cmp d .lt a ∧ a.cmp d .ge b = b.cmp d .le a ∧ a.cmp d .lt b = a.less d b ∧
      a.cmp d .le b = a.lessEq d b := by
  refine ⟨fun a b => ?_, fun a b => ?_, fun a b => ?_⟩
  · obtain ⟨h1, h2, h3, h4⟩ := BibleBook.cmp_less d a b
    obtain ⟨k1, k2, _, _⟩ := BibleBook.cmp_less d b a
    rw [h1, h2, h3, h4, k1, k2]; simp
  · obtain ⟨h1, h2, h3, h4⟩ := BibleVerse.cmp_less d a b
    obtain ⟨k1, k2, _, _⟩ := BibleVerse.cmp_less d b a
    rw [h1, h2, h3, h4, k1, k2]; simp
  · obtain ⟨h1, h2, h3, h4⟩ := BibleRange.cmp_less d a b
    obtain ⟨k1, k2, _, _⟩ := BibleRange.cmp_less d b a
    rw [h1, h2, h3, h4, k1, k2]; simp

/-- C76: the four comparisons of verses are those of their positions in reading order. -/
theorem C76_verses (d : BibleData) (h : d.WF) (o : Cmp) (i j : Nat) (v w : BibleVerse) (hi : (canon d true)[i]? = some v)
    (hj : (canon d true)[j]? = some w) : Answers (v.cmp d o w) (holds o i j) := by
  obtain ⟨h1, h2, h3, h4⟩ := BibleVerse.cmp_less d v w
  obtain ⟨k1, k2, _⟩ := C02_order_is_reading_order d h true i j v w hi hj
  obtain ⟨l1, l2, _⟩ := C02_order_is_reading_order d h true j i w v hj hi
  cases o
  · rw [h1]; exact k1
  · rw [h2]; exact k2
  · rw [h3]; exact l1
  · rw [h4]; exact l2

/-- C76: the four comparisons of books are those of their places in the book order. -/
theorem C76_books (d : BibleData) (o : Cmp) (i j : Nat) (a b : BibleBook) (hd : d.bookOrder.Nodup) (hi : d.bookOrder[i]? = some a)
    (hj : d.bookOrder[j]? = some b) : Answers (a.cmp d o b) (holds o i j) := by
  have ho : ∀ {i : Nat} {b : BibleBook}, d.bookOrder[i]? = some b → b.order d = some i := by
    intro i b hi
    obtain ⟨hl, rfl⟩ := List.getElem?_eq_some_iff.1 hi
    rw [BibleBook.order, List.idxOf?_eq_some_iff]
    exact ⟨hl, rfl, fun k hk heq => Nat.ne_of_lt hk (index_unique hd (List.getElem?_eq_getElem (Nat.lt_trans hk hl)) (by rw [heq]; exact List.getElem?_eq_getElem hl))⟩
  unfold BibleBook.cmp
  rw [ho hi, ho hj]
  exact ⟨_, rfl, ints_holds o i j⟩

/-- C76: ranges are compared by where they begin, and if they begin with the same verse by where they end. -/
theorem C76_ranges (d : BibleData) (h : d.WF) (o : Cmp) (i j k l : Nat) (r q : BibleRange) (hi : (canon d true)[i]? = some r.start)
    (hj : (canon d true)[j]? = some r.stop) (hk : (canon d true)[k]? = some q.start) (hl : (canon d true)[l]? = some q.stop) :
    Answers (r.cmp d o q) (if i = k then holds o j l else holds o i k) := by
  obtain ⟨_, _, h1⟩ := C02_order_is_reading_order d h true i k _ _ hi hk
  obtain ⟨_, _, h2⟩ := C02_order_is_reading_order d h true j l _ _ hj hl
  unfold BibleRange.cmp
  by_cases hik : i = k
  · rw [if_neg (fun k => k (h1.2 hik)), if_pos hik]
    by_cases hjl : j = l
    · rw [if_neg (fun k => k (h2.2 hjl))]
      refine ⟨_, rfl, ?_⟩
      subst hjl
      cases o <;> simp [Cmp.ints, holds]
    · rw [if_pos (by rw [ne_eq, h2]; exact hjl)]
      exact C76_verses d h o j l _ _ hj hl
  · rw [if_pos (by rw [ne_eq, h1]; exact hik), if_neg hik]
    exact C76_verses d h o i k _ _ hi hk

/-- C76: exactly one of `r < q`, `r == q` and `r > q` holds, `<=` is `<` or `==`, and `<` is transitive, for ranges of verses that
exist. -/
theorem C76_total_order (d : BibleData) (h : d.WF) (r q p : BibleRange) (hr : r.start ∈ canon d true ∧ r.stop ∈ canon d true)
    (hq : q.start ∈ canon d true ∧ q.stop ∈ canon d true) (hp : p.start ∈ canon d true ∧ p.stop ∈ canon d true) :
    (r.cmp d .lt q = .ok true ∨ r = q ∨ r.cmp d .gt q = .ok true) ∧ ¬ (r.cmp d .lt q = .ok true ∧ r = q) ∧
    ¬ (r.cmp d .gt q = .ok true ∧ r = q) ∧ ¬ (r.cmp d .lt q = .ok true ∧ r.cmp d .gt q = .ok true) ∧
    Answers (r.cmp d .le q) (r.cmp d .lt q = .ok true ∨ r = q) ∧ Answers (r.cmp d .ge q) (r.cmp d .gt q = .ok true ∨ r = q) ∧
    (r.cmp d .lt q = .ok true → q.cmp d .lt p = .ok true → r.cmp d .lt p = .ok true) := by
  obtain ⟨i, hi⟩ := List.mem_iff_getElem?.1 hr.1
  obtain ⟨j, hj⟩ := List.mem_iff_getElem?.1 hr.2
  obtain ⟨k, hk⟩ := List.mem_iff_getElem?.1 hq.1
  obtain ⟨l, hl⟩ := List.mem_iff_getElem?.1 hq.2
  obtain ⟨m, hm⟩ := List.mem_iff_getElem?.1 hp.1
  obtain ⟨n, hn⟩ := List.mem_iff_getElem?.1 hp.2
  have ans : ∀ {x : Except PyErr Bool} {P : Prop}, Answers x P → (x = .ok true ↔ P) := by
    rintro x P ⟨b, rfl, hb⟩
    simpa using hb
  have heq : r = q ↔ i = k ∧ j = l := by
    rw [← (C02_order_is_reading_order d h true i k _ _ hi hk).2.2, ← (C02_order_is_reading_order d h true j l _ _ hj hl).2.2]
    cases r; cases q; simp
  have key := fun o => C76_ranges d h o i j k l r q hi hj hk hl
  have imp : ∀ {x : Except PyErr Bool} {P Q : Prop}, Answers x P → (P ↔ Q) → Answers x Q := by
    rintro x P Q ⟨b, hb, hx⟩ hpq
    exact ⟨b, hb, hx.trans hpq⟩
  rw [ans (key .lt), ans (key .gt), ans (C76_ranges d h .lt k l m n q p hk hl hm hn), ans (C76_ranges d h .lt i j m n r p hi hj hm hn), heq]
  refine ⟨?_, ?_, ?_, ?_, imp (key .le) ?_, imp (key .ge) ?_, ?_⟩ <;>
  · simp only [holds]
    repeat' split
    all_goals omega

/-- C76, for values of any type: references of different kinds are not compared, and `TypeError` is raised, as it is for lists of
ranges. -/
theorem C76_kinds (d : BibleData) (o : Cmp) (x : PyVal) :
    (∀ v, (∀ w, x ≠ .verse w) → PyVal.cmp d o (.verse v) x = .error .typeError ∧ PyVal.cmp d o x (.verse v) = .error .typeError) ∧
    (∀ r, (∀ q, x ≠ .range q) → PyVal.cmp d o (.range r) x = .error .typeError ∧ PyVal.cmp d o x (.range r) = .error .typeError) ∧
    (∀ b, (∀ c, x ≠ .book c) → PyVal.cmp d o (.book b) x = .error .typeError ∧ PyVal.cmp d o x (.book b) = .error .typeError) ∧
    ∀ l, PyVal.cmp d o (.list l) x = .error .typeError ∧ PyVal.cmp d o x (.list l) = .error .typeError := by
  refine ⟨fun v hx => ?_, fun v hx => ?_, fun v hx => ?_, fun l => ?_⟩ <;>
    cases x <;> first | exact ⟨rfl, rfl⟩ | exact absurd rfl (hx _)

/-- C76: the `>` with which the constructors rearrange their arguments is this one. -/
theorem C76_gt (d : BibleData) (x y : PyVal) : PyVal.gt d x y = PyVal.cmp d .gt x y := by
  cases x <;> cases y <;> first
    | rfl
    | exact ((BibleBook.cmp_less d _ _).2.2.1).symm
    | exact ((BibleVerse.cmp_less d _ _).2.2.1).symm
    | exact ((BibleRange.cmp_less d _ _).2.2.1).symm

/-- Mark 1:1-3 comes before Mark 1:1-4 and after Matthew; a verse and a range are not compared. -/
example : (⟨⟨.Mark, 1, 1⟩, ⟨.Mark, 1, 3⟩⟩ : BibleRange).cmp defaultData .lt ⟨⟨.Mark, 1, 1⟩, ⟨.Mark, 1, 4⟩⟩ = .ok true ∧
    (⟨⟨.Mark, 1, 1⟩, ⟨.Mark, 1, 3⟩⟩ : BibleRange).cmp defaultData .ge ⟨⟨.Matt, 1, 1⟩, ⟨.Matt, 28, 20⟩⟩ = .ok true ∧
    PyVal.cmp defaultData .lt (.verse ⟨.Mark, 1, 1⟩) (.range ⟨⟨.Mark, 1, 1⟩, ⟨.Mark, 1, 3⟩⟩) = .error .typeError := by decide +kernel
example : defaultData.WF ∧ (⟨.Mark, 1, 1⟩ : BibleVerse) ∈ canon defaultData true ∧ defaultData.bookOrder.Nodup ∧
    defaultData.bookOrder[40]? = some .Mark := by
  refine ⟨defaultData_wf, (mem_canon defaultData_wf).2 (by decide +kernel), by decide +kernel, by decide +kernel⟩

end Bibleref

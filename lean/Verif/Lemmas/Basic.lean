import Verif.Spec
import Verif.Model.DefaultData

/-! Basic lemmas: evaluation of the book methods under `WF`, membership in `canon`. -/

namespace Bibleref
open Spec

theorem BibleBook.mem_all (b : BibleBook) : b ∈ BibleBook.all := by
  cases b <;> decide

/-- A property of books that holds for every book in the enum list holds for every book. -/
theorem BibleBook.forall_of_all {p : BibleBook → Prop} (h : ∀ b ∈ BibleBook.all, p b) (b : BibleBook) : p b :=
  h b (mem_all b)

/-- The default book order lists all books. -/
theorem defaultData_complete (b : BibleBook) : b ∈ defaultData.bookOrder :=
  BibleBook.forall_of_all (p := (· ∈ defaultData.bookOrder)) (by decide +kernel) b

instance {d : BibleData} : CoeOut d.Full d.WF := ⟨BibleData.Full.toWF⟩

theorem defaultData_wf : defaultData.WF where
  nodup := by decide +kernel
  chaps := by
    have key : ∀ b ∈ BibleBook.all, defaultMaxVerses b ≠ none ∧ (defaultMaxVerses b).getD [] ≠ [] ∧
        ∀ m ∈ (defaultMaxVerses b).getD [], 1 ≤ m := by decide +kernel
    intro b
    have := key b (BibleBook.mem_all b)
    show ∃ l, defaultMaxVerses b = some l ∧ _
    revert this
    cases defaultMaxVerses b with
    | none => exact fun h => absurd rfl h.1
    | some l => exact fun h => ⟨l, rfl, h.2⟩

theorem defaultData_full : defaultData.Full := ⟨defaultData_wf, defaultData_complete⟩

theorem mem_intRange {a b x : Int} : x ∈ intRange a b ↔ a ≤ x ∧ x ≤ b := by
  simp only [intRange, List.mem_map, List.mem_range]
  constructor
  · rintro ⟨i, hi, rfl⟩; omega
  · rintro ⟨h1, h2⟩; exact ⟨(x - a).toNat, by omega, by omega⟩

theorem length_intRange (a b : Int) : (intRange a b).length = (b + 1 - a).toNat := by simp [intRange]

theorem getElem?_intRange {a b : Int} {i : Nat} :
    (intRange a b)[i]? = if a + i ≤ b then some (a + i) else none := by
  simp only [intRange, List.getElem?_map]
  split
  · rw [List.getElem?_range (by omega)]; rfl
  · rw [List.getElem?_eq_none (by simp; omega)]; rfl

theorem pairwise_intRange (a b : Int) : (intRange a b).Pairwise (· < ·) := by
  simp only [intRange, List.pairwise_map]
  exact List.pairwise_lt_range.imp (by intros; omega)

/-- `v` exists (with `v0`: verse 0s allowed), whether its book is in the book order or not. -/
def Exists (d : BibleData) (v0 : Bool) (v : BibleVerse) : Prop :=
  1 ≤ v.chap ∧ v.chap ≤ nChaps d v.book ∧ firstNum d v0 v.book v.chap ≤ v.verse ∧ v.verse ≤ lastNum d v.book v.chap

/-- `v` exists (with `v0`: verse 0s allowed) and its book is in the book order. -/
def Valid (d : BibleData) (v0 : Bool) (v : BibleVerse) : Prop :=
  1 ≤ v.chap ∧ v.chap ≤ nChaps d v.book ∧ firstNum d v0 v.book v.chap ≤ v.verse ∧
    v.verse ≤ lastNum d v.book v.chap ∧ v.book ∈ d.bookOrder

theorem Valid.listed {d v0 v} (h : Valid d v0 v) : v.book ∈ d.bookOrder := h.2.2.2.2
theorem Valid.le_last {d v0 v} (h : Valid d v0 v) : v.verse ≤ lastNum d v.book v.chap := h.2.2.2.1
theorem valid_iff {d v0 v} : Valid d v0 v ↔ Exists d v0 v ∧ v.book ∈ d.bookOrder := by
  simp only [Valid, Exists, and_assoc]

theorem mem_chapVerses {d v0 b c v} : v ∈ chapVerses d v0 b c ↔
    v.book = b ∧ v.chap = c ∧ firstNum d v0 b c ≤ v.verse ∧ v.verse ≤ lastNum d b c := by
  simp only [chapVerses, List.mem_map, mem_intRange]
  constructor
  · rintro ⟨n, h, rfl⟩; exact ⟨rfl, rfl, h⟩
  · rintro ⟨rfl, rfl, h⟩; exact ⟨v.verse, h, rfl⟩

theorem mem_chapters {d b c} : c ∈ chapters d b ↔ 1 ≤ c ∧ c ≤ nChaps d b := by simp [chapters, mem_intRange]

theorem mem_bookVerses {d v0 b v} : v ∈ bookVerses d v0 b ↔ v.book = b ∧ Exists d v0 v := by
  simp only [bookVerses, List.mem_flatMap, mem_chapVerses, mem_chapters, Exists]
  constructor
  · rintro ⟨c, h, rfl, rfl, h'⟩; exact ⟨rfl, h.1, h.2, h'⟩
  · rintro ⟨rfl, h1, h2, h'⟩; exact ⟨v.chap, ⟨h1, h2⟩, rfl, rfl, h'⟩

theorem mem_canon_iff {d v0 v} : v ∈ canon d v0 ↔ v.book ∈ d.bookOrder ∧ Exists d v0 v := by
  simp only [canon, List.mem_flatMap, mem_bookVerses]
  constructor
  · rintro ⟨b, h, rfl, h'⟩; exact ⟨h, h'⟩
  · rintro ⟨h, h'⟩; exact ⟨v.book, h, rfl, h'⟩

theorem mem_canon {d v0 v} (_ : d.WF) : v ∈ canon d v0 ↔ Valid d v0 v := by
  rw [mem_canon_iff, valid_iff, and_comm]

namespace BibleData.WF
variable {d : BibleData} (h : d.WF)
include h

theorem table (b) : ∃ l, d.maxVerses b = some l ∧ l ≠ [] ∧ (∀ m ∈ l, 1 ≤ m) ∧ nChaps d b = l.length := by
  obtain ⟨l, h1, h2, h3⟩ := h.chaps b
  exact ⟨l, h1, h2, h3, by simp [nChaps, h1]⟩

theorem nChaps_pos (b) : 1 ≤ nChaps d b := by
  obtain ⟨l, h1, h2, h3, h4⟩ := h.table b
  rw [h4]; exact List.length_pos_iff.mpr h2

theorem minChapNum (b : BibleBook) : b.minChapNum d = 1 := by
  obtain ⟨l, h1, _⟩ := h.table b; simp [BibleBook.minChapNum, h1]

theorem maxChapNum (b : BibleBook) : b.maxChapNum d = nChaps d b := by
  obtain ⟨l, h1, h2, h3, h4⟩ := h.table b; simp [BibleBook.maxChapNum, h1, h4]

theorem chapCount (b : BibleBook) : b.chapCount d = nChaps d b := by
  simp [BibleBook.chapCount, h.minChapNum, h.maxChapNum]

theorem lastNum_pos {b : BibleBook} {c : Int} (h1 : 1 ≤ c) (h2 : c ≤ nChaps d b) : 1 ≤ lastNum d b c := by
  obtain ⟨l, t1, t2, t3, t4⟩ := h.table b
  have : (c - 1).toNat < l.length := by omega
  simp only [lastNum, t1, Option.getD_some, List.getElem?_eq_getElem this]
  exact t3 _ (List.getElem_mem _)

theorem maxVerseNum (b : BibleBook) (c : Int) : b.maxVerseNum d c =
    if 1 ≤ c ∧ c ≤ nChaps d b then .ok (lastNum d b c) else .error .invalidReference := by
  obtain ⟨l, t1, t2, t3, t4⟩ := h.table b
  simp only [BibleBook.maxVerseNum, h.minChapNum, h.maxChapNum]
  by_cases hc : 1 ≤ c ∧ c ≤ nChaps d b
  · have : (c - 1).toNat < l.length := by omega
    rw [if_neg (by omega), if_pos hc]
    simp only [t1, lastNum, List.getElem?_eq_getElem this, Option.getD_some]
  · rw [if_pos (by omega), if_neg hc]

end BibleData.WF

theorem BibleData.WF.minVerseNum {e : Env} (h : e.data.WF) (b : BibleBook) (c : Int) (f : Option BibleFlag) :
    b.minVerseNum e c f =
      if 1 ≤ c ∧ c ≤ nChaps e.data b then .ok (firstNum e.data (e.eff f).verse0 b c) else .error .invalidReference := by
  simp only [BibleBook.minVerseNum, h.minChapNum, h.maxChapNum]
  by_cases hc : 1 ≤ c ∧ c ≤ nChaps e.data b
  · rw [if_neg (by omega), if_pos hc, firstNum]
  · rw [if_pos (by omega), if_neg hc]

theorem firstNum_cases (d v0 b c) : firstNum d v0 b c = 0 ∨ firstNum d v0 b c = 1 := by
  unfold firstNum; split <;> simp

theorem firstNum_le_one (d v0 b c) : firstNum d v0 b c ≤ 1 := by
  rcases firstNum_cases d v0 b c with h | h <;> omega

theorem firstNum_nonneg (d v0 b c) : 0 ≤ firstNum d v0 b c := by
  rcases firstNum_cases d v0 b c with h | h <;> omega

theorem firstNum_true_le (d v0 b c) : firstNum d true b c ≤ firstNum d v0 b c := by
  unfold firstNum; cases v0 <;> simp; split <;> omega

@[simp] theorem firstNum_false (d b c) : firstNum d false b c = 1 := by simp [firstNum]

theorem Exists.mono {d v0 v} (h : Exists d v0 v) : Exists d true v := by
  have := firstNum_true_le d v0 v.book v.chap
  unfold Exists at *; omega

theorem Valid.mono {d v0 v} (h : Valid d v0 v) : Valid d true v := by
  rw [valid_iff] at *; exact ⟨h.1.mono, h.2⟩

theorem Exists.of_ne_zero {d v0 v} (h : Exists d true v) (hv : v.verse ≠ 0) : Exists d v0 v := by
  have := firstNum_le_one d v0 v.book v.chap
  have := firstNum_nonneg d true v.book v.chap
  unfold Exists at *; omega

theorem Valid.of_ne_zero {d v0 v} (h : Valid d true v) (hv : v.verse ≠ 0) : Valid d v0 v := by
  rw [valid_iff] at *; exact ⟨h.1.of_ne_zero hv, h.2⟩

instance (d v0 v) : Decidable (Exists d v0 v) := by unfold Exists; infer_instance
instance (d v0 v) : Decidable (Valid d v0 v) := by unfold Valid; infer_instance

/-- The constructor succeeds exactly on existing verses. -/
theorem BibleVerse.new_exists {e : Env} (h : e.data.WF) (b : BibleBook) (c n : Int) (f : Option BibleFlag) :
    BibleVerse.new e b c n f =
      if Exists e.data (e.eff f).verse0 ⟨b, c, n⟩ then .ok ⟨b, c, n⟩ else .error .invalidReference := by
  simp only [new, h.minChapNum, h.maxChapNum, h.minVerseNum, h.maxVerseNum]
  by_cases hc : 1 ≤ c ∧ c ≤ nChaps e.data b
  · rw [if_neg (by omega), if_pos hc, if_pos hc]
    simp only [Exists, hc, true_and, bind, Except.bind]
    split
    · rw [if_neg (by omega)]
    · rw [if_pos (by omega)]
  · rw [if_pos (by omega), if_neg (by simp only [Exists]; omega)]

/-- The constructor with a book of the book order. -/
theorem BibleVerse.new_eq {e : Env} (h : e.data.WF) {b : BibleBook} (hb : b ∈ e.data.bookOrder) (c n : Int)
    (f : Option BibleFlag) : BibleVerse.new e b c n f =
      if Valid e.data (e.eff f).verse0 ⟨b, c, n⟩ then .ok ⟨b, c, n⟩ else .error .invalidReference := by
  rw [new_exists h]
  by_cases hv : Exists e.data (e.eff f).verse0 ⟨b, c, n⟩
  · rw [if_pos hv, if_pos (valid_iff.mpr ⟨hv, hb⟩)]
  · rw [if_neg hv, if_neg (fun x => hv (valid_iff.mp x).1)]

theorem BibleVerse.new_ok {e : Env} (h : e.data.WF) {b c n f} (hv : Valid e.data (e.eff f).verse0 ⟨b, c, n⟩) :
    BibleVerse.new e b c n f = .ok ⟨b, c, n⟩ := by
  rw [new_eq h hv.listed, if_pos hv]

end Bibleref

import Verif.Lemmas.Basic
import Verif.Lemmas.Compare

/-! Comparison of verses and positions in `canon`. -/

set_option linter.unusedSectionVars false

namespace Bibleref
open Spec

/-- Position of a book in the order. -/
def bidx (d : BibleData) (b : BibleBook) : Nat := b.rank d

theorem order_of_mem {d : BibleData} {b : BibleBook} (hb : b ∈ d.bookOrder) :
    b.order d = some (d.bookOrder.idxOf b) := by
  have := List.idxOf_lt_length_of_mem hb
  rw [BibleBook.order, List.idxOf?_eq_some_iff]
  refine ⟨this, by simp, ?_⟩
  intro j hj
  simpa using List.not_of_lt_findIdx hj

theorem order_of_not_mem {d : BibleData} {b : BibleBook} (hb : b ∉ d.bookOrder) : b.order d = none := by
  rw [BibleBook.order, List.idxOf?_eq_none_iff]; exact hb

theorem bidx_of_mem {d : BibleData} {b : BibleBook} (hb : b ∈ d.bookOrder) : bidx d b = d.bookOrder.idxOf b := by
  simp only [bidx, BibleBook.rank, order_of_mem hb]

theorem bidx_of_not_mem {d : BibleData} {b : BibleBook} (hb : b ∉ d.bookOrder) :
    bidx d b = d.bookOrder.length + BibleBook.all.idxOf b := by
  simp only [bidx, BibleBook.rank, order_of_not_mem hb]

namespace BibleData.WF
variable {d : BibleData} (h : d.WF)
include h

theorem order_eq {b : BibleBook} (hb : b ∈ d.bookOrder) : b.order d = some (bidx d b) := by
  rw [order_of_mem hb, bidx_of_mem hb]

theorem bidx_lt {b : BibleBook} (hb : b ∈ d.bookOrder) : bidx d b < d.bookOrder.length := by
  rw [bidx_of_mem hb]; exact List.idxOf_lt_length_of_mem hb

theorem bidx_get {b : BibleBook} (hb : b ∈ d.bookOrder) : d.bookOrder[bidx d b]? = some b := by
  rw [bidx_of_mem hb, List.getElem?_eq_getElem (List.idxOf_lt_length_of_mem hb)]
  simp

theorem bidx_inj {a b : BibleBook} : bidx d a = bidx d b ↔ a = b := by
  constructor
  · intro hh
    by_cases ha : a ∈ d.bookOrder <;> by_cases hb : b ∈ d.bookOrder
    · have h1 := h.bidx_get ha
      rw [hh, h.bidx_get hb] at h1
      exact (Option.some.inj h1).symm
    · have := h.bidx_lt ha
      rw [bidx_of_not_mem hb] at hh; omega
    · have := h.bidx_lt hb
      rw [bidx_of_not_mem ha] at hh; omega
    · rw [bidx_of_not_mem ha, bidx_of_not_mem hb] at hh
      have h1 := List.getElem_idxOf (List.idxOf_lt_length_of_mem (BibleBook.mem_all a))
      have h2 := List.getElem_idxOf (List.idxOf_lt_length_of_mem (BibleBook.mem_all b))
      rw [← h1, ← h2]
      congr 1; omega
  · rintro rfl; rfl

theorem bidx_of_get {i : Nat} {b : BibleBook} (hb : d.bookOrder[i]? = some b) : bidx d b = i := by
  obtain ⟨hi, rfl⟩ := List.getElem?_eq_some_iff.mp hb
  rw [bidx_of_mem (List.getElem_mem hi)]
  exact h.nodup.idxOf_getElem i hi

theorem book_lt (a b : BibleBook) : a.lt d b = true ↔ bidx d a < bidx d b := by
  simp [BibleBook.lt, bidx]

theorem book_le (a b : BibleBook) : a.le d b = true ↔ bidx d a ≤ bidx d b := by
  simp [BibleBook.le, bidx]

theorem lt_iff (v w : BibleVerse) : v.lt d w = true ↔ bidx d v.book < bidx d w.book ∨
    (v.book = w.book ∧ (v.chap < w.chap ∨ (v.chap = w.chap ∧ v.verse < w.verse))) := by
  unfold BibleVerse.lt
  have := h.bidx_inj (a := v.book) (b := w.book)
  split
  · rename_i hb
    rw [h.book_lt]; simp [hb]
  · rename_i hb
    have hb : v.book = w.book := by simpa using hb
    have := this.mpr hb
    split <;> simp_all <;> omega

theorem le_iff (v w : BibleVerse) : v.le d w = true ↔ bidx d v.book < bidx d w.book ∨
    (v.book = w.book ∧ (v.chap < w.chap ∨ (v.chap = w.chap ∧ v.verse ≤ w.verse))) := by
  unfold BibleVerse.le
  have := h.bidx_inj (a := v.book) (b := w.book)
  split
  · rename_i hb
    rw [h.book_le]
    have : bidx d v.book ≠ bidx d w.book := fun hh => hb (this.mp hh)
    simp only [hb, false_and, or_false]; omega
  · rename_i hb
    have hb : v.book = w.book := by simpa using hb
    have := this.mpr hb
    split <;> simp_all <;> omega

theorem lt_irrefl (v : BibleVerse) : ¬ v.lt d v = true := by rw [h.lt_iff]; omega

theorem lt_asymm {v w : BibleVerse} (h1 : v.lt d w = true) : ¬ w.lt d v = true := by
  rw [h.lt_iff] at *
  have := h.bidx_inj (a := v.book) (b := w.book)
  rintro (h2 | ⟨h2, h3⟩) <;> rcases h1 with h1 | ⟨h1, h4⟩
  · omega
  · have := this.mpr h1; omega
  · have := this.mpr h2.symm; omega
  · omega

theorem pairwise_bookOrder : d.bookOrder.Pairwise (fun a b => bidx d a < bidx d b) := by
  rw [List.pairwise_iff_getElem]
  intro i j hi hj hij
  rw [h.bidx_of_get (List.getElem?_eq_getElem hi), h.bidx_of_get (List.getElem?_eq_getElem hj)]
  exact hij

theorem pairwise_bookVerses (v0 b) : (bookVerses d v0 b).Pairwise (fun v w => v.lt d w = true) := by
  unfold bookVerses
  rw [List.pairwise_flatMap]
  constructor
  · intro c _
    unfold chapVerses
    rw [List.pairwise_map]
    exact (pairwise_intRange _ _).imp (by intro a b hab; rw [h.lt_iff]; right; exact ⟨rfl, .inr ⟨rfl, hab⟩⟩)
  · refine (pairwise_intRange _ _).imp ?_
    intro c c' hcc v hv w hw
    rw [mem_chapVerses] at hv hw
    rw [h.lt_iff]; right
    exact ⟨hv.1.trans hw.1.symm, .inl (by omega)⟩

theorem pairwise_canon (v0) : (canon d v0).Pairwise (fun v w => v.lt d w = true) := by
  unfold canon
  rw [List.pairwise_flatMap]
  refine ⟨fun b _ => h.pairwise_bookVerses v0 b, h.pairwise_bookOrder.imp ?_⟩
  intro b b' hbb v hv w hw
  rw [mem_bookVerses] at hv hw
  rw [h.lt_iff]; left
  rw [hv.1, hw.1]; exact hbb

theorem nodup_canon (v0) : (canon d v0).Nodup :=
  (h.pairwise_canon v0).imp (by rintro a b hab rfl; exact h.lt_irrefl _ hab)

theorem nodup_bookVerses (v0 b) : (bookVerses d v0 b).Nodup :=
  (h.pairwise_bookVerses v0 b).imp (by rintro a b hab rfl; exact h.lt_irrefl _ hab)

omit h in
theorem next_mem {b b' : BibleBook} (hb : b.next d = some b') : b' ∈ d.bookOrder := by
  unfold BibleBook.next at hb
  split at hb
  · cases hb
  · split at hb
    · cases hb
    · exact List.mem_of_getElem? hb

omit h in
theorem prev_mem {b b' : BibleBook} (hb : b.prev d = some b') : b' ∈ d.bookOrder := by
  unfold BibleBook.prev at hb
  split at hb
  · cases hb
  · split at hb
    · cases hb
    · exact List.mem_of_getElem? hb

end BibleData.WF

/-- In a list sorted by a relation, positions compare as the relation does. -/
theorem index_lt_iff {α} {r : α → α → Prop} (irrefl : ∀ a, ¬ r a a) (asymm : ∀ a b, r a b → ¬ r b a) {l : List α}
    (hl : l.Pairwise r) {i j : Nat} {v w : α} (hi : l[i]? = some v) (hj : l[j]? = some w) : r v w ↔ i < j := by
  obtain ⟨hi', rfl⟩ := List.getElem?_eq_some_iff.mp hi
  obtain ⟨hj', rfl⟩ := List.getElem?_eq_some_iff.mp hj
  rw [List.pairwise_iff_getElem] at hl
  constructor
  · intro hr
    rcases Nat.lt_trichotomy i j with hlt | heq | hgt
    · exact hlt
    · subst heq; exact absurd hr (irrefl _)
    · exact absurd hr (asymm _ _ (hl j i hj' hi' hgt))
  · exact fun hlt => hl i j hi' hj' hlt

theorem index_unique {α} {l : List α} (hl : l.Nodup) {i j : Nat} {v : α} (hi : l[i]? = some v) (hj : l[j]? = some v) :
    i = j := by
  obtain ⟨hi', h1⟩ := List.getElem?_eq_some_iff.mp hi
  obtain ⟨hj', h2⟩ := List.getElem?_eq_some_iff.mp hj
  exact (List.getElem?_inj hi' hl).mp (by rw [hi, hj])

namespace BibleData.WF
variable {d : BibleData} (h : d.WF)
include h

theorem canon_lt_iff {v0} {i j : Nat} {v w : BibleVerse} (hi : (canon d v0)[i]? = some v) (hj : (canon d v0)[j]? = some w) :
    v.lt d w = true ↔ i < j :=
  index_lt_iff (r := fun v w => v.lt d w = true) (fun a => h.lt_irrefl a) (fun _ _ h1 => h.lt_asymm h1) (h.pairwise_canon v0) hi hj

theorem get_pos {v v0} (hv : Valid d v0 v) : (canon d true)[pos d v]? = some v := by
  have hm : v ∈ canon d true := (mem_canon h).mpr hv.mono
  rw [pos, List.getElem?_eq_getElem (List.idxOf_lt_length_of_mem hm)]
  simp

theorem lt_pos {v w : BibleVerse} {v0 w0} (hv : Valid d v0 v) (hw : Valid d w0 w) : v.lt d w = true ↔ pos d v < pos d w :=
  h.canon_lt_iff (h.get_pos hv) (h.get_pos hw)

theorem pos_inj {v w : BibleVerse} {v0 w0} (hv : Valid d v0 v) (hw : Valid d w0 w) : pos d v = pos d w ↔ v = w := by
  constructor
  · intro hh
    have h1 := h.get_pos hv
    rw [hh, h.get_pos hw] at h1
    exact (Option.some.inj h1).symm
  · rintro rfl; rfl

theorem le_iff_lt_or_eq (v w : BibleVerse) : v.le d w = true ↔ v.lt d w = true ∨ v = w := by
  rw [h.le_iff, h.lt_iff]
  constructor
  · rintro (h1 | ⟨h1, h2 | ⟨h2, h3⟩⟩)
    · exact .inl (.inl h1)
    · exact .inl (.inr ⟨h1, .inl h2⟩)
    · by_cases hv : v.verse = w.verse
      · right; cases v; cases w; simp_all
      · left; right; exact ⟨h1, .inr ⟨h2, by omega⟩⟩
  · rintro ((h1 | ⟨h1, h2⟩) | rfl)
    · exact .inl h1
    · exact .inr ⟨h1, by omega⟩
    · exact .inr ⟨rfl, by omega⟩

theorem le_pos {v w : BibleVerse} {v0 w0} (hv : Valid d v0 v) (hw : Valid d w0 w) : v.le d w = true ↔ pos d v ≤ pos d w := by
  rw [h.le_iff_lt_or_eq, h.lt_pos hv hw, ← h.pos_inj hv hw]; omega

end BibleData.WF
end Bibleref

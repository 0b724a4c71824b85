import Verif.Lemmas.VerseMore

/-! Lemmas about ranges: comparisons through positions, steps in the reading-order list, slices of it. -/

namespace Bibleref
open Spec

/-- Position of a verse in the reading-order list with or without verse 0s. -/
def ix (d : BibleData) (v0 : Bool) (v : BibleVerse) : Nat := (canon d v0).idxOf v

variable {d : BibleData} (h : d.WF)

section
include h

theorem ix_get {v0 v} (hv : Valid d v0 v) : (canon d v0)[ix d v0 v]? = some v := by
  have hm : v ∈ canon d v0 := (mem_canon h).mpr hv
  rw [ix, List.getElem?_eq_getElem (List.idxOf_lt_length_of_mem hm)]
  simp

theorem ix_of_get {v0} {i : Nat} {v : BibleVerse} (hv : (canon d v0)[i]? = some v) : ix d v0 v = i :=
  index_unique (h.nodup_canon v0) (ix_get h ((mem_canon h).mp (List.mem_of_getElem? hv))) hv

theorem valid_of_get {v0} {i : Nat} {v : BibleVerse} (hv : (canon d v0)[i]? = some v) : Valid d v0 v :=
  (mem_canon h).mp (List.mem_of_getElem? hv)

theorem lt_ix {v w : BibleVerse} {v0} (hv : Valid d v0 v) (hw : Valid d v0 w) : v.lt d w = true ↔ ix d v0 v < ix d v0 w :=
  h.canon_lt_iff (ix_get h hv) (ix_get h hw)

theorem ix_inj {v w : BibleVerse} {v0} (hv : Valid d v0 v) (hw : Valid d v0 w) : ix d v0 v = ix d v0 w ↔ v = w := by
  constructor
  · intro hh
    have h1 := ix_get h hv
    rw [hh, ix_get h hw] at h1
    exact (Option.some.inj h1).symm
  · rintro rfl; rfl

theorem le_ix {v w : BibleVerse} {v0} (hv : Valid d v0 v) (hw : Valid d v0 w) : v.le d w = true ↔ ix d v0 v ≤ ix d v0 w := by
  rw [h.le_iff_lt_or_eq, lt_ix h hv hw, ← ix_inj h hv hw]; omega

theorem pos_lt_ix {v w : BibleVerse} {v0} (hv : Valid d v0 v) (hw : Valid d v0 w) :
    pos d v < pos d w ↔ ix d v0 v < ix d v0 w := by rw [← h.lt_pos hv hw, lt_ix h hv hw]

theorem pos_le_ix {v w : BibleVerse} {v0} (hv : Valid d v0 v) (hw : Valid d v0 w) :
    pos d v ≤ pos d w ↔ ix d v0 v ≤ ix d v0 w := by rw [← h.le_pos hv hw, le_ix h hv hw]

theorem book_le_of_pos {v w : BibleVerse} {v0 w0} (hv : Valid d v0 v) (hw : Valid d w0 w) (hh : pos d v ≤ pos d w) :
    bidx d v.book ≤ bidx d w.book := by
  rw [← h.le_pos hv hw, h.le_iff] at hh
  rcases hh with hh | ⟨hh, _⟩
  · omega
  · rw [hh]; omega

/-- The verses of a book are a segment of the list of all verses. -/
theorem canon_book_split (v0 : Bool) {b : BibleBook} (hb : b ∈ d.bookOrder) : ∃ pre post, canon d v0 = pre ++ (bookVerses d v0 b ++ post) ∧
    (∀ u ∈ pre, u.book ≠ b) ∧ (∀ u ∈ post, u.book ≠ b) := by
  have hl := hb
  have hb : d.bookOrder = d.bookOrder.take (bidx d b) ++ b :: d.bookOrder.drop (bidx d b + 1) := by
    have := h.bidx_lt hl
    conv => lhs; rw [← List.take_append_drop (bidx d b) d.bookOrder]
    rw [List.drop_eq_getElem_cons this]
    congr 2
    simp [bidx_of_mem hl]
  have hnd := h.nodup
  rw [hb, List.nodup_append] at hnd
  obtain ⟨_, h2, h3⟩ := hnd
  rw [List.nodup_cons] at h2
  refine ⟨(d.bookOrder.take (bidx d b)).flatMap (bookVerses d v0), (d.bookOrder.drop (bidx d b + 1)).flatMap (bookVerses d v0),
    ?_, ?_, ?_⟩
  · conv => lhs; rw [canon, hb]
    rw [List.flatMap_append, List.flatMap_cons]
  · intro u hu
    obtain ⟨b', hb', hu'⟩ := List.mem_flatMap.mp hu
    rw [(mem_bookVerses.mp hu').1]
    exact h3 b' hb' b (by simp)
  · intro u hu
    obtain ⟨b', hb', hu'⟩ := List.mem_flatMap.mp hu
    rw [(mem_bookVerses.mp hu').1]
    rintro rfl
    exact h2.1 hb'

/-- Looking up in the verses of a book is looking up in all verses and keeping what is in the book. -/
theorem bookVerses_get {v0} {v : BibleVerse} {i j : Nat} (hi : (canon d v0)[i]? = some v)
    (hj : (bookVerses d v0 v.book)[j]? = some v) (n : Nat) :
    (bookVerses d v0 v.book)[j + n]? = (canon d v0)[i + n]?.filter (fun w => decide (w.book = v.book)) ∧
    (if n ≤ j then (bookVerses d v0 v.book)[j - n]? else none) =
      (if n ≤ i then (canon d v0)[i - n]? else none).filter (fun w => decide (w.book = v.book)) := by
  obtain ⟨pre, post, hsplit, hpre, hpost⟩ := canon_book_split h v0 (valid_of_get h hi).listed
  have hjl := (List.getElem?_eq_some_iff.mp hj).1
  have hij : i = pre.length + j := by
    refine index_unique (h.nodup_canon v0) hi ?_
    rw [hsplit, List.getElem?_append_right (by omega), show pre.length + j - pre.length = j by omega,
      List.getElem?_append_left hjl, hj]
  have hin : ∀ k, k < (bookVerses d v0 v.book).length → ∃ w, (canon d v0)[pre.length + k]? = some w ∧
      (bookVerses d v0 v.book)[k]? = some w ∧ w.book = v.book := by
    intro k hk
    refine ⟨(bookVerses d v0 v.book)[k], ?_, List.getElem?_eq_getElem hk, ?_⟩
    · rw [hsplit, List.getElem?_append_right (by omega), show pre.length + k - pre.length = k by omega,
        List.getElem?_append_left hk, List.getElem?_eq_getElem hk]
    · exact (mem_bookVerses.mp (List.getElem_mem hk)).1
  constructor
  · by_cases hk : j + n < (bookVerses d v0 v.book).length
    · obtain ⟨w, h1, h2, h3⟩ := hin _ hk
      rw [hij, show pre.length + j + n = pre.length + (j + n) by omega, h1, h2]
      simp [Option.filter_some, h3]
    · rw [List.getElem?_eq_none (by omega)]
      have : (canon d v0)[i + n]? = post[j + n - (bookVerses d v0 v.book).length]? := by
        rw [hsplit, List.getElem?_append_right (by omega), List.getElem?_append_right (by omega)]
        congr 1; omega
      rw [this]
      cases hp : post[j + n - (bookVerses d v0 v.book).length]? with
      | none => rfl
      | some w => simp [Option.filter_some, hpost w (List.mem_of_getElem? hp)]
  · by_cases hk : n ≤ j
    · obtain ⟨w, h1, h2, h3⟩ := hin (j - n) (by omega)
      rw [if_pos hk, if_pos (by omega), hij, show pre.length + j - n = pre.length + (j - n) by omega, h1, h2]
      simp [Option.filter_some, h3]
    · rw [if_neg hk]
      by_cases hn : n ≤ i
      · rw [if_pos hn]
        have : (canon d v0)[i - n]? = pre[i - n]? := by
          rw [hsplit, List.getElem?_append_left (by omega)]
        rw [this]
        cases hp : pre[i - n]? with
        | none => rfl
        | some w => simp [Option.filter_some, hpre w (List.mem_of_getElem? hp)]
      · rw [if_neg hn]; rfl

end

theorem optFilter_true {α} (o : Option α) : o.filter (fun _ => true) = o := by
  cases o <;> simp [Option.filter_some]

/-- `add` in terms of the list of all verses. -/
theorem add_canon {e : Env} (h : e.data.WF) {v : BibleVerse} {flags : Option BibleFlag} {v0 : Bool}
    (hv0 : v0 = ((e.eff flags).verse0 || v.verse == 0)) {i : Nat} (hi : (canon e.data v0)[i]? = some v) (n : Nat) :
    v.add e n flags =
      .ok ((canon e.data v0)[i + n]?.filter (fun w => (e.eff flags).multibook || decide (w.book = v.book))) := by
  have hval := valid_of_get h hi
  cases hm : (e.eff flags).multibook
  · obtain ⟨j, hj⟩ := List.mem_iff_getElem?.mp (mem_bookVerses.mpr ⟨rfl, (valid_iff.mp hval).1⟩)
    have := add_walk h (v := v) (flags := flags) (i := j) (by rw [hm, ← hv0]; exact hj) n
    rw [this, hm, ← hv0]
    simp only [walk, Bool.false_eq_true, if_false, Bool.false_or]
    rw [(bookVerses_get h hi hj n).1]
  · have := add_walk h (v := v) (flags := flags) (i := i) (by rw [hm, ← hv0]; exact hi) n
    rw [this, hm, ← hv0]
    simp only [walk, if_true, Bool.true_or]
    rw [optFilter_true]

/-- `subtract(1)` in terms of the list of all verses. -/
theorem sub_one_canon {e : Env} (h : e.data.WF) {v : BibleVerse} {flags : Option BibleFlag} {v0 : Bool}
    (hv0 : v0 = ((e.eff flags).verse0 || v.verse == 0)) {i : Nat} (hi : (canon e.data v0)[i]? = some v) :
    v.sub e 1 flags = .ok ((if 1 ≤ i then (canon e.data v0)[i - 1]? else none).filter
      (fun w => (e.eff flags).multibook || decide (w.book = v.book))) := by
  have hval := valid_of_get h hi
  cases hm : (e.eff flags).multibook
  · obtain ⟨j, hj⟩ := List.mem_iff_getElem?.mp (mem_bookVerses.mpr ⟨rfl, (valid_iff.mp hval).1⟩)
    have := sub_one_walk h (v := v) (flags := flags) (i := j) (by rw [hm, ← hv0]; exact hj)
    rw [this, hm, ← hv0]
    simp only [walk, Bool.false_eq_true, if_false, Bool.false_or]
    rw [(bookVerses_get h hi hj 1).2]
  · have := sub_one_walk h (v := v) (flags := flags) (i := i) (by rw [hm, ← hv0]; exact hi)
    rw [this, hm, ← hv0]
    simp only [walk, if_true, Bool.true_or]
    rw [optFilter_true]

/-- A verse of the universe `canon d v0` does not change which verses are honoured. -/
theorem Valid.or_self {d : BibleData} {v0 : Bool} {v : BibleVerse} (hv : Valid d v0 v) : (v0 || v.verse == 0) = v0 := by
  cases v0
  · by_cases h0 : v.verse = 0
    · have := hv.2.2.1
      rw [firstNum_false, h0] at this; omega
    · simp [h0]
  · rfl

/-! Slices -/

theorem slice_append {α} (l : List α) {i j k : Nat} (h1 : i ≤ j + 1) (h2 : j ≤ k) :
    (l.drop i).take (j + 1 - i) ++ (l.drop (j + 1)).take (k - j) = (l.drop i).take (k + 1 - i) := by
  have : k + 1 - i = (j + 1 - i) + (k - j) := by omega
  rw [this, List.take_add, List.drop_drop]
  rw [show i + (j + 1 - i) = j + 1 by omega]

theorem filter_slice {α} (p : α → Bool) (l : List α) (i j : Nat)
    (hp : ∀ (k : Nat) v, l[k]? = some v → (p v = true ↔ i ≤ k ∧ k ≤ j)) : l.filter p = (l.drop i).take (j + 1 - i) := by
  have hsplit : l = l.take i ++ ((l.drop i).take (j + 1 - i) ++ (l.drop i).drop (j + 1 - i)) := by
    rw [List.take_append_drop, List.take_append_drop]
  conv => lhs; rw [hsplit]
  rw [List.filter_append, List.filter_append]
  have h1 : (l.take i).filter p = [] := by
    rw [List.filter_eq_nil_iff]
    intro v hv
    obtain ⟨k, hk⟩ := List.mem_iff_getElem?.mp hv
    have hki : k < i := by
      have := (List.getElem?_eq_some_iff.mp hk).1
      simp at this; omega
    rw [List.getElem?_take_of_lt hki] at hk
    intro hpv
    have := (hp k v hk).mp hpv
    omega
  have h3 : ((l.drop i).drop (j + 1 - i)).filter p = [] := by
    rw [List.filter_eq_nil_iff]
    intro v hv
    obtain ⟨k, hk⟩ := List.mem_iff_getElem?.mp hv
    rw [List.drop_drop, List.getElem?_drop] at hk
    intro hpv
    have := (hp _ v hk).mp hpv
    omega
  have h2 : ((l.drop i).take (j + 1 - i)).filter p = (l.drop i).take (j + 1 - i) := by
    rw [List.filter_eq_self]
    intro v hv
    obtain ⟨k, hk⟩ := List.mem_iff_getElem?.mp hv
    have hkj : k < j + 1 - i := by
      have := (List.getElem?_eq_some_iff.mp hk).1
      simp at this; omega
    rw [List.getElem?_take_of_lt hkj, List.getElem?_drop] at hk
    exact (hp _ v hk).mpr (by omega)
  rw [h1, h2, h3]; simp

theorem versesOf_slice {d : BibleData} (h : d.WF) {v0 : Bool} {r : BibleRange} (hs : Valid d v0 r.start)
    (ht : Valid d v0 r.stop) :
    versesOf d v0 r = ((canon d v0).drop (ix d v0 r.start)).take (ix d v0 r.stop + 1 - ix d v0 r.start) := by
  apply filter_slice
  intro k v hk
  have hv := valid_of_get h hk
  have := ix_of_get h hk
  rw [decide_eq_true_iff, InRange, pos_le_ix h hs hv, pos_le_ix h hv ht, this]

/-! Range comparisons through positions -/

/-- A valid range, in the form used in proofs. -/
structure ROK (d : BibleData) (v0 : Bool) (r : BibleRange) : Prop where
  s : Valid d v0 r.start
  t : Valid d v0 r.stop
  le : pos d r.start ≤ pos d r.stop

theorem rangeOK_iff {d : BibleData} (h : d.WF) {v0 r} : RangeOK d v0 r ↔ ROK d v0 r :=
  ⟨fun ⟨a, b, c⟩ => ⟨(mem_canon h).mp a, (mem_canon h).mp b, c⟩, fun ⟨a, b, c⟩ => ⟨(mem_canon h).mpr a, (mem_canon h).mpr b, c⟩⟩

theorem ROK.listed {d : BibleData} {v0} {a : BibleRange} (ha : ROK d v0 a) : Listed d a := ⟨ha.s.listed, ha.t.listed⟩

theorem ROK.alike {d : BibleData} {v0 w0} {a b : BibleRange} (ha : ROK d v0 a) (hb : ROK d w0 b) : Alike d a b :=
  ha.listed.alike hb.listed

theorem BibleData.WF.range_lt {d : BibleData} (h : d.WF) {v0 w0} {a b : BibleRange} (ha : ROK d v0 a) (hb : ROK d w0 b) :
    a.lt d b = true ↔ pos d a.start < pos d b.start ∨ (pos d a.start = pos d b.start ∧ pos d a.stop < pos d b.stop) := by
  unfold BibleRange.lt
  have e1 := h.pos_inj ha.s hb.s
  have e2 := h.pos_inj ha.t hb.t
  by_cases h1 : a.start = b.start
  · by_cases h2 : a.stop = b.stop
    · simp only [h1, h2, ne_eq, not_true, if_false]; simp
    · simp only [ne_eq, h2, not_false_eq_true, if_true, h.lt_pos ha.t hb.t, if_neg (not_not_intro h1)]; have := e1.mpr h1; omega
  · have : pos d a.start ≠ pos d b.start := fun hh => h1 (e1.mp hh)
    simp only [ne_eq, h1, not_false_eq_true, if_true, h.lt_pos ha.s hb.s]; omega

theorem BibleData.WF.range_le {d : BibleData} (h : d.WF) {v0 w0} {a b : BibleRange} (ha : ROK d v0 a) (hb : ROK d w0 b) :
    a.le d b = true ↔ pos d a.start < pos d b.start ∨ (pos d a.start = pos d b.start ∧ pos d a.stop ≤ pos d b.stop) := by
  unfold BibleRange.le
  have e1 := h.pos_inj ha.s hb.s
  have e2 := h.pos_inj ha.t hb.t
  by_cases h1 : a.start = b.start
  · by_cases h2 : a.stop = b.stop
    · simp only [h1, h2, ne_eq, not_true, if_false]; simp
    · have : pos d a.stop ≠ pos d b.stop := fun hh => h2 (e2.mp hh)
      simp only [ne_eq, h2, not_false_eq_true, if_true, h.le_pos ha.t hb.t, if_neg (not_not_intro h1)]; have := e1.mpr h1; omega
  · have : pos d a.start ≠ pos d b.start := fun hh => h1 (e1.mp hh)
    simp only [ne_eq, h1, not_false_eq_true, if_true, h.le_pos ha.s hb.s]; omega

theorem BibleRange.ext_pos {d : BibleData} (h : d.WF) {v0 w0} {a b : BibleRange} (ha : ROK d v0 a) (hb : ROK d w0 b)
    (h1 : pos d a.start = pos d b.start) (h2 : pos d a.stop = pos d b.stop) : a = b := by
  cases a; cases b
  have := (h.pos_inj ha.s hb.s).mp h1
  have := (h.pos_inj ha.t hb.t).mp h2
  simp_all

theorem isDisjoint_iff {d : BibleData} (h : d.WF) {v0 w0} {a b : BibleRange} (ha : ROK d v0 a) (hb : ROK d w0 b) :
    a.disjointT d b = true ↔ pos d a.stop < pos d b.start ∨ pos d b.stop < pos d a.start := by
  have hlt := h.range_lt ha hb
  have := ha.le
  have := hb.le
  unfold BibleRange.disjointT BibleRange.lowerHigher
  by_cases hh : a.lt d b = true
  · rw [if_pos hh]; simp only; rw [h.lt_pos ha.t hb.s]; have := hlt.mp hh; omega
  · rw [if_neg hh]; simp only; rw [h.lt_pos hb.t ha.s]; rw [hlt] at hh; omega

theorem contains_iff {d : BibleData} (h : d.WF) {v0 w0} {a b : BibleRange} (ha : ROK d v0 a) (hb : ROK d w0 b) :
    a.containsT d b = true ↔ pos d a.start ≤ pos d b.start ∧ pos d b.stop ≤ pos d a.stop := by
  have := hb.le
  simp only [BibleRange.containsT, Bool.and_eq_true, h.le_pos ha.s hb.s, h.le_pos hb.s ha.t, h.le_pos ha.s hb.t,
    h.le_pos hb.t ha.t]
  omega

theorem surrounds_iff {d : BibleData} (h : d.WF) {v0 w0} {a b : BibleRange} (ha : ROK d v0 a) (hb : ROK d w0 b) :
    a.surroundsT d b = true ↔ pos d a.start < pos d b.start ∧ pos d b.stop < pos d a.stop := by
  have := hb.le
  simp only [BibleRange.surroundsT, Bool.and_eq_true, h.lt_pos ha.s hb.s, h.lt_pos hb.s ha.t, h.lt_pos ha.s hb.t,
    h.lt_pos hb.t ha.t]
  omega

theorem disjoint_ok {d : BibleData} (h : d.WF) {v0 w0} {a b : BibleRange} (ha : ROK d v0 a) (hb : ROK d w0 b) :
    a.isDisjoint d b = .ok (decide (pos d a.stop < pos d b.start ∨ pos d b.stop < pos d a.start)) := by
  rw [BibleRange.isDisjoint_eq (ha.alike hb), Bool.eq_iff_iff.mpr ((isDisjoint_iff h ha hb).trans decide_eq_true_iff.symm)]

theorem contains_ok {d : BibleData} (h : d.WF) {v0 w0} {a b : BibleRange} (ha : ROK d v0 a) (hb : ROK d w0 b) :
    a.contains d b = .ok (decide (pos d a.start ≤ pos d b.start ∧ pos d b.stop ≤ pos d a.stop)) := by
  rw [BibleRange.contains_eq (ha.alike hb), Bool.eq_iff_iff.mpr ((contains_iff h ha hb).trans decide_eq_true_iff.symm)]

theorem surrounds_ok {d : BibleData} (h : d.WF) {v0 w0} {a b : BibleRange} (ha : ROK d v0 a) (hb : ROK d w0 b) :
    a.surrounds d b = .ok (decide (pos d a.start < pos d b.start ∧ pos d b.stop < pos d a.stop)) := by
  rw [BibleRange.surrounds_eq (ha.alike hb), Bool.eq_iff_iff.mpr ((surrounds_iff h ha hb).trans decide_eq_true_iff.symm)]

theorem less_ok {d : BibleData} (h : d.WF) {v0 w0} {v w : BibleVerse} (hv : Valid d v0 v) (hw : Valid d w0 w) :
    v.less d w = .ok (decide (pos d v < pos d w)) := by
  rw [BibleVerse.less_eq (comparable_listed hv hw), Bool.eq_iff_iff.mpr ((h.lt_pos hv hw).trans decide_eq_true_iff.symm)]

theorem lessEq_ok {d : BibleData} (h : d.WF) {v0 w0} {v w : BibleVerse} (hv : Valid d v0 v) (hw : Valid d w0 w) :
    v.lessEq d w = .ok (decide (pos d v ≤ pos d w)) := by
  rw [BibleVerse.lessEq_eq (comparable_listed hv hw), Bool.eq_iff_iff.mpr ((h.le_pos hv hw).trans decide_eq_true_iff.symm)]

theorem minVerse_cases {d : BibleData} (h : d.WF) {v0 w0} {v w : BibleVerse} (hv : Valid d v0 v) (hw : Valid d w0 w) :
    (BibleRange.minVerse d v w = v ∧ pos d v ≤ pos d w) ∨ (BibleRange.minVerse d v w = w ∧ pos d w < pos d v) := by
  unfold BibleRange.minVerse
  by_cases hh : w.lt d v = true
  · right; rw [if_pos hh]; exact ⟨rfl, (h.lt_pos hw hv).mp hh⟩
  · left; rw [if_neg hh]; refine ⟨rfl, ?_⟩; rw [h.lt_pos hw hv] at hh; omega

theorem maxVerse_cases {d : BibleData} (h : d.WF) {v0 w0} {v w : BibleVerse} (hv : Valid d v0 v) (hw : Valid d w0 w) :
    (BibleRange.maxVerse d v w = v ∧ pos d w ≤ pos d v) ∨ (BibleRange.maxVerse d v w = w ∧ pos d v < pos d w) := by
  unfold BibleRange.maxVerse
  by_cases hh : v.lt d w = true
  · right; rw [if_pos hh]; exact ⟨rfl, (h.lt_pos hv hw).mp hh⟩
  · left; rw [if_neg hh]; refine ⟨rfl, ?_⟩; rw [h.lt_pos hv hw] at hh; omega

/-- The constructor on verses that can be compared. -/
theorem new_comparable {e : Env} {s t : BibleVerse} (hc : s.comparable e.data t = true) (flags : Option BibleFlag) :
    BibleRange.new e (some s) (some t) flags =
      if (e.eff flags).multibook = false ∧ s.book ≠ t.book then .error .multibookRange
      else if t.lt e.data s then .ok ⟨t, s⟩ else .ok ⟨s, t⟩ := by
  rw [BibleRange.new_eq]; simp only [hc, Bool.true_eq_false, if_false]

/-- The constructor on existing verses that are already in order. -/
theorem new_range_ok {e : Env} (h : e.data.WF) {v0 w0} {s t : BibleVerse} (hs : Valid e.data v0 s) (ht : Valid e.data w0 t)
    (hle : pos e.data s ≤ pos e.data t) {flags : Option BibleFlag}
    (hm : (e.eff flags).multibook = true ∨ s.book = t.book) :
    BibleRange.new e (some s) (some t) flags = .ok ⟨s, t⟩ := by
  rw [new_comparable (comparable_listed hs ht), if_neg, if_neg]
  · rw [h.lt_pos ht hs]; omega
  · rintro ⟨h1, h2⟩
    rcases hm with hm | hm
    · rw [h1] at hm; cases hm
    · exact h2 hm

/-- The constructor on two verses of one book that are in order. -/
theorem new_range_book {e : Env} (h : e.data.WF) {b : BibleBook} {c n c' n' : Int} (hle : c < c' ∨ (c = c' ∧ n ≤ n'))
    (flags : Option BibleFlag) :
    BibleRange.new e (some ⟨b, c, n⟩) (some ⟨b, c', n'⟩) flags = .ok ⟨⟨b, c, n⟩, ⟨b, c', n'⟩⟩ := by
  rw [new_comparable (comparable_book (by rfl)), if_neg, if_neg]
  · rw [h.lt_iff]; simp only; omega
  · rintro ⟨_, h2⟩; exact h2 rfl

theorem new_range_multi {e : Env} {s t : BibleVerse} {flags : Option BibleFlag} (h1 : (e.eff flags).multibook = false)
    (h2 : s.book ≠ t.book) : BibleRange.new e (some s) (some t) flags = .error .multibookRange := by
  unfold BibleRange.new
  simp only
  rw [if_pos ⟨h1, h2⟩]

end Bibleref

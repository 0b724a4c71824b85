import Verif.Lemmas.Split2

/-! Counting verses, chapters and books of a range. -/

namespace Bibleref
open Spec

/-- Distances inside a chapter are differences of verse numbers. -/
theorem ix_sub_chap {d : BibleData} (h : d.WF) {v0 : Bool} {v w : BibleVerse} (hv : Valid d v0 v) (hw : Valid d v0 w)
    (hb : v.book = w.book) (hc : v.chap = w.chap) (hle : ix d v0 v ≤ ix d v0 w) :
    ((ix d v0 w - ix d v0 v : Nat) : Int) = w.verse - v.verse := by
  have hle' := (le_ix h hv hw).mpr hle
  rw [h.le_iff, hb, hc] at hle'
  have hvw : v.verse ≤ w.verse := by omega
  let e : Env := ⟨d, ⟨false, v0⟩⟩
  have hv0 : v0 = ((e.eff none).verse0 || v.verse == 0) := hv.or_self.symm
  have h1 := add_canon (e := e) h hv0 (ix_get h hv) (w.verse - v.verse).toNat
  have hl : lastNum d v.book v.chap = lastNum d w.book w.chap := by rw [hb, hc]
  have hf : firstNum d v0 v.book v.chap = firstNum d v0 w.book w.chap := by rw [hb, hc]
  have hw1 := hw.2.2.1
  have hw2 := hw.2.2.2
  have h2 := add_nonpos (e := e) h (v := v) none (n := w.verse - v.verse) hv.mono (by simp only [e] at *; omega)
  rw [if_pos (by rw [← hv0]; simp only [e] at *; omega)] at h2
  rw [show (((w.verse - v.verse).toNat : Nat) : Int) = w.verse - v.verse by omega, h2] at h1
  have h3 : (⟨v.book, v.chap, v.verse + (w.verse - v.verse)⟩ : BibleVerse) = w := by
    cases w; simp only [BibleVerse.mk.injEq]; exact ⟨hb, hc, by omega⟩
  rw [h3] at h1
  have h4 : (canon d v0)[ix d v0 v + (w.verse - v.verse).toNat]? = some w := by
    have := Except.ok.inj h1
    exact Option.eq_some_of_filter_eq_some this.symm
  have := ix_of_get h h4
  omega

theorem foldl_count (l : List BibleRange) (g : BibleRange → Int) (a : Int) :
    l.foldl (fun count x => count + g x) a = a + (l.map g).sum := by
  induction l generalizing a with
  | nil => simp
  | cons x l ih => simp [ih]; omega

theorem length_flatMap_versesOf (d : BibleData) (v0 : Bool) (l : List BibleRange) :
    ((l.flatMap (versesOf d v0)).length : Int) = (l.map fun x => ((versesOf d v0 x).length : Int)).sum := by
  induction l with
  | nil => rfl
  | cons x l ih =>
    rw [List.flatMap_cons, List.length_append, List.map_cons, List.sum_cons, ← ih]; omega

/-- The universe a count of the range is made in. -/
theorem verseCount_eq {e : Env} (h : e.data.WF) {r : BibleRange} (hr : ROK e.data true r) {v0 : Bool}
    (hv0 : v0 = (e.flags.verse0 || r.start.verse == 0 || r.stop.verse == 0)) :
    r.verseCount e = .ok (versesOf e.data v0 r).length := by
  have hv0' : v0 = (r.splitFlags e none).verse0 := by rw [splitFlags_verse0, hv0, eff_eq]; rfl
  obtain ⟨l, h1, h2, h3, h4⟩ := splitRaw_spec h hr false true none (by simp) none (fuel := e.data.totalVerses + 1) (by omega) hv0'
  have hr' : ROK e.data v0 r := by rw [hv0']; exact hr.splitFlags none
  simp only [BibleRange.verseCount, h1, bind, Except.bind, pure, Except.pure]
  rw [foldl_count l (fun x => x.stop.verse - x.start.verse + 1), versesOf_slice h hr'.s hr'.t, ← h2.flatMap h, length_flatMap_versesOf]
  congr 1
  rw [Int.zero_add]
  congr 1
  apply List.map_congr_left
  intro x hx
  obtain ⟨a, b, c, g⟩ := h2.pieces h hx
  obtain ⟨h5, h6⟩ := (h3 x hx).2.1 rfl
  have := ix_sub_chap h a.s a.t h5 h6 c
  rw [length_versesOf h a.s a.t]
  omega

/-- A classification of verses whose classes are intervals of reading order. -/
def Convex {κ : Type} (d : BibleData) (v0 : Bool) (key : BibleVerse → κ) : Prop :=
  ∀ {u v w : BibleVerse}, Valid d v0 u → Valid d v0 v → Valid d v0 w → ix d v0 u ≤ ix d v0 v → ix d v0 v ≤ ix d v0 w →
    key u = key w → key v = key u

section
variable {κ : Type} {d : BibleData} (h : d.WF) {v0 : Bool} {key : BibleVerse → κ} (hk : Convex d v0 key)
include h hk

theorem Tiles.keys_nodup {i k : Nat} {l : List BibleRange} (ht : Tiles d v0 i k l)
    (h1 : ∀ x ∈ l, key x.start = key x.stop) (h2 : Neighbours (fun p q => key p.stop ≠ key q.start) l) :
    (l.map fun x => key x.start).Nodup := by
  induction ht with
  | one => simp
  | @cons i j k r l g1 g2 g3 ht ih =>
    have hl : ∃ q1 l', l = q1 :: l' := by
      obtain ⟨q1, h4, _⟩ := ht.head
      cases l with
      | nil => cases h4
      | cons x l => exact ⟨x, l, rfl⟩
    obtain ⟨q1, l', rfl⟩ := hl
    rw [List.map_cons, List.nodup_cons]
    refine ⟨?_, ih (fun x hx => h1 x (List.mem_cons_of_mem _ hx)) h2.2⟩
    intro hmem
    obtain ⟨q, hq, hkq⟩ := List.mem_map.mp hmem
    obtain ⟨a1, a2, a3, a4⟩ := ht.pieces h hq
    obtain ⟨b1, b2, b3, b4⟩ := ht.pieces h (r := q1) (by simp)
    obtain ⟨r', c1, c2⟩ := ht.head
    cases c1
    have e1 := ix_of_get h c2
    have e2 := ix_of_get h g1
    have := hk (valid_of_get h g1) b1.s a1.s (by omega) (by omega) hkq.symm
    exact h2.1 (by rw [← h1 r (by simp), this])

omit hk in
theorem mem_versesOf' {r : BibleRange} (hs : Valid d v0 r.start) (ht : Valid d v0 r.stop) {v : BibleVerse} :
    v ∈ versesOf d v0 r ↔ Valid d v0 v ∧ ix d v0 r.start ≤ ix d v0 v ∧ ix d v0 v ≤ ix d v0 r.stop := by
  rw [versesOf, List.mem_filter, mem_canon h, decide_eq_true_iff, InRange]
  constructor
  · rintro ⟨a, b, c⟩; exact ⟨a, (pos_le_ix h hs a).mp b, (pos_le_ix h a ht).mp c⟩
  · rintro ⟨a, b, c⟩; exact ⟨a, (pos_le_ix h hs a).mpr b, (pos_le_ix h a ht).mpr c⟩

omit hk in
/-- Every verse of a tiled stretch lies in a tile. -/
theorem Tiles.find {i k : Nat} {l : List BibleRange} (ht : Tiles d v0 i k l) {j : Nat} (h1 : i ≤ j) (h2 : j ≤ k) :
    ∃ x ∈ l, ix d v0 x.start ≤ j ∧ j ≤ ix d v0 x.stop := by
  induction ht with
  | @one i k r g1 g2 g3 =>
    exact ⟨_, List.mem_singleton.mpr rfl, by rw [ix_of_get h g1]; exact h1, by rw [ix_of_get h g2]; exact h2⟩
  | @cons i m k r l g1 g2 g3 ht ih =>
    by_cases hj : j ≤ m
    · exact ⟨r, by simp, by rw [ix_of_get h g1]; exact h1, by rw [ix_of_get h g2]; exact hj⟩
    · obtain ⟨x, hx, a, b⟩ := ih (by omega) h2
      exact ⟨x, List.mem_cons_of_mem _ hx, a, b⟩

theorem Tiles.mem_keys {i k : Nat} {l : List BibleRange} (ht : Tiles d v0 i k l)
    (h1 : ∀ x ∈ l, key x.start = key x.stop) (c : κ) :
    c ∈ (l.map fun x => key x.start) ↔ ∃ v, Valid d v0 v ∧ i ≤ ix d v0 v ∧ ix d v0 v ≤ k ∧ key v = c := by
  rw [List.mem_map]
  constructor
  · rintro ⟨x, hx, rfl⟩
    obtain ⟨a, b, e, g⟩ := ht.pieces h hx
    exact ⟨x.start, a.s, b, by omega, rfl⟩
  · rintro ⟨v, hv, a, b, rfl⟩
    obtain ⟨x, hx, p, q⟩ := ht.find h a b
    obtain ⟨g, _⟩ := ht.pieces h hx
    exact ⟨x, hx, (hk g.s hv g.t p q (h1 x hx)).symm⟩

/-- A tile holds the whole of its class. -/
def WholeTile (d : BibleData) (v0 : Bool) (key : BibleVerse → κ) (x : BibleRange) : Prop :=
  ∀ v, Valid d v0 v → key v = key x.start → ix d v0 x.start ≤ ix d v0 v ∧ ix d v0 v ≤ ix d v0 x.stop

omit h hk in
theorem neighbours_split {α} {R : α → α → Prop} {pre : List α} {x y : α} {post : List α}
    (hn : Neighbours R (pre ++ x :: y :: post)) : R x y := by
  induction pre with
  | nil => exact hn.1
  | cons a pre ih =>
    cases pre with
    | nil => exact hn.2.1
    | cons b pre => exact ih hn.2

/-- Only the first and the last tile can fail to be whole. -/
theorem Tiles.middle {i k : Nat} {l : List BibleRange} (ht : Tiles d v0 i k l)
    (h1 : ∀ x ∈ l, key x.start = key x.stop) (h2 : Neighbours (fun p q => key p.stop ≠ key q.start) l)
    {pre post : List BibleRange} {x : BibleRange} (hl : l = pre ++ x :: post) (hpre : pre ≠ []) (hpost : post ≠ []) :
    WholeTile d v0 key x := by
  intro v hv hkv
  have hc := ht.consecutive
  have hx : x ∈ l := by rw [hl]; simp
  obtain ⟨gx, gx1, gx2, gx3⟩ := ht.pieces h hx
  obtain ⟨pre', p, rfl⟩ : ∃ pre' p, pre = pre' ++ [p] := ⟨pre.dropLast, pre.getLast hpre, (List.dropLast_concat_getLast hpre).symm⟩
  obtain ⟨q, post', rfl⟩ : ∃ q post', post = q :: post' := by
    cases post with
    | nil => exact absurd rfl hpost
    | cons q post => exact ⟨q, post, rfl⟩
  have hp : p ∈ l := by rw [hl]; simp
  have hq : q ∈ l := by rw [hl]; simp
  obtain ⟨gp, gp1, gp2, gp3⟩ := ht.pieces h hp
  obtain ⟨gq, gq1, gq2, gq3⟩ := ht.pieces h hq
  have hl' : l = pre' ++ p :: x :: q :: post' := by rw [hl]; simp
  have n1 := neighbours_split (hl' ▸ h2)
  have n2 := neighbours_split (hl ▸ h2)
  obtain ⟨j1, c1, c2⟩ := neighbours_split (hl' ▸ hc)
  obtain ⟨j2, c3, c4⟩ := neighbours_split (hl ▸ hc)
  have e1 := ix_of_get h c1
  have e2 := ix_of_get h c2
  have e3 := ix_of_get h c3
  have e4 := ix_of_get h c4
  constructor
  · apply Classical.byContradiction
    intro hlt
    have := hk hv gp.t gx.s (by omega) (by omega) hkv
    exact n1 (by rw [this, hkv])
  · apply Classical.byContradiction
    intro hlt
    have := hk gx.t gq.s hv (by omega) (by omega) (by rw [hkv, h1 x hx])
    exact n2 this.symm

theorem Tiles.whole_iff {i k : Nat} {l : List BibleRange} (ht : Tiles d v0 i k l)
    (h1 : ∀ x ∈ l, key x.start = key x.stop) (h2 : Neighbours (fun p q => key p.stop ≠ key q.start) l)
    {x : BibleRange} (hx : x ∈ l) :
    WholeTile d v0 key x ↔ ∀ v, Valid d v0 v → key v = key x.start → i ≤ ix d v0 v ∧ ix d v0 v ≤ k := by
  obtain ⟨gx, gx1, gx2, gx3⟩ := ht.pieces h hx
  constructor
  · intro hw v hv hkv
    have := hw v hv hkv
    omega
  · intro hw v hv hkv
    obtain ⟨a, b⟩ := hw v hv hkv
    obtain ⟨y, hy, p, q⟩ := ht.find h a b
    obtain ⟨gy, _⟩ := ht.pieces h hy
    have hky : key y.start = key x.start := by rw [← hkv]; exact (hk gy.s hv gy.t p q (h1 y hy)).symm
    have hyx : y = x := by
      obtain ⟨m, hm, em⟩ := List.mem_iff_getElem.mp hx
      obtain ⟨n, hn, en⟩ := List.mem_iff_getElem.mp hy
      have := (List.getElem_inj (h₀ := by simpa using hn) (h₁ := by simpa using hm) (ht.keys_nodup h hk h1 h2)).mp
        (by simp only [List.getElem_map, em, en]; exact hky)
      subst this
      rw [← em, ← en]
    subst hyx
    exact ⟨p, q⟩

end

/-- The counting of whole pieces when only the ends of the list can fail to be whole. -/
theorem countWhole_filter (isWhole : BibleRange → Except PyErr Bool) (w : BibleRange → Bool) (l : List BibleRange)
    (hw : ∀ x ∈ l, isWhole x = .ok (w x)) (hne : l ≠ [])
    (hmid : ∀ pre x post, l = pre ++ x :: post → pre ≠ [] → post ≠ [] → w x = true) :
    BibleRange.countWhole isWhole true l = .ok ((l.filter w).length : Int) := by
  obtain ⟨x, l, rfl⟩ : ∃ x l', l = x :: l' := by
    cases l with
    | nil => exact absurd rfl hne
    | cons x l => exact ⟨x, l, rfl⟩
  unfold BibleRange.countWhole
  simp only [if_true, List.head?_cons, hw x (by simp), bind, Except.bind]
  by_cases hl : l = []
  · subst hl
    simp only [List.length_singleton, Nat.lt_irrefl, if_false, gt_iff_lt, pure, Except.pure]
    cases hwx : w x <;> simp [hwx]
  · obtain ⟨m, y, rfl⟩ : ∃ m y, l = m ++ [y] := ⟨l.dropLast, l.getLast hl, (List.dropLast_concat_getLast hl).symm⟩
    have hlast : (x :: (m ++ [y])).getLast? = some y := by simp [List.getLast?_cons]
    rw [if_pos (by simp), hlast]
    simp only [hw y (by simp), pure, Except.pure]
    have hm : m.filter w = m := by
      rw [List.filter_eq_self]
      intro a ha
      obtain ⟨p, q, rfl⟩ := List.append_of_mem ha
      exact hmid (x :: p) a (q ++ [y]) (by simp) (by simp) (by simp)
    congr 1
    rw [List.filter_cons, List.filter_append, hm]
    cases hwx : w x <;> cases hwy : w y <;> simp [hwy] <;> omega

theorem convex_chap {d : BibleData} (h : d.WF) (v0 : Bool) : Convex d v0 (fun v => (v.book, v.chap)) := by
  intro u v w hu hv hw h1 h2 hk
  simp only [Prod.mk.injEq] at hk ⊢
  exact chap_between h (ix_get h hu) (ix_get h hv) (ix_get h hw) h1 h2 hk.1 hk.2

theorem convex_book {d : BibleData} (h : d.WF) (v0 : Bool) : Convex d v0 (fun v => v.book) := by
  intro u v w hu hv hw h1 h2 hk
  exact book_between h (ix_get h hu) (ix_get h hv) (ix_get h hw) h1 h2 hk

/-- `split(by_chap)` and `split(by_book)` in terms of a classification of the verses. -/
theorem split_chap {e : Env} (h : e.data.WF) {r : BibleRange} (hr : ROK e.data true r) {v0 : Bool}
    (hv0 : v0 = (e.flags.verse0 || r.start.verse == 0 || r.stop.verse == 0)) :
    ∃ l, r.splitRaw e false true none none (e.data.totalVerses + 1) = .ok l ∧
      Tiles e.data v0 (ix e.data v0 r.start) (ix e.data v0 r.stop) l ∧
      (∀ x ∈ l, ((x.start.book, x.start.chap) : BibleBook × Int) = (x.stop.book, x.stop.chap)) ∧
      Neighbours (fun p q : BibleRange => ((p.stop.book, p.stop.chap) : BibleBook × Int) ≠ (q.start.book, q.start.chap)) l := by
  have hv0' : v0 = (r.splitFlags e none).verse0 := by rw [splitFlags_verse0, hv0, eff_eq]; rfl
  obtain ⟨l, h1, h2, h3, h4⟩ := splitRaw_spec h hr false true none (by simp) none (fuel := e.data.totalVerses + 1) (by omega) hv0'
  refine ⟨l, h1, h2, fun x hx => ?_, neighbours_imp ?_ h4⟩
  · obtain ⟨a, b⟩ := (h3 x hx).2.1 rfl
    rw [a, b]
  · rintro p q ((⟨hh, _⟩ | ⟨_, hh⟩) | ⟨n, hh, _⟩)
    · cases hh
    · simp only [ne_eq, Prod.mk.injEq]; exact hh
    · cases hh

theorem split_book {e : Env} (h : e.data.WF) {r : BibleRange} (hr : ROK e.data true r) {v0 : Bool}
    (hv0 : v0 = (e.flags.verse0 || r.start.verse == 0 || r.stop.verse == 0)) :
    ∃ l, r.splitRaw e true false none none (e.data.totalVerses + 1) = .ok l ∧
      Tiles e.data v0 (ix e.data v0 r.start) (ix e.data v0 r.stop) l ∧
      (∀ x ∈ l, x.start.book = x.stop.book) ∧
      Neighbours (fun p q : BibleRange => p.stop.book ≠ q.start.book) l := by
  have hv0' : v0 = (r.splitFlags e none).verse0 := by rw [splitFlags_verse0, hv0, eff_eq]; rfl
  obtain ⟨l, h1, h2, h3, h4⟩ := splitRaw_spec h hr true false none (by simp) none (fuel := e.data.totalVerses + 1) (by omega) hv0'
  refine ⟨l, h1, h2, fun x hx => (h3 x hx).1 rfl, neighbours_imp ?_ h4⟩
  rintro p q ((⟨_, hh⟩ | ⟨hh, _⟩) | ⟨n, hh, _⟩)
  · exact hh
  · cases hh
  · cases hh

section
variable {κ : Type} {d : BibleData} (h : d.WF) {v0 : Bool} {key : BibleVerse → κ} (hk : Convex d v0 key)
include h hk

theorem Tiles.card {r : BibleRange} (hr : ROK d v0 r) {l : List BibleRange} (ht : Tiles d v0 (ix d v0 r.start) (ix d v0 r.stop) l)
    (h1 : ∀ x ∈ l, key x.start = key x.stop) (h2 : Neighbours (fun p q => key p.stop ≠ key q.start) l) :
    HasCard (fun c => ∃ v ∈ versesOf d v0 r, key v = c) l.length := by
  refine ⟨_, ht.keys_nodup h hk h1 h2, fun c => ?_, by simp⟩
  rw [ht.mem_keys h hk h1]
  constructor
  · rintro ⟨v, a, b, p, q⟩; exact ⟨v, (mem_versesOf' h hr.s hr.t).mpr ⟨a, b, p⟩, q⟩
  · rintro ⟨v, a, q⟩
    obtain ⟨a, b, p⟩ := (mem_versesOf' h hr.s hr.t).mp a
    exact ⟨v, a, b, p, q⟩

theorem Tiles.card_whole {r : BibleRange} (hr : ROK d v0 r) {l : List BibleRange} (ht : Tiles d v0 (ix d v0 r.start) (ix d v0 r.stop) l)
    (h1 : ∀ x ∈ l, key x.start = key x.stop) (h2 : Neighbours (fun p q => key p.stop ≠ key q.start) l)
    (w : BibleRange → Bool) (hw : ∀ x ∈ l, w x = true ↔ WholeTile d v0 key x) :
    HasCard (fun c => (∃ v ∈ canon d v0, key v = c) ∧ ∀ v ∈ canon d v0, key v = c → InRange d r v) (l.filter w).length := by
  refine ⟨(l.filter w).map fun x => key x.start, ?_, fun c => ?_, by simp⟩
  · exact (List.filter_sublist.map _).nodup (ht.keys_nodup h hk h1 h2)
  · have hin : ∀ v, Valid d v0 v → (InRange d r v ↔ ix d v0 r.start ≤ ix d v0 v ∧ ix d v0 v ≤ ix d v0 r.stop) := by
      intro v hv
      rw [InRange, pos_le_ix h hr.s hv, pos_le_ix h hv hr.t]
    rw [List.mem_map]
    constructor
    · rintro ⟨x, hx, rfl⟩
      obtain ⟨hx, hwx⟩ := List.mem_filter.mp hx
      have h3 := (ht.whole_iff h hk h1 h2 hx).mp ((hw x hx).mp hwx)
      obtain ⟨gx, _⟩ := ht.pieces h hx
      refine ⟨⟨x.start, (mem_canon h).mpr gx.s, rfl⟩, fun v hv hkv => ?_⟩
      rw [mem_canon h] at hv
      exact (hin v hv).mpr (h3 v hv hkv)
    · rintro ⟨⟨v, hv, rfl⟩, hall⟩
      have hv' := (mem_canon h).mp hv
      obtain ⟨a, b⟩ := (hin v hv').mp (hall v hv rfl)
      obtain ⟨x, hx, p, q⟩ := ht.find h a b
      obtain ⟨gx, _⟩ := ht.pieces h hx
      have hkx := hk gx.s hv' gx.t p q (h1 x hx)
      refine ⟨x, List.mem_filter.mpr ⟨hx, ?_⟩, hkx.symm⟩
      rw [hw x hx, ht.whole_iff h hk h1 h2 hx]
      intro u hu hku
      exact (hin u hu).mp (hall u ((mem_canon h).mpr hu) (by rw [hku, hkx]))

end

theorem firstVerse_global {e : Env} (h : e.data.WF) {b : BibleBook} {c : Int} (h1 : 1 ≤ c) (h2 : c ≤ nChaps e.data b) :
    b.firstVerse e (some c) none = .ok ⟨b, c, firstNum e.data e.flags.verse0 b c⟩ := by
  rw [firstVerse_eq h, if_pos ⟨h1, h2, by rw [eff_eq]; exact Int.le_refl _⟩]
  rfl

/-- The first verse of the chapter is its least one. -/
theorem firstNum_ix {d : BibleData} (h : d.WF) {v0 : Bool} {v : BibleVerse} (hv : Valid d v0 v) :
    ix d v0 ⟨v.book, v.chap, firstNum d v0 v.book v.chap⟩ ≤ ix d v0 v := by
  rw [← le_ix h (firstNum_valid h hv.listed hv.1 hv.2.1) hv, h.le_iff]
  exact .inr ⟨rfl, .inr ⟨rfl, hv.2.2.1⟩⟩

/-- The first verse of the book is its least one. -/
theorem firstBook_ix {d : BibleData} (h : d.WF) {v0 : Bool} {v : BibleVerse} (hv : Valid d v0 v) :
    ix d v0 ⟨v.book, 1, firstNum d v0 v.book 1⟩ ≤ ix d v0 v := by
  have := h.nChaps_pos v.book
  rw [← le_ix h (firstNum_valid h hv.listed (by omega) (by omega)) hv, h.le_iff]
  refine .inr ⟨rfl, ?_⟩
  by_cases hc : v.chap = 1
  · right
    have := hv.2.2.1
    rw [hc] at this
    exact ⟨hc.symm, this⟩
  · have := hv.1
    left; simp only; omega

theorem wholeTile_iff {κ : Type} {d : BibleData} (h : d.WF) {v0 : Bool} {key : BibleVerse → κ} {x : BibleRange}
    (hx : ROK d v0 x) (hkx : key x.start = key x.stop) {a b : BibleVerse} (ha : Valid d v0 a) (hb : Valid d v0 b)
    (hka : key a = key x.start) (hkb : key b = key x.start)
    (hmin : ∀ v, Valid d v0 v → key v = key x.start → ix d v0 a ≤ ix d v0 v)
    (hmax : ∀ v, Valid d v0 v → key v = key x.start → ix d v0 v ≤ ix d v0 b) :
    WholeTile d v0 key x ↔ x.start = a ∧ x.stop = b := by
  constructor
  · intro hw
    have h1 := (hw a ha hka).1
    have h2 := (hw b hb hkb).2
    have h3 := hmin x.start hx.s rfl
    have h4 := hmax x.stop hx.t hkx.symm
    exact ⟨(ix_inj h hx.s ha).mp (by omega), (ix_inj h hx.t hb).mp (by omega)⟩
  · rintro ⟨h1, h2⟩ v hv hkv
    have h3 := hmin v hv hkv
    have h4 := hmax v hv hkv
    rw [h1, h2]; exact ⟨h3, h4⟩

theorem isWholeChap_global {e : Env} (h : e.data.WF) {x : BibleRange} (hx : ROK e.data e.flags.verse0 x)
    (hkx : ((x.start.book, x.start.chap) : BibleBook × Int) = (x.stop.book, x.stop.chap)) :
    ∃ w, x.isWholeChap e none = .ok w ∧ (w = true ↔ WholeTile e.data e.flags.verse0 (fun v => (v.book, v.chap)) x) := by
  obtain ⟨hb, hc⟩ := Prod.mk.injEq .. ▸ hkx
  have hlast := lastVerse_eq h x.start.book x.start.chap
  rw [if_pos ⟨hx.s.1, hx.s.2.1⟩] at hlast
  have ha : Valid e.data e.flags.verse0 ⟨x.start.book, x.start.chap, firstNum e.data e.flags.verse0 x.start.book x.start.chap⟩ :=
    firstNum_valid h hx.s.listed hx.s.1 hx.s.2.1
  have hb' : Valid e.data e.flags.verse0 (enChap e.data x.start) := lastNum_valid h hx.s.listed hx.s.1 hx.s.2.1
  refine ⟨decide (x.start = ⟨x.start.book, x.start.chap, firstNum e.data e.flags.verse0 x.start.book x.start.chap⟩ ∧
    x.stop = enChap e.data x.start), ?_, ?_⟩
  · unfold BibleRange.isWholeChap
    rw [if_neg (by simpa using hb), firstVerse_global h hx.s.1 hx.s.2.1, ← hb, hlast]
    simp only [bind, Except.bind, pure, Except.pure]
    split
    · rename_i hne; congr 1; symm; rw [decide_eq_false_iff_not]; exact fun hh => hne hh.1
    · rename_i heq
      congr 1
      have heq := Classical.not_not.mp heq
      apply Bool.eq_iff_iff.mpr
      rw [decide_eq_true_iff, decide_eq_true_iff]
      exact ⟨fun hh => ⟨heq, hh⟩, fun hh => hh.2⟩
  · rw [decide_eq_true_iff]
    symm
    apply wholeTile_iff h hx hkx ha hb' rfl rfl
    · intro v hv hkv
      obtain ⟨h1, h2⟩ := Prod.mk.injEq .. ▸ hkv
      have := firstNum_ix h hv
      rwa [h1, h2] at this
    · intro v hv hkv
      obtain ⟨h1, h2⟩ := Prod.mk.injEq .. ▸ hkv
      rw [← le_ix h hv hb']
      exact le_enChap h hv h1 h2

theorem isWholeBook_global {e : Env} (h : e.data.WF) {x : BibleRange} (hx : ROK e.data e.flags.verse0 x)
    (hb : x.start.book = x.stop.book) :
    ∃ w, x.isWholeBook e none = .ok w ∧ (w = true ↔ WholeTile e.data e.flags.verse0 (fun v => v.book) x) := by
  have hp := h.nChaps_pos x.start.book
  have ha : Valid e.data e.flags.verse0 ⟨x.start.book, 1, firstNum e.data e.flags.verse0 x.start.book 1⟩ :=
    firstNum_valid h hx.s.listed (by omega) (by omega)
  have hb' : Valid e.data e.flags.verse0 (enBook e.data x.start) := enBook_valid h _ hx.s.listed
  refine ⟨decide (x.start = ⟨x.start.book, 1, firstNum e.data e.flags.verse0 x.start.book 1⟩ ∧
    x.stop = enBook e.data x.start), ?_, ?_⟩
  · unfold BibleRange.isWholeBook
    rw [if_neg (by simpa using hb), firstVerse_none h, firstVerse_global h (by omega) (by omega), ← hb, lastVerse_none h]
    simp only [bind, Except.bind, pure, Except.pure]
    split
    · rename_i hne; congr 1; symm; rw [decide_eq_false_iff_not]; exact fun hh => hne hh.1
    · rename_i heq
      congr 1
      have heq := Classical.not_not.mp heq
      apply Bool.eq_iff_iff.mpr
      rw [decide_eq_true_iff, decide_eq_true_iff]
      exact ⟨fun hh => ⟨heq, hh⟩, fun hh => hh.2⟩
  · rw [decide_eq_true_iff]
    symm
    apply wholeTile_iff h hx hb ha hb' rfl rfl
    · intro v hv hkv
      have := firstBook_ix h hv
      rwa [show v.book = x.start.book from hkv] at this
    · intro v hv hkv
      rw [← le_ix h hv hb']
      exact le_enBook h hv hkv

theorem Tiles.ne_nil {d : BibleData} {v0 : Bool} {i k : Nat} {l} (ht : Tiles d v0 i k l) : l ≠ [] := by
  cases ht <;> simp

theorem chapCount_eq {e : Env} (h : e.data.WF) {r : BibleRange} (hr : ROK e.data true r) {v0 : Bool}
    (hv0 : v0 = (e.flags.verse0 || r.start.verse == 0 || r.stop.verse == 0)) :
    ∃ n : Nat, r.chapCount e false = .ok n ∧
      HasCard (fun k : BibleBook × Int => ∃ v ∈ versesOf e.data v0 r, (v.book, v.chap) = k) n := by
  obtain ⟨l, h1, h2, h3, h4⟩ := split_chap h hr hv0
  have hr' : ROK e.data v0 r := by
    have := hr.splitFlags (e := e) none
    rwa [splitFlags_verse0, eff_eq, inForce, ← hv0] at this
  refine ⟨l.length, ?_, h2.card h (convex_chap h v0) hr' h3 h4⟩
  simp only [BibleRange.chapCount, h1, bind, Except.bind]; rfl

theorem bookCount_eq {e : Env} (h : e.data.WF) {r : BibleRange} (hr : ROK e.data true r) {v0 : Bool}
    (hv0 : v0 = (e.flags.verse0 || r.start.verse == 0 || r.stop.verse == 0)) :
    ∃ n : Nat, r.bookCount e false = .ok n ∧
      HasCard (fun k : BibleBook => ∃ v ∈ versesOf e.data v0 r, v.book = k) n := by
  obtain ⟨l, h1, h2, h3, h4⟩ := split_book h hr hv0
  have hr' : ROK e.data v0 r := by
    have := hr.splitFlags (e := e) none
    rwa [splitFlags_verse0, eff_eq, inForce, ← hv0] at this
  refine ⟨l.length, ?_, h2.card h (convex_book h v0) hr' h3 h4⟩
  simp only [BibleRange.bookCount, h1, bind, Except.bind]; rfl

theorem chapCount_whole {e : Env} (h : e.data.WF) {r : BibleRange} (hr : ROK e.data e.flags.verse0 r) :
    ∃ n : Nat, r.chapCount e true = .ok n ∧
      HasCard (fun k : BibleBook × Int => (∃ v ∈ canon e.data e.flags.verse0, (v.book, v.chap) = k) ∧
        ∀ v ∈ canon e.data e.flags.verse0, (v.book, v.chap) = k → InRange e.data r v) n := by
  have hv0 : e.flags.verse0 = (e.flags.verse0 || r.start.verse == 0 || r.stop.verse == 0) := by rw [hr.s.or_self, hr.t.or_self]
  obtain ⟨l, h1, h2, h3, h4⟩ := split_chap h (r := r) ⟨hr.s.mono, hr.t.mono, hr.le⟩ hv0
  have hw : ∀ x ∈ l, ∃ w, x.isWholeChap e none = .ok w ∧
      (w = true ↔ WholeTile e.data e.flags.verse0 (fun v => (v.book, v.chap)) x) := fun x hx =>
    isWholeChap_global h (h2.pieces h hx).1 (h3 x hx)
  let w : BibleRange → Bool := fun x => match x.isWholeChap e none with | .ok b => b | .error _ => false
  have hww : ∀ x ∈ l, x.isWholeChap e none = .ok (w x) ∧
      (w x = true ↔ WholeTile e.data e.flags.verse0 (fun v => (v.book, v.chap)) x) := by
    intro x hx
    obtain ⟨b, g1, g2⟩ := hw x hx
    have : w x = b := by simp only [w, g1]
    rw [this]; exact ⟨g1, g2⟩
  refine ⟨(l.filter w).length, ?_, h2.card_whole h (convex_chap h _) hr h3 h4 w (fun x hx => (hww x hx).2)⟩
  simp only [BibleRange.chapCount, h1, bind, Except.bind]
  apply countWhole_filter _ w l (fun x hx => (hww x hx).1) h2.ne_nil
  intro pre x post hl hp hq
  rw [(hww x (by rw [hl]; simp)).2]
  exact h2.middle h (convex_chap h _) h3 h4 hl hp hq

theorem bookCount_whole {e : Env} (h : e.data.WF) {r : BibleRange} (hr : ROK e.data e.flags.verse0 r) :
    ∃ n : Nat, r.bookCount e true = .ok n ∧
      HasCard (fun k : BibleBook => (∃ v ∈ canon e.data e.flags.verse0, v.book = k) ∧
        ∀ v ∈ canon e.data e.flags.verse0, v.book = k → InRange e.data r v) n := by
  have hv0 : e.flags.verse0 = (e.flags.verse0 || r.start.verse == 0 || r.stop.verse == 0) := by rw [hr.s.or_self, hr.t.or_self]
  obtain ⟨l, h1, h2, h3, h4⟩ := split_book h (r := r) ⟨hr.s.mono, hr.t.mono, hr.le⟩ hv0
  have hw : ∀ x ∈ l, ∃ w, x.isWholeBook e none = .ok w ∧
      (w = true ↔ WholeTile e.data e.flags.verse0 (fun v => v.book) x) := fun x hx =>
    isWholeBook_global h (h2.pieces h hx).1 (h3 x hx)
  let w : BibleRange → Bool := fun x => match x.isWholeBook e none with | .ok b => b | .error _ => false
  have hww : ∀ x ∈ l, x.isWholeBook e none = .ok (w x) ∧
      (w x = true ↔ WholeTile e.data e.flags.verse0 (fun v => v.book) x) := by
    intro x hx
    obtain ⟨b, g1, g2⟩ := hw x hx
    have : w x = b := by simp only [w, g1]
    rw [this]; exact ⟨g1, g2⟩
  refine ⟨(l.filter w).length, ?_, h2.card_whole h (convex_book h _) hr h3 h4 w (fun x hx => (hww x hx).2)⟩
  simp only [BibleRange.bookCount, h1, bind, Except.bind]
  apply countWhole_filter _ w l (fun x hx => (hww x hx).1) h2.ne_nil
  intro pre x post hl hp hq
  rw [(hww x (by rw [hl]; simp)).2]
  exact h2.middle h (convex_book h _) h3 h4 hl hp hq

end Bibleref

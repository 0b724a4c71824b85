import Verif.Lemmas.Split

/-! The result of `split`. -/

namespace Bibleref
open Spec

theorem splitFlags_multibook (e : Env) (r : BibleRange) (flags : Option BibleFlag) :
    (r.splitFlags e flags).multibook = ((e.eff flags).multibook || decide (r.start.book ≠ r.stop.book)) := by
  unfold BibleRange.splitFlags BibleFlag.union BibleFlag.MULTIBOOK BibleFlag.VERSE_0
  by_cases h1 : r.start.book = r.stop.book <;> by_cases h2 : r.start.verse = 0 ∨ r.stop.verse = 0 <;> simp [h1, h2]

theorem splitFlags_verse0 (e : Env) (r : BibleRange) (flags : Option BibleFlag) :
    (r.splitFlags e flags).verse0 = ((e.eff flags).verse0 || r.start.verse == 0 || r.stop.verse == 0) := by
  unfold BibleRange.splitFlags BibleFlag.union BibleFlag.MULTIBOOK BibleFlag.VERSE_0
  by_cases h1 : r.start.book = r.stop.book <;> by_cases h2 : r.start.verse = 0 <;> by_cases h3 : r.stop.verse = 0 <;>
    simp [h1, h2, h3, beq_eq_false_iff_ne.mpr]

theorem splitFlags_eff (e : Env) (r : BibleRange) (flags : Option BibleFlag) :
    e.eff (some (r.splitFlags e flags)) = r.splitFlags e flags := by
  by_cases hf : r.splitFlags e flags = .none
  · have h1 := congrArg BibleFlag.multibook hf
    have h2 := congrArg BibleFlag.verse0 hf
    rw [splitFlags_multibook] at h1
    rw [splitFlags_verse0] at h2
    have h3 : e.eff flags = .none := by
      cases hx : e.eff flags with
      | mk a b => rw [hx] at h1 h2; simp [BibleFlag.none] at h1 h2 ⊢; simp_all
    have h4 := e.eff_eff flags
    rw [hf]
    rw [h3] at h4
    exact h4
  · exact e.eff_some_of_ne hf

theorem splitFlags_book (e : Env) (r : BibleRange) (flags : Option BibleFlag) :
    (r.splitFlags e flags).multibook = true ∨ r.start.book = r.stop.book := by
  rw [splitFlags_multibook]
  by_cases hb : r.start.book = r.stop.book
  · exact .inr hb
  · left; simp [hb]

/-- A range of existing verses exists under the flags `split` uses. -/
theorem ROK.splitFlags {e : Env} {r : BibleRange} (hr : ROK e.data true r) (flags : Option BibleFlag) :
    ROK e.data (r.splitFlags e flags).verse0 r := by
  refine ⟨?_, ?_, hr.le⟩
  · by_cases h0 : r.start.verse = 0
    · rw [splitFlags_verse0]; simpa [h0] using hr.s
    · exact hr.s.of_ne_zero h0
  · by_cases h0 : r.stop.verse = 0
    · rw [splitFlags_verse0]; simpa [h0] using hr.t
    · exact hr.t.of_ne_zero h0

theorem lastNum_valid {d : BibleData} (h : d.WF) {v0 : Bool} {b : BibleBook} {c : Int} (hb : b ∈ d.bookOrder)
    (h1 : 1 ≤ c) (h2 : c ≤ nChaps d b) : Valid d v0 ⟨b, c, lastNum d b c⟩ := by
  have := h.lastNum_pos h1 h2
  have := firstNum_le_one d v0 b c
  exact ⟨h1, h2, by simp only; omega, by simp only; omega, hb⟩

theorem firstNum_valid {d : BibleData} (h : d.WF) {v0 : Bool} {b : BibleBook} {c : Int} (hb : b ∈ d.bookOrder)
    (h1 : 1 ≤ c) (h2 : c ≤ nChaps d b) : Valid d v0 ⟨b, c, firstNum d v0 b c⟩ := by
  have := h.lastNum_pos h1 h2
  have := firstNum_le_one d v0 b c
  exact ⟨h1, h2, by simp only; omega, by simp only; omega, hb⟩

/-- Last verse of the verse's book. -/
def enBook (d : BibleData) (v : BibleVerse) : BibleVerse := ⟨v.book, nChaps d v.book, lastNum d v.book (nChaps d v.book)⟩
/-- Last verse of the verse's chapter. -/
def enChap (d : BibleData) (v : BibleVerse) : BibleVerse := ⟨v.book, v.chap, lastNum d v.book v.chap⟩

theorem enBook_valid {d : BibleData} (h : d.WF) (v0) {v : BibleVerse} (hb : v.book ∈ d.bookOrder) : Valid d v0 (enBook d v) := by
  have := h.nChaps_pos v.book
  exact lastNum_valid h hb (by omega) (by omega)

theorem le_enBook {d : BibleData} (h : d.WF) {v0} {v w : BibleVerse} (hv : Valid d v0 v) (hb : v.book = w.book) :
    v.le d (enBook d w) = true := by
  rw [h.le_iff]; right
  refine ⟨hb, ?_⟩
  have h1 := hv.2.1
  have h2 := hv.le_last
  rw [hb] at h1 h2
  simp only [enBook]
  by_cases hc : v.chap = nChaps d w.book
  · right; rw [hc] at h2; exact ⟨hc, h2⟩
  · left; omega

theorem endOk_book {e : Env} (h : e.data.WF) (v0) : EndOk e.data v0 (fun v => v.book.lastVerse e none) (enBook e.data) := by
  intro v hv
  refine ⟨lastVerse_none h v.book, enBook_valid h v0 hv.listed, ?_, rfl⟩
  rw [← le_ix h hv (enBook_valid h v0 hv.listed)]
  exact le_enBook h hv rfl

theorem le_enChap {d : BibleData} (h : d.WF) {v0} {v w : BibleVerse} (hv : Valid d v0 v) (hb : v.book = w.book)
    (hc : v.chap = w.chap) : v.le d (enChap d w) = true := by
  rw [h.le_iff]; right
  refine ⟨hb, .inr ⟨hc, ?_⟩⟩
  have := hv.le_last
  rw [hb, hc] at this
  exact this

theorem endOk_chap {e : Env} (h : e.data.WF) (v0) : EndOk e.data v0 (fun v => v.lastVerse e none) (enChap e.data) := by
  intro v hv
  have hval : Valid e.data v0 (enChap e.data v) := lastNum_valid h hv.listed hv.1 hv.2.1
  refine ⟨?_, hval, ?_, rfl⟩
  · simp only [BibleVerse.lastVerse, Option.getD_none, lastVerse_eq h]
    rw [if_pos ⟨hv.1, hv.2.1⟩]; rfl
  · rw [← le_ix h hv hval]; exact le_enChap h hv rfl rfl

/-- The boundary relations of the three kinds of split. -/
def BookCut (byBook : Bool) (a b : BibleVerse) : Prop := byBook = true ∧ a.book ≠ b.book
/-- See `BookCut`. -/
def ChapCut (byBook byChap : Bool) (a b : BibleVerse) : Prop :=
  BookCut byBook a b ∨ (byChap = true ∧ ¬ (a.book = b.book ∧ a.chap = b.chap))

theorem neighbours_and {α} {R S : α → α → Prop} {l : List α} (h1 : Neighbours R l) (h2 : Neighbours S l) :
    Neighbours (fun a b => R a b ∧ S a b) l := by
  induction l with
  | nil => trivial
  | cons x l ih =>
    cases l with
    | nil => trivial
    | cons y l => exact ⟨⟨h1.1, h2.1⟩, ih h1.2 h2.2⟩

theorem neighbours_mem {α} {R : α → α → Prop} {l : List α} (h1 : Neighbours R l) :
    Neighbours (fun a b => R a b ∧ a ∈ l ∧ b ∈ l) l := by
  induction l with
  | nil => trivial
  | cons x l ih =>
    cases l with
    | nil => trivial
    | cons y l =>
      refine ⟨⟨h1.1, by simp, by simp⟩, neighbours_imp ?_ (ih h1.2)⟩
      rintro a b ⟨h2, h3, h4⟩
      exact ⟨h2, List.mem_cons_of_mem _ h3, List.mem_cons_of_mem _ h4⟩

theorem splitRaw_spec {e : Env} (h : e.data.WF) {r : BibleRange} (hr : ROK e.data true r) (byBook byChap : Bool)
    (num : Option Int) (hn : ∀ n, num = some n → 1 ≤ n) (flags : Option BibleFlag) {fuel : Nat}
    (hfuel : e.data.totalVerses < fuel) {v0 : Bool} (hv0 : v0 = (r.splitFlags e flags).verse0) :
    ∃ l, r.splitRaw e byBook byChap num flags fuel = .ok l ∧ Tiles e.data v0 (ix e.data v0 r.start) (ix e.data v0 r.stop) l ∧
      (∀ x ∈ l, (byBook = true → x.start.book = x.stop.book) ∧
        (byChap = true → x.start.book = x.stop.book ∧ x.start.chap = x.stop.chap) ∧
        (∀ n : Int, num = some n → ((ix e.data v0 x.stop + 1 - ix e.data v0 x.start : Nat) : Int) ≤ n)) ∧
      Neighbours (fun p q => ChapCut byBook byChap p.stop q.start ∨
        (∃ n : Nat, num = some (n : Int) ∧ ix e.data v0 p.stop + 1 - ix e.data v0 p.start = n)) l := by
  have hr' := hr.splitFlags flags
  have hf := splitFlags_eff e r flags
  have hmb := splitFlags_book e r flags
  unfold BibleRange.splitRaw
  generalize hfl : r.splitFlags e flags = f at *
  subst hv0
  have hlen := length_canon_le h f.verse0
  have hgs := ix_get h hr'.s
  have hgt := ix_get h hr'.t
  have hile : ix e.data f.verse0 r.start ≤ ix e.data f.verse0 r.stop := (pos_le_ix h hr'.s hr'.t).mp hr'.le
  -- cutting one tile
  have cut : ∀ {endOf en}, EndOk e.data f.verse0 endOf en → ∀ {i k : Nat} {l : List BibleRange}, Tiles e.data f.verse0 i k l →
      (∀ x ∈ l, f.multibook = true ∨ x.start.book = x.stop.book) → ∀ x ∈ l,
      ∃ lr, BibleRange.chop e f endOf fuel x.start x.stop = .ok lr ∧
        Tiles e.data f.verse0 (ix e.data f.verse0 x.start) (ix e.data f.verse0 x.stop) lr ∧
        (∀ p ∈ lr, ix e.data f.verse0 p.stop ≤ ix e.data f.verse0 (en p.start)) ∧
        Neighbours (fun p _ => p.stop = en p.start) lr := by
    intro endOf en hend i k l ht hm x hx
    obtain ⟨h1, h2, h3, h4⟩ := ht.pieces h hx
    have hl2 := (List.getElem?_eq_some_iff.mp (ix_get h h1.t)).1
    exact chop_spec h hf hend fuel (ix_get h h1.s) (ix_get h h1.t) h3 (hm x hx) (by omega)
  -- a piece of a tile inherits the tile's unit
  have inhB : ∀ {x p : BibleRange} {l : List BibleRange}, ROK e.data f.verse0 x →
      Tiles e.data f.verse0 (ix e.data f.verse0 x.start) (ix e.data f.verse0 x.stop) l → p ∈ l →
      x.start.book = x.stop.book → p.start.book = p.stop.book := by
    intro x p l hx ht hp hb
    obtain ⟨h1, h2, h3, h4⟩ := ht.pieces h hp
    have a := book_between h (ix_get h hx.s) (ix_get h h1.s) (ix_get h hx.t) h2 (by omega) hb
    have b := book_between h (ix_get h hx.s) (ix_get h h1.t) (ix_get h hx.t) (by omega) h4 hb
    rw [a, b]
  have inhC : ∀ {x p : BibleRange} {l : List BibleRange}, ROK e.data f.verse0 x →
      Tiles e.data f.verse0 (ix e.data f.verse0 x.start) (ix e.data f.verse0 x.stop) l → p ∈ l →
      x.start.book = x.stop.book ∧ x.start.chap = x.stop.chap → p.start.book = p.stop.book ∧ p.start.chap = p.stop.chap := by
    intro x p l hx ht hp hb
    obtain ⟨h1, h2, h3, h4⟩ := ht.pieces h hp
    have a := chap_between h (ix_get h hx.s) (ix_get h h1.s) (ix_get h hx.t) h2 (by omega) hb.1 hb.2
    have b := chap_between h (ix_get h hx.s) (ix_get h h1.t) (ix_get h hx.t) (by omega) h4 hb.1 hb.2
    exact ⟨by rw [a.1, b.1], by rw [a.2, b.2]⟩
  -- stage 1
  obtain ⟨l1, hs1, ht1, hP1, hN1⟩ : ∃ l1, (if byBook = true then
        BibleRange.splitEach (fun r => BibleRange.chop e f (fun v => v.book.lastVerse e none) fuel r.start r.stop) [r]
        else pure [r]) = .ok l1 ∧
      Tiles e.data f.verse0 (ix e.data f.verse0 r.start) (ix e.data f.verse0 r.stop) l1 ∧
      (∀ x ∈ l1, byBook = true → x.start.book = x.stop.book) ∧
      Neighbours (fun p q => BookCut byBook p.stop q.start) l1 := by
    have ht0 : Tiles e.data f.verse0 (ix e.data f.verse0 r.start) (ix e.data f.verse0 r.stop) [r] := .one hgs hgt hile
    cases byBook
    · exact ⟨[r], rfl, ht0, fun _ _ hh => (Bool.false_ne_true hh).elim, trivial⟩
    · obtain ⟨L, a, b, c, n⟩ := splitEach_spec h ht0 (C := fun _ _ => False)
        (P := fun x => ix e.data f.verse0 x.stop ≤ ix e.data f.verse0 (enBook e.data x.start))
        (B := fun p _ => p.stop = enBook e.data p.start) trivial
        (fun x hx => cut (endOk_book h f.verse0) ht0 (by
          intro x hx; rw [List.mem_singleton] at hx; subst hx; exact hmb) x hx)
      refine ⟨L, a, b, ?_, ?_⟩
      · intro x hx _
        obtain ⟨h1, h2, h3, h4⟩ := b.pieces h hx
        have hv := enBook_valid h f.verse0 h1.s.listed
        exact (book_between h (ix_get h h1.s) (ix_get h h1.t) (ix_get h hv) h3 (c x hx) rfl).symm
      · have hcons := b.consecutive
        refine neighbours_imp ?_ (neighbours_mem (neighbours_and n hcons))
        rintro p q ⟨⟨h1, j, hj1, hj2⟩, hp, hq⟩
        rcases h1 with h1 | h1
        · exact h1.elim
        · refine ⟨rfl, fun hb => ?_⟩
          obtain ⟨hq1, _⟩ := b.pieces h hq
          have := le_enBook h (w := p.start) hq1.s (by rw [← hb, h1]; rfl)
          rw [← h1, le_ix h hq1.s (valid_of_get h hj1), ix_of_get h hj1, ix_of_get h hj2] at this
          omega
  -- stage 2
  obtain ⟨l2, hs2, ht2, hP2, hN2⟩ : ∃ l2, (if byChap = true then
        BibleRange.splitEach (fun r => BibleRange.chop e f (fun v => v.lastVerse e none) fuel r.start r.stop) l1
        else pure l1) = .ok l2 ∧
      Tiles e.data f.verse0 (ix e.data f.verse0 r.start) (ix e.data f.verse0 r.stop) l2 ∧
      (∀ x ∈ l2, (byBook = true → x.start.book = x.stop.book) ∧
        (byChap = true → x.start.book = x.stop.book ∧ x.start.chap = x.stop.chap)) ∧
      Neighbours (fun p q => ChapCut byBook byChap p.stop q.start) l2 := by
    cases byChap
    · exact ⟨l1, rfl, ht1, fun x hx => ⟨hP1 x hx, fun hh => by cases hh⟩, neighbours_imp (fun _ _ => Or.inl) hN1⟩
    · have hm1 : ∀ x ∈ l1, f.multibook = true ∨ x.start.book = x.stop.book := by
        intro x hx
        rcases hmb with hm | hm
        · exact .inl hm
        · exact .inr (inhB hr' ht1 hx hm)
      obtain ⟨L, a, b, c, n⟩ := splitEach_spec h ht1 (C := BookCut byBook)
        (P := fun x => (byBook = true → x.start.book = x.stop.book) ∧
          ix e.data f.verse0 x.stop ≤ ix e.data f.verse0 (enChap e.data x.start))
        (B := fun p _ => p.stop = enChap e.data p.start) hN1
        (fun x hx => by
          obtain ⟨lr, a, b, c, n⟩ := cut (endOk_chap h f.verse0) ht1 hm1 x hx
          refine ⟨lr, a, b, fun p hp => ⟨fun hb => ?_, c p hp⟩, n⟩
          exact inhB (ht1.pieces h hx).1 b hp (hP1 x hx hb))
      refine ⟨L, a, b, ?_, ?_⟩
      · intro x hx
        obtain ⟨h1, h2, h3, h4⟩ := b.pieces h hx
        have hv : Valid e.data f.verse0 (enChap e.data x.start) := lastNum_valid h h1.s.listed h1.s.1 h1.s.2.1
        have := chap_between h (ix_get h h1.s) (ix_get h h1.t) (ix_get h hv) h3 (c x hx).2 rfl rfl
        exact ⟨(c x hx).1, fun _ => ⟨this.1.symm, this.2.symm⟩⟩
      · have hcons := b.consecutive
        refine neighbours_imp ?_ (neighbours_mem (neighbours_and n hcons))
        rintro p q ⟨⟨h1, j, hj1, hj2⟩, hp, hq⟩
        rcases h1 with h1 | h1
        · exact .inl h1
        · refine .inr ⟨rfl, fun hb => ?_⟩
          obtain ⟨hq1, _⟩ := b.pieces h hq
          have := le_enChap h (w := p.start) hq1.s (by rw [← hb.1, h1]; rfl) (by rw [← hb.2, h1]; rfl)
          rw [← h1, le_ix h hq1.s (valid_of_get h hj1), ix_of_get h hj1, ix_of_get h hj2] at this
          omega
  simp only [hs1, hs2, bind, Except.bind]
  cases num with
  | none =>
    refine ⟨l2, rfl, ht2, fun x hx => ⟨(hP2 x hx).1, (hP2 x hx).2, fun n hh => by cases hh⟩, neighbours_imp (fun _ _ => Or.inl) hN2⟩
  | some n =>
    have hn1 := hn n rfl
    obtain ⟨m, rfl⟩ : ∃ m : Nat, n = m := ⟨n.toNat, by omega⟩
    have hm2 : ∀ x ∈ l2, f.multibook = true ∨ x.start.book = x.stop.book := by
      intro x hx
      rcases hmb with hm | hm
      · exact .inl hm
      · exact .inr (inhB hr' ht2 hx hm)
    obtain ⟨L, a, b, c, nn⟩ := splitEach_spec h ht2 (C := ChapCut byBook byChap)
      (step := fun r => do
        let stop ← r.start.add e ((m : Int) - 1) (some f)
        BibleRange.chopNum e f m r.stop fuel (some r.start) stop)
      (P := fun x => (byBook = true → x.start.book = x.stop.book) ∧
        (byChap = true → x.start.book = x.stop.book ∧ x.start.chap = x.stop.chap) ∧
        ix e.data f.verse0 x.stop + 1 - ix e.data f.verse0 x.start ≤ m)
      (B := fun p _ => ix e.data f.verse0 p.stop + 1 - ix e.data f.verse0 p.start = m) hN2
      (fun x hx => by
        obtain ⟨h1, h2, h3, h4⟩ := ht2.pieces h hx
        have hl2 := (List.getElem?_eq_some_iff.mp (ix_get h h1.t)).1
        obtain ⟨lr, a, b, c, n⟩ := chopNum_spec h hf (n := m) (by omega) fuel (ix_get h h1.s) (ix_get h h1.t) h3 (hm2 x hx) (by omega)
        have hadd := add_canon h (v := x.start) (flags := some f) (v0 := f.verse0) (by rw [hf]; exact h1.s.or_self.symm)
          (ix_get h h1.s) (m - 1)
        rw [show (((m - 1 : Nat) : Int)) = (m : Int) - 1 by omega, hf] at hadd
        refine ⟨lr, ?_, b, fun p hp => ⟨fun hb => ?_, fun hb => ?_, c p hp⟩, n⟩
        · simp only [hadd, bind, Except.bind]; exact a
        · exact inhB h1 b hp ((hP2 x hx).1 hb)
        · exact inhC h1 b hp ((hP2 x hx).2 hb))
    refine ⟨L, a, b, fun x hx => ⟨(c x hx).1, (c x hx).2.1, ?_⟩, neighbours_imp ?_ nn⟩
    · intro n hh; cases hh
      have := (c x hx).2.2
      omega
    · rintro p q (hh | hh)
      · exact .inl hh
      · exact .inr ⟨m, rfl, hh⟩

/-- The number of verses of a range. -/
theorem length_versesOf {d : BibleData} (h : d.WF) {v0 : Bool} {r : BibleRange} (hs : Valid d v0 r.start)
    (ht : Valid d v0 r.stop) : (versesOf d v0 r).length = ix d v0 r.stop + 1 - ix d v0 r.start := by
  have := (List.getElem?_eq_some_iff.mp (ix_get h ht)).1
  rw [versesOf_slice h hs ht, List.length_take, List.length_drop]
  omega

end Bibleref

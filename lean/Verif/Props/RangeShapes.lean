import Verif.Lemmas.Shape
import Verif.Props.RangeOps

/-!
# Whole chapters and books (C17, C18)

`hg` in the theorems with flags says that the call allows verse 0s only if they are allowed globally. Without it
`first_verse` raises (`C11_first_verse_defect`), and everything built on it with it.
-/

namespace Bibleref
open Spec

/-! ## C17 -/

/-- C17: `spans_start_chap`, `spans_end_chap`, `spans_start_book` and `spans_end_book` hold exactly when the range has
every verse of the chapter or book in which it starts or ends. -/
theorem C17_spans_partial (e : Env) (h : e.data.WF) (flags : Option BibleFlag)
    (hg : (inForce e flags).verse0 = true → e.flags.verse0 = true) (r : BibleRange)
    (hr : RangeOK e.data (inForce e flags).verse0 r) :
    (∃ b, r.spansStartChap e flags = .ok b ∧ (b = true ↔ ∀ v ∈ canon e.data (inForce e flags).verse0,
      v.book = r.start.book → v.chap = r.start.chap → InRange e.data r v)) ∧
    (∃ b, r.spansEndChap e flags = .ok b ∧ (b = true ↔ ∀ v ∈ canon e.data (inForce e flags).verse0,
      v.book = r.stop.book → v.chap = r.stop.chap → InRange e.data r v)) ∧
    (∃ b, r.spansStartBook e flags = .ok b ∧ (b = true ↔ ∀ v ∈ canon e.data (inForce e flags).verse0,
      v.book = r.start.book → InRange e.data r v)) ∧
    (∃ b, r.spansEndBook e flags = .ok b ∧ (b = true ↔ ∀ v ∈ canon e.data (inForce e flags).verse0,
      v.book = r.stop.book → InRange e.data r v)) := by
  rw [← eff_eq] at *
  rw [rangeOK_iff h] at hr
  have BC := blocks_chap h (e.eff flags).verse0
  have BB := blocks_book h (e.eff flags).verse0
  have n1 := h.nChaps_pos r.start.book
  have n2 := h.nChaps_pos r.stop.book
  simp only [mem_canon h, InRange]
  refine ⟨⟨decide (r.start = stChap e.data (e.eff flags).verse0 r.start ∧ pos e.data (enChap e.data r.start) ≤ pos e.data r.stop), ?_, ?_⟩,
    ⟨decide (r.stop = enChap e.data r.stop ∧ pos e.data r.start ≤ pos e.data (stChap e.data (e.eff flags).verse0 r.stop)), ?_, ?_⟩,
    ⟨decide (r.start = stBook e.data (e.eff flags).verse0 r.start ∧ pos e.data (enBook e.data r.start) ≤ pos e.data r.stop), ?_, ?_⟩,
    ⟨decide (r.stop = enBook e.data r.stop ∧ pos e.data r.start ≤ pos e.data (stBook e.data (e.eff flags).verse0 r.stop)), ?_, ?_⟩⟩
  · unfold BibleRange.spansStartChap
    rw [first_st_chap h hg hr.s.mono, last_en_chap h hr.s.mono]
    simp only [bind, Except.bind, pure, Except.pure]
    by_cases g : r.start = stChap e.data (e.eff flags).verse0 r.start
    · rw [if_neg (show ¬ r.start ≠ _ from fun hh => hh g)]
      rw [BibleVerse.lessEq_eq (comparable_listed (BC.en_valid hr.s.mono) hr.t)]
      congr 1
      apply Bool.eq_iff_iff.mpr
      rw [decide_eq_true_iff, h.le_pos (BC.en_valid hr.s.mono) hr.t]
      exact ⟨fun hh => ⟨g, hh⟩, fun hh => hh.2⟩
    · rw [if_pos (show r.start ≠ _ from g)]
      congr 1; symm
      rw [decide_eq_false_iff_not]; exact fun hh => g hh.1
  · rw [decide_eq_true_iff, BC.spans_start h hr]
    simp only [Prod.mk.injEq]
    exact ⟨fun hh v hv h1 h2 => hh v hv ⟨h1, h2⟩, fun hh v hv hk => hh v hv hk.1 hk.2⟩
  · unfold BibleRange.spansEndChap
    rw [first_st_chap h hg hr.t.mono, last_en_chap h hr.t.mono]
    simp only [bind, Except.bind, pure, Except.pure]
    by_cases g : r.stop = enChap e.data r.stop
    · rw [if_neg (show ¬ r.stop ≠ _ from fun hh => hh g)]
      rw [BibleVerse.lessEq_eq (comparable_listed hr.s (BC.st_valid hr.t.mono))]
      congr 1
      apply Bool.eq_iff_iff.mpr
      rw [decide_eq_true_iff, h.le_pos hr.s (BC.st_valid hr.t.mono)]
      exact ⟨fun hh => ⟨g, hh⟩, fun hh => hh.2⟩
    · rw [if_pos (show r.stop ≠ _ from g)]
      congr 1; symm
      rw [decide_eq_false_iff_not]; exact fun hh => g hh.1
  · rw [decide_eq_true_iff, BC.spans_end h hr]
    simp only [Prod.mk.injEq]
    exact ⟨fun hh v hv h1 h2 => hh v hv ⟨h1, h2⟩, fun hh v hv hk => hh v hv hk.1 hk.2⟩
  · unfold BibleRange.spansStartBook
    rw [first_st_book h hg r.start, last_en_book h r.start]
    simp only [bind, Except.bind, pure, Except.pure]
    by_cases g : r.start = stBook e.data (e.eff flags).verse0 r.start
    · rw [if_neg (show ¬ r.start ≠ _ from fun hh => hh g)]
      rw [BibleVerse.lessEq_eq (comparable_listed (enBook_valid h true hr.s.listed) hr.t)]
      congr 1
      apply Bool.eq_iff_iff.mpr
      rw [decide_eq_true_iff, h.le_pos (v0 := true) (enBook_valid h true hr.s.listed) hr.t]
      exact ⟨fun hh => ⟨g, hh⟩, fun hh => hh.2⟩
    · rw [if_pos (show r.start ≠ _ from g)]
      congr 1; symm
      rw [decide_eq_false_iff_not]; exact fun hh => g hh.1
  · rw [decide_eq_true_iff, BB.spans_start h hr]
  · unfold BibleRange.spansEndBook
    rw [first_st_book h hg r.stop, last_en_book h r.stop]
    simp only [bind, Except.bind, pure, Except.pure]
    by_cases g : r.stop = enBook e.data r.stop
    · rw [if_neg (show ¬ r.stop ≠ _ from fun hh => hh g)]
      rw [BibleVerse.lessEq_eq (comparable_listed hr.s (BB.st_valid hr.t.mono))]
      congr 1
      apply Bool.eq_iff_iff.mpr
      rw [decide_eq_true_iff, h.le_pos hr.s (BB.st_valid hr.t.mono)]
      exact ⟨fun hh => ⟨g, hh⟩, fun hh => hh.2⟩
    · rw [if_pos (show r.stop ≠ _ from g)]
      congr 1; symm
      rw [decide_eq_false_iff_not]; exact fun hh => g hh.1
  · rw [decide_eq_true_iff, BB.spans_end h hr]

/-- C17: `is_whole_chap` and `is_whole_book` hold exactly when the verses of the range are those of one chapter or book. -/
theorem C17_whole_partial (e : Env) (h : e.data.WF) (flags : Option BibleFlag)
    (hg : (inForce e flags).verse0 = true → e.flags.verse0 = true) (r : BibleRange)
    (hr : RangeOK e.data (inForce e flags).verse0 r) :
    (∃ b, r.isWholeChap e flags = .ok b ∧ (b = true ↔ ∃ k c, ∀ v ∈ canon e.data (inForce e flags).verse0,
      (InRange e.data r v ↔ v.book = k ∧ v.chap = c))) ∧
    (∃ b, r.isWholeBook e flags = .ok b ∧ (b = true ↔ ∃ k, ∀ v ∈ canon e.data (inForce e flags).verse0,
      (InRange e.data r v ↔ v.book = k))) := by
  rw [← eff_eq] at *
  rw [rangeOK_iff h] at hr
  have BC := blocks_chap h (e.eff flags).verse0
  have BB := blocks_book h (e.eff flags).verse0
  simp only [mem_canon h, InRange]
  refine ⟨⟨decide (r.start = stChap e.data (e.eff flags).verse0 r.start ∧ r.stop = enChap e.data r.start), ?_, ?_⟩,
    ⟨decide (r.start = stBook e.data (e.eff flags).verse0 r.start ∧ r.stop = enBook e.data r.start), ?_, ?_⟩⟩
  · unfold BibleRange.isWholeChap
    by_cases gb : r.start.book = r.stop.book
    · rw [if_neg (fun hh => hh gb), first_st_chap h hg hr.s.mono, ← gb, last_en_chap h hr.s.mono]
      simp only [bind, Except.bind, pure, Except.pure]
      by_cases g : r.start = stChap e.data (e.eff flags).verse0 r.start
      · rw [if_neg (show ¬ r.start ≠ _ from fun hh => hh g)]
        congr 1
        apply Bool.eq_iff_iff.mpr
        rw [decide_eq_true_iff, decide_eq_true_iff]
        exact ⟨fun hh => ⟨g, hh⟩, fun hh => hh.2⟩
      · rw [if_pos (show r.start ≠ _ from g)]
        congr 1; symm
        rw [decide_eq_false_iff_not]; exact fun hh => g hh.1
    · rw [if_pos gb]
      simp only [pure, Except.pure]
      congr 1; symm
      rw [decide_eq_false_iff_not]; intro hh; exact gb (by rw [hh.2]; rfl)
  · rw [decide_eq_true_iff, BC.whole h hr]
    constructor
    · rintro ⟨⟨k, c⟩, hk⟩; exact ⟨k, c, fun v hv => by rw [hk v hv, Prod.mk.injEq]⟩
    · rintro ⟨k, c, hk⟩; exact ⟨(k, c), fun v hv => by rw [hk v hv, Prod.mk.injEq]⟩
  · unfold BibleRange.isWholeBook
    by_cases gb : r.start.book = r.stop.book
    · rw [if_neg (fun hh => hh gb), first_st_book h hg r.start, ← gb, last_en_book h r.start]
      simp only [bind, Except.bind, pure, Except.pure]
      by_cases g : r.start = stBook e.data (e.eff flags).verse0 r.start
      · rw [if_neg (show ¬ r.start ≠ _ from fun hh => hh g)]
        congr 1
        apply Bool.eq_iff_iff.mpr
        rw [decide_eq_true_iff, decide_eq_true_iff]
        exact ⟨fun hh => ⟨g, hh⟩, fun hh => hh.2⟩
      · rw [if_pos (show r.start ≠ _ from g)]
        congr 1; symm
        rw [decide_eq_false_iff_not]; exact fun hh => g hh.1
    · rw [if_pos gb]
      simp only [pure, Except.pure]
      congr 1; symm
      rw [decide_eq_false_iff_not]; intro hh; exact gb (by rw [hh.2]; rfl)
  · rw [decide_eq_true_iff, BB.whole h hr]

/-- C17: `is_single_verse` holds exactly when the range has one verse. -/
theorem C17_single (d : BibleData) (h : d.WF) (v0 : Bool) (r : BibleRange) (hr : RangeOK d v0 r) :
    r.isSingleVerse = true ↔ (versesOf d v0 r).length = 1 := by
  have hle := hr.3
  rw [rangeOK_iff h] at hr
  rw [BibleRange.isSingleVerse, decide_eq_true_iff, length_versesOf h hr.s hr.t]
  rw [pos_le_ix h hr.s hr.t] at hle
  constructor
  · intro hh; rw [hh]; omega
  · intro hh; exact (ix_inj h hr.s hr.t).mp (by omega)

/-- C17 fails when the call allows verse 0s that are not allowed globally: the methods raise. -/
theorem C17_counterexample : RangeOK dflt.data (inForce dflt (some .VERSE_0)).verse0 exPsa ∧
    exPsa.spansStartChap dflt (some .VERSE_0) = .error .invalidReference ∧
    exPsa.isWholeChap dflt (some .VERSE_0) = .error .invalidReference := ⟨exPsa_ok, by decide +kernel⟩

example : BibleRange.isWholeChap dflt ⟨⟨.Matt, 5, 1⟩, ⟨.Matt, 5, 48⟩⟩ none = .ok true ∧
    BibleRange.isWholeBook dflt ⟨⟨.Jude, 1, 1⟩, ⟨.Jude, 1, 25⟩⟩ none = .ok true ∧
    BibleRange.spansStartChap dflt exMatt none = .ok false ∧
    BibleRange.spansEndChap dflt ⟨⟨.Matt, 4, 9⟩, ⟨.Matt, 5, 48⟩⟩ none = .ok true ∧
    BibleRange.isWholeChap dfltAll ⟨⟨.Psa, 3, 0⟩, ⟨.Psa, 3, 8⟩⟩ none = .ok true := by decide +kernel
example : (inForce dflt none).verse0 = true → dflt.flags.verse0 = true := id
example : RangeOK dflt.data (inForce dflt none).verse0 exMatt := exMatt_ok _

/-! ## C18 -/

/-- C18: `chap_range` of a range succeeds, has exactly the verses that are in a chapter of some verse of the range, and
applying it again changes nothing. -/
theorem C18_chap_range_partial (e : Env) (h : e.data.WF) (flags : Option BibleFlag)
    (hg : (inForce e flags).verse0 = true → e.flags.verse0 = true) (r : BibleRange) (hr : RangeOK e.data true r) :
    ∃ r', r.chapRange e flags = .ok r' ∧ RangeOK e.data (inForce e flags).verse0 r' ∧ r'.chapRange e flags = .ok r' ∧
      ∀ v ∈ canon e.data (inForce e flags).verse0,
        (InRange e.data r' v ↔ ∃ u ∈ canon e.data true, InRange e.data r u ∧ u.book = v.book ∧ u.chap = v.chap) := by
  rw [← eff_eq] at *
  rw [rangeOK_iff h] at hr
  have B := blocks_chap h (e.eff flags).verse0
  have hr' : ROK e.data (e.eff flags).verse0 ⟨stChap e.data (e.eff flags).verse0 r.start, enChap e.data r.stop⟩ :=
    ⟨B.st_valid hr.s, B.en_valid hr.t, B.le hr.s hr.t hr.le⟩
  refine ⟨_, chapRange_eq h hg hr, (rangeOK_iff h).mpr hr', chapRange_eq h hg ⟨hr'.s.mono, hr'.t.mono, hr'.le⟩, ?_⟩
  intro v hv
  rw [mem_canon h] at hv
  have := B.cover hr hv
  simp only [Prod.mk.injEq] at this
  simp only [mem_canon h, InRange]
  exact this

/-- C18: the same for `book_range`. -/
theorem C18_book_range_partial (e : Env) (h : e.data.WF) (flags : Option BibleFlag)
    (hg : (inForce e flags).verse0 = true → e.flags.verse0 = true) (r : BibleRange) (hr : RangeOK e.data true r) :
    ∃ r', r.bookRange e flags = .ok r' ∧ RangeOK e.data (inForce e flags).verse0 r' ∧ r'.bookRange e flags = .ok r' ∧
      ∀ v ∈ canon e.data (inForce e flags).verse0,
        (InRange e.data r' v ↔ ∃ u ∈ canon e.data true, InRange e.data r u ∧ u.book = v.book) := by
  rw [← eff_eq] at *
  rw [rangeOK_iff h] at hr
  have B := blocks_book h (e.eff flags).verse0
  have hr' : ROK e.data (e.eff flags).verse0 ⟨stBook e.data (e.eff flags).verse0 r.start, enBook e.data r.stop⟩ :=
    ⟨B.st_valid hr.s, B.en_valid hr.t, B.le hr.s hr.t hr.le⟩
  refine ⟨_, bookRange_eq h hg hr, (rangeOK_iff h).mpr hr', bookRange_eq h hg ⟨hr'.s.mono, hr'.t.mono, hr'.le⟩, ?_⟩
  intro v hv
  rw [mem_canon h] at hv
  simp only [mem_canon h, InRange]
  exact B.cover hr hv

/-- C18: `range` and `chap_range` of a book have exactly the verses of the book or chapter. -/
theorem C18_of_book_partial (e : Env) (h : e.data.WF) (flags : Option BibleFlag)
    (hg : (inForce e flags).verse0 = true → e.flags.verse0 = true) (b : BibleBook) (hb : b ∈ e.data.bookOrder) (c : Int)
    (hc : c ∈ chapters e.data b) :
    (∃ r, b.range e flags = .ok r ∧ RangeOK e.data (inForce e flags).verse0 r ∧
      ∀ v ∈ canon e.data (inForce e flags).verse0, (InRange e.data r v ↔ v.book = b)) ∧
    (∃ r, b.chapRange e c flags = .ok r ∧ RangeOK e.data (inForce e flags).verse0 r ∧
      ∀ v ∈ canon e.data (inForce e flags).verse0, (InRange e.data r v ↔ v.book = b ∧ v.chap = c)) := by
  rw [← eff_eq] at *
  rw [mem_chapters] at hc
  have hp := h.nChaps_pos b
  have BC := blocks_chap h (e.eff flags).verse0
  have BB := blocks_book h (e.eff flags).verse0
  have hv1 : Valid e.data true ⟨b, 1, lastNum e.data b 1⟩ := lastNum_valid h hb (by omega) (by omega)
  have hv2 : Valid e.data true ⟨b, c, lastNum e.data b c⟩ := lastNum_valid h hb hc.1 hc.2
  refine ⟨⟨_, book_range_eq h hg b, ?_, ?_⟩, ⟨_, book_chapRange_eq h hg hc.1 hc.2, ?_, ?_⟩⟩
  · rw [rangeOK_iff h]
    exact ⟨BB.st_valid hv1, BB.en_valid hv1, BB.le hv1 hv1 (Nat.le_refl _)⟩
  · intro v hv
    rw [mem_canon h] at hv
    exact BB.block hv1 hv
  · rw [rangeOK_iff h]
    exact ⟨BC.st_valid hv2, BC.en_valid hv2, BC.le hv2 hv2 (Nat.le_refl _)⟩
  · intro v hv
    rw [mem_canon h] at hv
    rw [InRange, ← Prod.mk.injEq]
    exact BC.block hv2 hv

/-- C18: `book_range` and `chap_range` of a verse have exactly the verses of its book or chapter. -/
theorem C18_of_verse_partial (e : Env) (h : e.data.WF) (flags : Option BibleFlag)
    (hg : (inForce e flags).verse0 = true → e.flags.verse0 = true) (w : BibleVerse) (hw : w ∈ canon e.data true) :
    (∃ r, w.bookRange e flags = .ok r ∧ RangeOK e.data (inForce e flags).verse0 r ∧
      ∀ v ∈ canon e.data (inForce e flags).verse0, (InRange e.data r v ↔ v.book = w.book)) ∧
    (∃ r, w.chapRange e flags = .ok r ∧ RangeOK e.data (inForce e flags).verse0 r ∧
      ∀ v ∈ canon e.data (inForce e flags).verse0, (InRange e.data r v ↔ v.book = w.book ∧ v.chap = w.chap)) := by
  rw [mem_canon h] at hw
  exact C18_of_book_partial e h flags hg w.book hw.listed w.chap (mem_chapters.mpr ⟨hw.1, hw.2.1⟩)

/-- C18: `whole_bible` has every verse, if the book order is not empty. -/
theorem C18_whole_bible_partial (e : Env) (h : e.data.WF) (hne : e.data.bookOrder ≠ []) (flags : Option BibleFlag)
    (hg : (inForce e flags).verse0 = true → e.flags.verse0 = true) :
    ∃ r, BibleRange.wholeBible e flags = .ok r ∧ RangeOK e.data (inForce e flags).verse0 r ∧
      ∀ v ∈ canon e.data (inForce e flags).verse0, InRange e.data r v := by
  rw [← eff_eq] at *
  have hg' : (e.eff (some ((e.eff flags).union .MULTIBOOK))).verse0 = true → e.flags.verse0 = true := by
    rw [eff_multi, multi_verse0]; exact hg
  have B := blocks_book h (e.eff flags).verse0
  have hh := List.head?_eq_some_head hne
  have hl := List.getLast?_eq_some_getLast hne
  have hm := List.mem_of_mem_head? hh
  have hm' := List.mem_of_mem_getLast? hl
  generalize e.data.bookOrder.head hne = b at hh hm
  generalize e.data.bookOrder.getLast hne = b' at hl hm'
  have hb0 : bidx e.data b = 0 := h.bidx_of_get (by rw [← List.head?_eq_getElem?]; exact hh)
  have hb1 : bidx e.data b' = e.data.bookOrder.length - 1 := h.bidx_of_get (by rw [← List.getLast?_eq_getElem?]; exact hl)
  have hp := h.nChaps_pos b
  have hp' := h.nChaps_pos b'
  have hv1 : Valid e.data true ⟨b, 1, lastNum e.data b 1⟩ := lastNum_valid h hm (by omega) (by omega)
  have hv2 : Valid e.data true ⟨b', 1, lastNum e.data b' 1⟩ := lastNum_valid h hm' (by omega) (by omega)
  have key : ∀ v, Valid e.data (e.eff flags).verse0 v →
      pos e.data (stBook e.data (e.eff flags).verse0 ⟨b, 1, lastNum e.data b 1⟩) ≤ pos e.data v ∧
      pos e.data v ≤ pos e.data (enBook e.data ⟨b', 1, lastNum e.data b' 1⟩) := by
    intro v hv
    have := h.bidx_lt hv.listed
    constructor
    · by_cases hk : v.book = b
      · exact B.st_min hv hv1 hk
      · have hne : bidx e.data v.book ≠ bidx e.data b := fun hh => hk (h.bidx_inj.mp hh)
        apply Nat.le_of_lt
        rw [← h.lt_pos (B.st_valid hv1) hv, h.lt_iff]
        left; simp only [stBook]; omega
    · by_cases hk : v.book = b'
      · exact B.en_max hv.mono hv2 hk
      · have hne : bidx e.data v.book ≠ bidx e.data b' := fun hh => hk (h.bidx_inj.mp hh)
        apply Nat.le_of_lt
        rw [← h.lt_pos hv (B.en_valid hv2), h.lt_iff]
        left; simp only [enBook]; omega
  have hle : pos e.data (stBook e.data (e.eff flags).verse0 ⟨b, 1, lastNum e.data b 1⟩) ≤
      pos e.data (enBook e.data ⟨b', 1, lastNum e.data b' 1⟩) := (key _ (B.en_valid hv2)).1
  refine ⟨⟨stBook e.data (e.eff flags).verse0 ⟨b, 1, lastNum e.data b 1⟩, enBook e.data ⟨b', 1, lastNum e.data b' 1⟩⟩, ?_,
    (rangeOK_iff h).mpr ⟨B.st_valid hv1, B.en_valid hv2, hle⟩, ?_⟩
  · unfold BibleRange.wholeBible
    simp only [hh, hl]
    rw [firstVerse_flags_none h hg', lastVerse_none h]
    simp only [bind, Except.bind]
    have := new_range_ok h (B.st_valid hv1) (B.en_valid hv2) hle (flags := some ((e.eff flags).union .MULTIBOOK))
      (.inl (by rw [eff_multi]; exact multi_multibook _))
    rw [← this, eff_multi, multi_verse0]
    rfl
  · intro v hv
    rw [mem_canon h] at hv
    exact key v hv

theorem C18_counterexample : RangeOK dflt.data (inForce dflt (some .VERSE_0)).verse0 exPsa ∧
    exPsa.chapRange dflt (some .VERSE_0) = .error .invalidReference ∧
    BibleBook.chapRange dflt .Psa 3 (some .VERSE_0) = .error .invalidReference := ⟨exPsa_ok, by decide +kernel⟩

example : exMatt.chapRange dflt none = .ok ⟨⟨.Matt, 5, 1⟩, ⟨.Matt, 7, 29⟩⟩ ∧
    exMulti.bookRange dflt none = .ok ⟨⟨.Mal, 1, 1⟩, ⟨.Matt, 28, 20⟩⟩ ∧
    BibleRange.wholeBible dfltAll none = .ok ⟨⟨.Gen, 1, 1⟩, ⟨.Rev, 22, 21⟩⟩ ∧
    BibleBook.chapRange dfltAll .Psa 3 none = .ok ⟨⟨.Psa, 3, 0⟩, ⟨.Psa, 3, 8⟩⟩ := by decide +kernel

end Bibleref

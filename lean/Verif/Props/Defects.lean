import Verif.Props.RangeShapes
import Verif.Props.RangeArgs
import Verif.Props.Constructors

/-!
# What happens when a call allows verse 0s that the global flags do not (C13, C17, C18, C61)

`first_verse` makes the verse without the flags of the call (ref.py:200). So it raises `InvalidReferenceError` if the chapter has a
verse 0 that the call allows and the global flags do not. The theorems here say for all flags when the methods built on it raise, and
that otherwise they are right.
-/

namespace Bibleref
open Spec

/-- The chapter has a verse 0 which the call allows but the global flags do not. -/
abbrev Spec.Unfit (e : Env) (flags : Option BibleFlag) (b : BibleBook) (c : Int) : Prop :=
  (inForce e flags).verse0 = true ∧ e.flags.verse0 = false ∧ c ∈ e.data.verse0s b

/-- The same data with the flags of the call as global flags. -/
def Env.under (e : Env) (flags : Option BibleFlag) : Env := { e with flags := e.eff flags }

section
variable {e : Env} {flags : Option BibleFlag}

theorem under_eff (e : Env) (flags : Option BibleFlag) : (e.under flags).eff none = e.eff flags := rfl

theorem under_inForce (e : Env) (flags : Option BibleFlag) : inForce (e.under flags) none = inForce e flags := by
  rw [← eff_eq, ← eff_eq, under_eff]

theorem first_under (h : e.data.WF) {b : BibleBook} {c : Int} (hn : ¬ Unfit e flags b c) :
    b.firstVerse e (some c) flags = b.firstVerse (e.under flags) (some c) none := by
  have h1 : firstNum e.data e.flags.verse0 b c ≤ firstNum e.data (e.eff flags).verse0 b c := by
    rw [firstNum_le_iff, eff_eq]; exact hn
  rw [firstVerse_eq h, firstVerse_eq (e := e.under flags) h, under_eff]
  simp only [Env.under, Int.le_refl, and_true, h1]

theorem first_under_none (h : e.data.WF) {b : BibleBook} (hn : ¬ Unfit e flags b 1) :
    b.firstVerse e none flags = b.firstVerse (e.under flags) none none := by
  rw [firstVerse_none h, firstVerse_none (e := e.under flags) h, first_under h hn]

theorem last_under (h : e.data.WF) (b : BibleBook) (c : Option Int) : b.lastVerse e c = b.lastVerse (e.under flags) c := by
  cases c with
  | none => rw [lastVerse_none h, lastVerse_none (e := e.under flags) h]; rfl
  | some c => rw [lastVerse_eq h, lastVerse_eq (e := e.under flags) h]; rfl

theorem first_unfit (h : e.data.WF) {b : BibleBook} {c : Int} (hu : Unfit e flags b c) :
    b.firstVerse e (some c) flags = .error .invalidReference := C11_first_verse_defect e h b c flags hu

theorem first_unfit_none (h : e.data.WF) {b : BibleBook} (hu : Unfit e flags b 1) :
    b.firstVerse e none flags = .error .invalidReference := by rw [firstVerse_none h, first_unfit h hu]

end

theorem ok_decide {x : Except PyErr Bool} {p : Prop} [Decidable p] (h : ∃ b, x = .ok b ∧ (b = true ↔ p)) : x = .ok (decide p) := by
  obtain ⟨b, hb, hp⟩ := h
  rw [hb]; congr 1
  rw [Bool.eq_iff_iff, hp, decide_eq_true_iff]

/-- C17 for all flags: the `spans_*` methods raise if they need the first verse of a chapter with a verse 0 which the call allows
but the global flags do not. For the end of the range they do not need it unless the range ends with the last verse of the chapter or
book. Otherwise they are right. -/
theorem C17_spans_exact (e : Env) (h : e.data.WF) (flags : Option BibleFlag) (r : BibleRange)
    (hr : RangeOK e.data (inForce e flags).verse0 r) :
    r.spansStartChap e flags = (if Unfit e flags r.start.book r.start.chap then .error .invalidReference
      else .ok (decide (∀ v ∈ canon e.data (inForce e flags).verse0, v.book = r.start.book → v.chap = r.start.chap →
        InRange e.data r v))) ∧
    r.spansEndChap e flags = (if Unfit e flags r.stop.book r.stop.chap ∧
        (chapVerses e.data true r.stop.book r.stop.chap).getLast? = some r.stop then .error .invalidReference
      else .ok (decide (∀ v ∈ canon e.data (inForce e flags).verse0, v.book = r.stop.book → v.chap = r.stop.chap →
        InRange e.data r v))) ∧
    r.spansStartBook e flags = (if Unfit e flags r.start.book 1 then .error .invalidReference
      else .ok (decide (∀ v ∈ canon e.data (inForce e flags).verse0, v.book = r.start.book → InRange e.data r v))) ∧
    r.spansEndBook e flags = (if Unfit e flags r.stop.book 1 ∧
        (bookVerses e.data true r.stop.book).getLast? = some r.stop then .error .invalidReference
      else .ok (decide (∀ v ∈ canon e.data (inForce e flags).verse0, v.book = r.stop.book → InRange e.data r v))) := by
  have hp := C17_spans_partial (e.under flags) h none (fun hx => hx) r (by rw [under_inForce]; exact hr)
  rw [under_inForce] at hp
  have hr' := hr
  rw [rangeOK_iff h] at hr'
  obtain ⟨p1, p2, p3, p4⟩ := hp
  have hc2 := (C11_last_verse e h r.stop.book r.stop.chap true).1
  have hb2 := (C11_last_verse e h r.stop.book 1 true).2.2
  have hch : r.stop.chap ∈ chapters e.data r.stop.book := mem_chapters.mpr ⟨hr'.t.1, hr'.t.2.1⟩
  refine ⟨?_, ?_, ?_, ?_⟩
  · by_cases hu : Unfit e flags r.start.book r.start.chap
    · rw [if_pos hu, BibleRange.spansStartChap, first_unfit h hu]; rfl
    · rw [if_neg hu, BibleRange.spansStartChap, first_under h hu, last_under (flags := flags) h]
      exact ok_decide p1
  · have p2' : r.spansEndChap (e.under flags) none = .ok (decide (∀ v ∈ canon e.data (inForce e flags).verse0,
        v.book = r.stop.book → v.chap = r.stop.chap → InRange e.data r v)) := ok_decide p2
    rw [← p2']
    by_cases hu : Unfit e flags r.stop.book r.stop.chap
    · unfold BibleRange.spansEndChap
      rw [← last_under (flags := flags) h]
      rw [last_en_chap h hr'.t.mono] at hc2 ⊢
      have hc3 := hc2 r.stop
      simp only [Except.ok.injEq, hch, true_and] at hc3
      simp only [bind, Except.bind, pure, Except.pure]
      by_cases hl : (chapVerses e.data true r.stop.book r.stop.chap).getLast? = some r.stop
      · have heq : ¬ r.stop ≠ enChap e.data r.stop := fun hx => hx (hc3.mpr hl).symm
        rw [if_pos (c := Unfit e flags _ _ ∧ _) ⟨hu, hl⟩, if_neg heq, first_unfit h hu]
      · have hne : r.stop ≠ enChap e.data r.stop := fun hx => hl (hc3.mp hx.symm)
        rw [if_neg (c := Unfit e flags _ _ ∧ _) (fun hx => hl hx.2), if_pos hne, if_pos hne]
    · rw [if_neg (fun hx => hu hx.1), BibleRange.spansEndChap, first_under h hu, last_under (flags := flags) h]
      rfl
  · by_cases hu : Unfit e flags r.start.book 1
    · rw [if_pos hu, BibleRange.spansStartBook, first_unfit_none h hu]; rfl
    · rw [if_neg hu, BibleRange.spansStartBook, first_under_none h hu, last_under (flags := flags) h]
      exact ok_decide p3
  · have p4' : r.spansEndBook (e.under flags) none = .ok (decide (∀ v ∈ canon e.data (inForce e flags).verse0,
        v.book = r.stop.book → InRange e.data r v)) := ok_decide p4
    rw [← p4']
    by_cases hu : Unfit e flags r.stop.book 1
    · unfold BibleRange.spansEndBook
      rw [← last_under (flags := flags) h]
      rw [last_en_book h r.stop] at hb2 ⊢
      have hc3 := hb2 r.stop
      simp only [Except.ok.injEq] at hc3
      simp only [bind, Except.bind, pure, Except.pure]
      by_cases hl : (bookVerses e.data true r.stop.book).getLast? = some r.stop
      · have heq : ¬ r.stop ≠ enBook e.data r.stop := fun hx => hx (hc3.mpr hl).symm
        rw [if_pos (c := Unfit e flags _ _ ∧ _) ⟨hu, hl⟩, if_neg heq, first_unfit_none h hu]
      · have hne : r.stop ≠ enBook e.data r.stop := fun hx => hl (hc3.mp hx.symm)
        rw [if_neg (c := Unfit e flags _ _ ∧ _) (fun hx => hl hx.2), if_pos hne, if_pos hne]
    · rw [if_neg (fun hx => hu hx.1), BibleRange.spansEndBook, first_under_none h hu, last_under (flags := flags) h]
      rfl

/-- C17 for all flags: `is_whole_chap` and `is_whole_book` raise if the range is in one book and they need the first verse of a chapter
with a verse 0 which the call allows but the global flags do not. Otherwise they are right. -/
theorem C17_whole_exact (e : Env) (h : e.data.WF) (flags : Option BibleFlag) (r : BibleRange)
    (hr : RangeOK e.data (inForce e flags).verse0 r) :
    (r.start.book = r.stop.book ∧ Unfit e flags r.start.book r.start.chap → r.isWholeChap e flags = .error .invalidReference) ∧
    (¬ (r.start.book = r.stop.book ∧ Unfit e flags r.start.book r.start.chap) →
      ∃ b, r.isWholeChap e flags = .ok b ∧ (b = true ↔ ∃ k c, ∀ v ∈ canon e.data (inForce e flags).verse0,
        (InRange e.data r v ↔ v.book = k ∧ v.chap = c))) ∧
    (r.start.book = r.stop.book ∧ Unfit e flags r.start.book 1 → r.isWholeBook e flags = .error .invalidReference) ∧
    (¬ (r.start.book = r.stop.book ∧ Unfit e flags r.start.book 1) →
      ∃ b, r.isWholeBook e flags = .ok b ∧ (b = true ↔ ∃ k, ∀ v ∈ canon e.data (inForce e flags).verse0,
        (InRange e.data r v ↔ v.book = k))) := by
  have hp := C17_whole_partial (e.under flags) h none (fun hx => hx) r (by rw [under_inForce]; exact hr)
  rw [under_inForce] at hp
  obtain ⟨p1, p2⟩ := hp
  refine ⟨?_, ?_, ?_, ?_⟩
  · rintro ⟨hb, hu⟩
    rw [BibleRange.isWholeChap, if_neg (fun hx => hx hb), first_unfit h hu]; rfl
  · intro hn
    have : r.isWholeChap e flags = r.isWholeChap (e.under flags) none := by
      unfold BibleRange.isWholeChap
      by_cases hb : r.start.book = r.stop.book
      · rw [first_under h (fun hu => hn ⟨hb, hu⟩), last_under (flags := flags) h]
      · rw [if_pos hb, if_pos hb]
    rw [this]; exact p1
  · rintro ⟨hb, hu⟩
    rw [BibleRange.isWholeBook, if_neg (fun hx => hx hb), first_unfit_none h hu]; rfl
  · intro hn
    have : r.isWholeBook e flags = r.isWholeBook (e.under flags) none := by
      unfold BibleRange.isWholeBook
      by_cases hb : r.start.book = r.stop.book
      · rw [first_under_none h (fun hu => hn ⟨hb, hu⟩), last_under (flags := flags) h]
      · rw [if_pos hb, if_pos hb]
    rw [this]; exact p2

section
variable {e : Env} {flags : Option BibleFlag}

theorem under_multi (e : Env) (flags : Option BibleFlag) :
    (e.under flags).under (some ((e.eff flags).union .MULTIBOOK)) = e.under (some ((e.eff flags).union .MULTIBOOK)) := by
  have h1 := eff_multi (e.under flags) none
  rw [under_eff] at h1
  unfold Env.under at *
  rw [h1, eff_multi]

theorem unfit_multi {b : BibleBook} {c : Int} :
    Unfit e (some ((e.eff flags).union .MULTIBOOK)) b c ↔ Unfit e flags b c := by
  unfold Unfit
  rw [← eff_eq, ← eff_eq, eff_multi, multi_verse0]

theorem not_unfit_under {b : BibleBook} {c : Int} : ¬ Unfit (e.under flags) (some ((e.eff flags).union .MULTIBOOK)) b c := by
  have : ¬ Unfit (e.under flags) (some (((e.under flags).eff none).union .MULTIBOOK)) b c := by
    rw [unfit_multi]
    rintro ⟨h1, h2, _⟩
    rw [under_inForce, ← eff_eq] at h1
    rw [show (e.under flags).flags = e.eff flags from rfl, h1] at h2
    cases h2
  exact this

theorem first_multi (h : e.data.WF) {b : BibleBook} {c : Int} (hn : ¬ Unfit e flags b c) :
    b.firstVerse e (some c) (some ((e.eff flags).union .MULTIBOOK)) =
      b.firstVerse (e.under flags) (some c) (some ((e.eff flags).union .MULTIBOOK)) := by
  rw [first_under h (fun hx => hn (unfit_multi.mp hx)), first_under (e := e.under flags) h not_unfit_under, under_multi]

theorem first_multi_none (h : e.data.WF) {b : BibleBook} (hn : ¬ Unfit e flags b 1) :
    b.firstVerse e none (some ((e.eff flags).union .MULTIBOOK)) =
      b.firstVerse (e.under flags) none (some ((e.eff flags).union .MULTIBOOK)) := by
  rw [firstVerse_none h, firstVerse_none (e := e.under flags) h, first_multi h hn]

theorem new_multi (s t : Option BibleVerse) :
    BibleRange.new e s t (some ((e.eff flags).union .MULTIBOOK)) =
      BibleRange.new (e.under flags) s t (some ((e.eff flags).union .MULTIBOOK)) := by
  have h1 := eff_multi (e.under flags) none
  rw [under_eff] at h1
  unfold BibleRange.new
  rw [h1, eff_multi]
  rfl

end

/-- C18 for all flags: `chap_range` of a range raises if it starts in a chapter with a verse 0 which the call allows but the global
flags do not. Otherwise it is right. -/
theorem C18_chap_range_exact (e : Env) (h : e.data.WF) (flags : Option BibleFlag) (r : BibleRange) (hr : RangeOK e.data true r) :
    (Unfit e flags r.start.book r.start.chap → r.chapRange e flags = .error .invalidReference) ∧
    (¬ Unfit e flags r.start.book r.start.chap →
      ∃ r', r.chapRange e flags = .ok r' ∧ RangeOK e.data (inForce e flags).verse0 r' ∧ r'.chapRange e flags = .ok r' ∧
        ∀ v ∈ canon e.data (inForce e flags).verse0,
          (InRange e.data r' v ↔ ∃ u ∈ canon e.data true, InRange e.data r u ∧ u.book = v.book ∧ u.chap = v.chap)) := by
  have hr' := (rangeOK_iff h).mp hr
  have tr : ∀ q : BibleRange, ¬ Unfit e flags q.start.book q.start.chap →
      q.chapRange e flags = q.chapRange (e.under flags) none := by
    intro q hq
    simp only [BibleRange.chapRange, BibleVerse.firstVerse, BibleVerse.lastVerse, under_eff, Option.getD_none]
    rw [first_multi h hq, last_under (flags := flags) h]
    simp only [new_multi]
  constructor
  · intro hu
    simp only [BibleRange.chapRange, BibleVerse.firstVerse, Option.getD_none]
    rw [first_unfit h (unfit_multi.mpr hu)]; rfl
  · intro hn
    obtain ⟨r', h1, h2, h3, h4⟩ := C18_chap_range_partial (e.under flags) h none (fun hx => hx) r hr
    rw [under_inForce] at h2 h4
    have hs : r'.start.book = r.start.book ∧ r'.start.chap = r.start.chap := by
      have := chapRange_eq (e := e.under flags) h (flags := none) (fun hx => hx) hr'
      rw [h1] at this
      cases this
      exact ⟨rfl, rfl⟩
    exact ⟨r', by rw [tr r hn, h1], h2, by rw [tr r' (by rw [hs.1, hs.2]; exact hn), h3], h4⟩

/-- C18 for all flags: the same for `book_range`, where it is chapter 1 of the book in which the range starts. -/
theorem C18_book_range_exact (e : Env) (h : e.data.WF) (flags : Option BibleFlag) (r : BibleRange) (hr : RangeOK e.data true r) :
    (Unfit e flags r.start.book 1 → r.bookRange e flags = .error .invalidReference) ∧
    (¬ Unfit e flags r.start.book 1 →
      ∃ r', r.bookRange e flags = .ok r' ∧ RangeOK e.data (inForce e flags).verse0 r' ∧ r'.bookRange e flags = .ok r' ∧
        ∀ v ∈ canon e.data (inForce e flags).verse0,
          (InRange e.data r' v ↔ ∃ u ∈ canon e.data true, InRange e.data r u ∧ u.book = v.book)) := by
  have hr' := (rangeOK_iff h).mp hr
  have tr : ∀ q : BibleRange, ¬ Unfit e flags q.start.book 1 → q.bookRange e flags = q.bookRange (e.under flags) none := by
    intro q hq
    simp only [BibleRange.bookRange, under_eff]
    rw [first_multi_none h hq, last_under (flags := flags) h]
    simp only [new_multi]
  constructor
  · intro hu
    simp only [BibleRange.bookRange]
    rw [first_unfit_none h (unfit_multi.mpr hu)]; rfl
  · intro hn
    obtain ⟨r', h1, h2, h3, h4⟩ := C18_book_range_partial (e.under flags) h none (fun hx => hx) r hr
    rw [under_inForce] at h2 h4
    have hs : r'.start.book = r.start.book := by
      have := bookRange_eq (e := e.under flags) h (flags := none) (fun hx => hx) hr'
      rw [h1] at this
      cases this
      rfl
    exact ⟨r', by rw [tr r hn, h1], h2, by rw [tr r' (by rw [hs]; exact hn), h3], h4⟩

/-- C18 for all flags: `range` and `chap_range` of a book. -/
theorem C18_of_book_exact (e : Env) (h : e.data.WF) (flags : Option BibleFlag) (b : BibleBook)
    (hb : b ∈ e.data.bookOrder) (c : Int) (hc : c ∈ chapters e.data b) :
    (Unfit e flags b 1 → b.range e flags = .error .invalidReference) ∧
    (¬ Unfit e flags b 1 → ∃ r, b.range e flags = .ok r ∧ RangeOK e.data (inForce e flags).verse0 r ∧
      ∀ v ∈ canon e.data (inForce e flags).verse0, (InRange e.data r v ↔ v.book = b)) ∧
    (Unfit e flags b c → b.chapRange e c flags = .error .invalidReference) ∧
    (¬ Unfit e flags b c → ∃ r, b.chapRange e c flags = .ok r ∧ RangeOK e.data (inForce e flags).verse0 r ∧
      ∀ v ∈ canon e.data (inForce e flags).verse0, (InRange e.data r v ↔ v.book = b ∧ v.chap = c)) := by
  have hp := C18_of_book_partial (e.under flags) h none (fun hx => hx) b hb c hc
  rw [under_inForce] at hp
  refine ⟨fun hu => ?_, fun hn => ?_, fun hu => ?_, fun hn => ?_⟩
  · rw [BibleBook.range, first_unfit_none h hu]; rfl
  · have : b.range e flags = b.range (e.under flags) none := by
      simp only [BibleBook.range, BibleRange.new, under_eff]
      rw [first_under_none h hn, last_under (flags := flags) h]; rfl
    rw [this]; exact hp.1
  · rw [BibleBook.chapRange, first_unfit h hu]; rfl
  · have : b.chapRange e c flags = b.chapRange (e.under flags) c none := by
      simp only [BibleBook.chapRange, BibleRange.new, under_eff]
      rw [first_under h hn, last_under (flags := flags) h]; rfl
    rw [this]; exact hp.2

/-- C18 for all flags: `whole_bible` raises if chapter 1 of the first book has a verse 0 which the call allows but the global flags do
not. Otherwise it has every verse. -/
theorem C18_whole_bible_exact (e : Env) (h : e.data.WF) (hne : e.data.bookOrder ≠ []) (flags : Option BibleFlag) :
    ((∃ b, e.data.bookOrder.head? = some b ∧ Unfit e flags b 1) → BibleRange.wholeBible e flags = .error .invalidReference) ∧
    ((∀ b, e.data.bookOrder.head? = some b → ¬ Unfit e flags b 1) →
      ∃ r, BibleRange.wholeBible e flags = .ok r ∧ RangeOK e.data (inForce e flags).verse0 r ∧
        ∀ v ∈ canon e.data (inForce e flags).verse0, InRange e.data r v) := by
  have hl := List.getLast?_eq_some_getLast hne
  constructor
  · rintro ⟨b, hb, hu⟩
    unfold BibleRange.wholeBible
    simp only [hb, hl]
    rw [first_unfit_none h (unfit_multi.mpr hu)]; rfl
  · intro hn
    have hp := C18_whole_bible_partial (e.under flags) h hne none (fun hx => hx)
    rw [under_inForce] at hp
    have hh := List.head?_eq_some_head hne
    have : BibleRange.wholeBible e flags = BibleRange.wholeBible (e.under flags) none := by
      unfold BibleRange.wholeBible
      rw [show (e.under flags).data = e.data from rfl]
      simp only [hh, hl, under_eff]
      rw [first_multi_none h (hn _ hh), last_under (flags := flags) h]
      simp only [new_multi]
    rw [this]; exact hp

/-- C13 for all flags: arguments in order give what they denote, except that the constructor raises `InvalidReferenceError` if no
start verse is given and the chapter of the start has a verse 0 which the call allows but the global flags do not. -/
theorem C13_exact (e : Env) (h : e.data.WF) (flags : Option BibleFlag)
    (sb : BibleBook) (hS : sb ∈ e.data.bookOrder) (sc sv : Option Int) (eb : Option BibleBook)
    (hE : ∀ b, eb = some b → b ∈ e.data.bookOrder) (ec ev : Option Int) (hn : ¬ Reversed e.data sb sc sv eb ec ev) :
    BibleRange.ofArgs e (some sb) sc sv eb ec ev flags =
      if sv = none ∧ Unfit e flags sb (sc.getD 1) then .error .invalidReference
      else argRange e.data (inForce e flags) sb sc sv eb ec ev := by
  have hself : Unfit e (some (e.eff flags)) sb (sc.getD 1) ↔ Unfit e flags sb (sc.getD 1) := by
    unfold Unfit; rw [← eff_eq, ← eff_eq, e.eff_eff]
  have hgetD : ∀ g, sb.firstVerse e sc g = sb.firstVerse e (some (sc.getD 1)) g := by
    intro g; cases sc with
    | none => exact firstVerse_none h sb g
    | some c => rfl
  by_cases hu : sv = none ∧ Unfit e flags sb (sc.getD 1)
  · rw [if_pos hu]
    obtain ⟨rfl, hu⟩ := hu
    rw [ofArgs_stages (compareBooks_ok hS hE) (swapArgs_keep h hS hE hn), if_neg (fun hx => hx.2 rfl)]
    have : startE e (e.eff flags) sb sc none = .error .invalidReference := by
      have h1 : startE e (e.eff flags) sb sc none = sb.firstVerse e sc (some (e.eff flags)) := by cases sc <;> rfl
      rw [h1, hgetD, first_unfit h (hself.mpr hu)]
    rw [this]
  · rw [if_neg hu, ← eff_eq]
    refine (ofArgs_value' h hS hE hn).1 (fun hsv => ?_)
    have hnu : ¬ Unfit e (some (e.eff flags)) sb (sc.getD 1) := fun hx => hu ⟨hsv, hself.mp hx⟩
    have := firstVerse_orInvalid (e := e.under flags) h (flags := none) (fun hx => hx) hS sc
    rw [under_eff] at this
    rw [show (e.under flags).data = e.data from rfl] at this
    rw [← this, hgetD, first_under h hnu]
    have h2 : e.under (some (e.eff flags)) = e.under flags := by unfold Env.under; rw [e.eff_eff]
    rw [h2]
    have h3 : ∀ c, sb.firstVerse (e.under flags) c none = sb.firstVerse (e.under flags) c (some (e.eff flags)) := by
      intro c
      have h4 : (e.under flags).eff (some (e.eff flags)) = (e.under flags).eff none := by
        have := (e.under flags).eff_eff (f := none)
        rwa [under_eff] at this
      have h5 : ∀ c, sb.firstVerse (e.under flags) (some c) none = sb.firstVerse (e.under flags) (some c) (some (e.eff flags)) := by
        intro c
        rw [firstVerse_eq (e := e.under flags) h, firstVerse_eq (e := e.under flags) h, h4]
      cases c with
      | none => rw [firstVerse_none (e := e.under flags) h, firstVerse_none (e := e.under flags) h, h5]
      | some c => exact h5 c
    rw [h3]
    cases sc with
    | none => exact (firstVerse_none (e := e.under flags) h sb _).symm
    | some c => rfl

/-- C61 for all flags: the same with books given by name, and `None` for numbers not given. -/
theorem C61_range_value_exact (u : Uni) (e : Env) (h : e.data.Full) (ofStr : List Char → Option Int) (flags : Option BibleFlag)
    (x y : PyVal) (sb : BibleBook) (eb : Option BibleBook) (sc sv ec ev : Option Int) (start stop : PyVal) (st : PState)
    (hx : BookArg (BibleBook.fromStr u e.data) x (some sb)) (hy : BookArg (BibleBook.fromStr u e.data) y eb)
    (hn : ¬ Reversed e.data sb sc sv eb ec ev) :
    (BibleRange.ofValues u e ofStr [x, number sc, number sv, y, number ec, number ev] start stop flags st).1 =
      if sv = none ∧ Unfit e flags sb (sc.getD 1) then .error .invalidReference
      else (argRange e.data (inForce e flags) sb sc sv eb ec ev).map fun r => (.verse r.start, .verse r.stop) := by
  have := C13_exact e h flags sb (h.listed sb) sc sv eb (fun b _ => h.listed b) ec ev hn
  rw [← ofPositional_number u e h ofStr hx hy] at this
  rw [ofValues_many u e ofStr _ start stop flags (by simp)]
  show (BibleRange.ofPositional u e ofStr x (number sc) (number sv) y (number ec) (number ev) flags).map _ = _
  rw [this]
  split <;> rfl

/-- With `VERSE_0` only for the call, chapter 3 of Psalms is unfit and chapter 1 is not. -/
theorem exUnfit : Unfit dflt (some .VERSE_0) .Psa 3 ∧ ¬ Unfit dflt (some .VERSE_0) .Psa 1 := by decide +kernel

example : BibleRange.chapRange dflt ⟨⟨.Psa, 2, 4⟩, ⟨.Psa, 3, 2⟩⟩ (some .VERSE_0) = .ok ⟨⟨.Psa, 2, 1⟩, ⟨.Psa, 3, 8⟩⟩ ∧
    BibleBook.range dflt .Psa (some .VERSE_0) = .ok ⟨⟨.Psa, 1, 1⟩, ⟨.Psa, 150, 6⟩⟩ ∧
    BibleRange.ofArgs dflt (some .Psa) (some 3) none none none none (some .VERSE_0) = .error .invalidReference ∧
    BibleRange.ofArgs dflt (some .Psa) (some 2) none none (some 3) none (some .VERSE_0) = .ok ⟨⟨.Psa, 2, 1⟩, ⟨.Psa, 3, 8⟩⟩ ∧
    BibleRange.spansEndChap dflt ⟨⟨.Psa, 2, 4⟩, ⟨.Psa, 3, 2⟩⟩ (some .VERSE_0) = .ok false ∧
    BibleRange.spansEndChap dflt ⟨⟨.Psa, 2, 4⟩, ⟨.Psa, 3, 8⟩⟩ (some .VERSE_0) = .error .invalidReference := by decide +kernel

/-! ## C11, C15 and C18 of a verse -/

/-- C11 for all flags: `is_first_in_chap` raises if the chapter asked about has a verse 0 which the call allows but the global flags do
not, and `is_first_in_book` if chapter 1 of the book asked about has. Otherwise they are right. -/
theorem C11_is_first_exact (e : Env) (h : e.data.WF) (v : BibleVerse) (chap : Option Int) (book : Option BibleBook)
    (hc : chap.getD v.chap ∈ chapters e.data v.book) (flags : Option BibleFlag) :
    v.isFirstInChap e chap flags = (if Unfit e flags v.book (chap.getD v.chap) then .error .invalidReference
      else .ok (decide ((chapVerses e.data (inForce e flags).verse0 v.book (chap.getD v.chap)).head? = some v))) ∧
    v.isFirstInBook e book flags = (if Unfit e flags (book.getD v.book) 1 then .error .invalidReference
      else .ok (decide ((bookVerses e.data (inForce e flags).verse0 (book.getD v.book)).head? = some v))) := by
  obtain ⟨p1, p2⟩ := C11_is_first_partial (e.under flags) h v chap book hc none (fun hx => hx)
  rw [under_inForce] at p1 p2
  constructor
  · by_cases hu : Unfit e flags v.book (chap.getD v.chap)
    · rw [if_pos hu]
      simp only [BibleVerse.isFirstInChap, BibleVerse.firstVerse, first_unfit h hu, bind, Except.bind]
    · rw [if_neg hu, ← show v.isFirstInChap (e.under flags) chap none = .ok (decide ((chapVerses e.data _ _ _).head? = some v)) from p1]
      simp only [BibleVerse.isFirstInChap, BibleVerse.firstVerse, first_under h hu]
  · by_cases hu : Unfit e flags (book.getD v.book) 1
    · rw [if_pos hu]
      simp only [BibleVerse.isFirstInBook, first_unfit_none h hu, bind, Except.bind]
    · rw [if_neg hu, ← show v.isFirstInBook (e.under flags) book none = .ok (decide ((bookVerses e.data _ _).head? = some v)) from p2]
      simp only [BibleVerse.isFirstInBook, first_under_none h hu]

theorem nodup_subset_length {α : Type} [BEq α] [LawfulBEq α] {l m : List α} (hl : l.Nodup) (hs : ∀ x ∈ l, x ∈ m) :
    l.length ≤ m.length := by
  induction l generalizing m with
  | nil => exact Nat.zero_le _
  | cons a l ih =>
    rw [List.nodup_cons] at hl
    have ha := hs a (List.mem_cons_self ..)
    have := ih (m := m.erase a) hl.2 (fun x hx => (List.mem_erase_of_ne (fun hxa => hl.1 (by rw [← hxa]; exact hx))).mpr
      (hs x (List.mem_cons_of_mem _ hx)))
    rw [List.length_erase_of_mem ha] at this
    have := List.length_pos_of_mem ha
    rw [List.length_cons]; omega

/-- C15, exactly when the count agrees with iteration: when the range has no verse 0 that is counted but is not its first verse. Verse 0s
are counted when allowed globally or when an endpoint is one. -/
theorem C15_agrees_iff (e : Env) (h : e.data.WF) (r : BibleRange) (hr : RangeOK e.data true r) :
    (∃ l, r.iter e = .ok l ∧ r.verseCount e = .ok l.length) ↔
      (e.flags.verse0 = true ∨ r.start.verse = 0 ∨ r.stop.verse = 0 →
        ∀ v ∈ versesOf e.data true r, v.verse = 0 → v = r.start) := by
  have hr' := (rangeOK_iff h).mp hr
  have hi := C14_iteration e h r hr
  have hv := C15_verse_count e h r hr _ rfl
  generalize hv0 : (e.flags.verse0 || r.start.verse == 0 || r.stop.verse == 0) = v0 at hv
  have hcond : (e.flags.verse0 = true ∨ r.start.verse = 0 ∨ r.stop.verse = 0) ↔ v0 = true := by
    rw [← hv0]; simp [or_assoc]
  rw [hcond, hi, hv]
  have hmem : ∀ {w : Bool} {v : BibleVerse}, v ∈ versesOf e.data w r ↔ v ∈ canon e.data w ∧ InRange e.data r v := by
    intro w v; rw [versesOf, List.mem_filter, decide_eq_true_iff]
  have hnz : ∀ {v : BibleVerse}, v ∈ versesOf e.data false r → v.verse ≠ 0 := by
    intro v hx
    have := ((mem_canon h).mp (hmem.mp hx).1).2.2.1
    rw [firstNum_false] at this; omega
  generalize hL : (if r.start.verse = 0 then [r.start] else []) ++ versesOf e.data false r = L
  have hLmem : ∀ {v : BibleVerse}, v ∈ L ↔ (r.start.verse = 0 ∧ v = r.start) ∨ v ∈ versesOf e.data false r := by
    intro v; rw [← hL, List.mem_append]
    split <;> simp [*]
  have hLN : L.Nodup := by
    rw [← hL, List.nodup_append]
    refine ⟨by split <;> simp, (h.nodup_canon false).filter _, ?_⟩
    intro a ha b hb hab
    split at ha
    · rename_i h0
      rw [List.mem_singleton] at ha
      exact hnz hb (by rw [← hab, ha]; exact h0)
    · cases ha
  have hMN : (versesOf e.data v0 r).Nodup := (h.nodup_canon v0).filter _
  have hsub : ∀ v ∈ L, v ∈ versesOf e.data v0 r := by
    intro v hx
    rcases hLmem.mp hx with ⟨h0, rfl⟩ | hx
    · have : v0 = true := hcond.mp (Or.inr (Or.inl h0))
      rw [this, hmem]
      exact ⟨hr.1, Nat.le_refl _, hr.3⟩
    · have := hmem.mp hx
      rw [hmem]
      exact ⟨(mem_canon h).mpr (((mem_canon h).mp this.1).mono.of_ne_zero (hnz hx)), this.2⟩
  have hle := nodup_subset_length hLN hsub
  constructor
  · rintro ⟨l, hl, hc⟩ ht v hv' h0
    cases hl
    have hc' : (versesOf e.data v0 r).length = L.length := by
      have := Except.ok.inj hc; omega
    by_cases hin : v ∈ L
    · rcases hLmem.mp hin with ⟨_, hx⟩ | hx
      · exact hx
      · exact absurd h0 (hnz hx)
    · have := nodup_subset_length (l := v :: L) (List.nodup_cons.mpr ⟨hin, hLN⟩) (m := versesOf e.data v0 r) (by
        intro x hx
        rcases List.mem_cons.mp hx with rfl | hx
        · rw [ht]; exact hv'
        · exact hsub x hx)
      rw [List.length_cons] at this; omega
  · intro hz
    refine ⟨L, rfl, ?_⟩
    have : (versesOf e.data v0 r).length ≤ L.length := by
      refine nodup_subset_length hMN (fun v hx => ?_)
      rw [hLmem]
      by_cases h0 : v.verse = 0
      · have ht : v0 = true := by
          cases v0
          · exact absurd h0 (hnz hx)
          · rfl
        rw [ht] at hx
        have := hz ht v hx h0
        exact Or.inl ⟨this ▸ h0, this⟩
      · have := hmem.mp hx
        exact Or.inr (hmem.mpr ⟨(mem_canon h).mpr (((mem_canon h).mp this.1).mono.of_ne_zero h0), this.2⟩)
    rw [Nat.le_antisymm this hle]

/-- C18 for all flags: `book_range` and `chap_range` of a verse. -/
theorem C18_of_verse_exact (e : Env) (h : e.data.WF) (flags : Option BibleFlag) (w : BibleVerse) (hw : w ∈ canon e.data true) :
    (Unfit e flags w.book 1 → w.bookRange e flags = .error .invalidReference) ∧
    (¬ Unfit e flags w.book 1 → ∃ r, w.bookRange e flags = .ok r ∧ RangeOK e.data (inForce e flags).verse0 r ∧
      ∀ v ∈ canon e.data (inForce e flags).verse0, (InRange e.data r v ↔ v.book = w.book)) ∧
    (Unfit e flags w.book w.chap → w.chapRange e flags = .error .invalidReference) ∧
    (¬ Unfit e flags w.book w.chap → ∃ r, w.chapRange e flags = .ok r ∧ RangeOK e.data (inForce e flags).verse0 r ∧
      ∀ v ∈ canon e.data (inForce e flags).verse0, (InRange e.data r v ↔ v.book = w.book ∧ v.chap = w.chap)) := by
  have hw' := (mem_canon h).mp hw
  obtain ⟨p1, p2, p3, p4⟩ := C18_of_book_exact e h flags w.book hw'.listed w.chap (mem_chapters.mpr ⟨hw'.1, hw'.2.1⟩)
  exact ⟨p1, p2, p3, p4⟩

example : (⟨.Psa, 3, 0⟩ : BibleVerse).isFirstInChap dflt none (some .VERSE_0) = .error .invalidReference ∧
    (⟨.Psa, 3, 1⟩ : BibleVerse).isFirstInChap dflt (some 2) (some .VERSE_0) = .ok false ∧
    (⟨.Psa, 1, 1⟩ : BibleVerse).isFirstInBook dflt none (some .VERSE_0) = .ok true ∧
    (⟨.Psa, 3, 1⟩ : BibleVerse).chapRange dflt (some .VERSE_0) = .error .invalidReference ∧
    (⟨.Psa, 3, 1⟩ : BibleVerse).chapRange dflt none = .ok ⟨⟨.Psa, 3, 1⟩, ⟨.Psa, 3, 8⟩⟩ := by decide +kernel

/-- With `VERSE_0` set globally, counting Ps 3:0-8 agrees with iterating over it, but not for Ps 3:0-4:0. -/
example : RangeOK dfltAll.data true ⟨⟨.Psa, 3, 0⟩, ⟨.Psa, 3, 8⟩⟩ ∧ RangeOK dfltAll.data true exPsa ∧
    BibleRange.verseCount dfltAll ⟨⟨.Psa, 3, 0⟩, ⟨.Psa, 3, 8⟩⟩ = .ok 9 ∧ exPsa.verseCount dfltAll = .ok 10 :=
  ⟨(rangeOK_iff (show dfltAll.data.WF from defaultData_wf)).mpr ⟨by decide +kernel, by decide +kernel, by decide +kernel⟩, exPsa_ok,
    by decide +kernel, by decide +kernel⟩

end Bibleref

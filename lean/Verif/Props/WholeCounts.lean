import Verif.Lemmas.CountExact
import Verif.Props.Ranges
import Verif.Props.RangeLists2

/-! C16 and C33 for all ranges of existing verses: what `whole=True` counts when an end of a range is a verse 0 that the
global flags do not allow. -/

namespace Bibleref
open Spec

/-- An end of the range is a verse 0 that the global flags do not allow. -/
def Spec.OddEnd (e : Env) (r : BibleRange) : Prop := e.flags.verse0 = false ∧ (r.start.verse = 0 ∨ r.stop.verse = 0)

/-- The chapters that `whole=True` counts: the verses that the global flags allow all lie in the range. But if an end of the
range is a verse 0 that they do not allow, the chapter where the range starts does not count if it starts with that verse 0,
and the chapter where it ends does not count if that chapter has a verse 0. -/
def Spec.CountedChap (e : Env) (r : BibleRange) (k : BibleBook × Int) : Prop :=
  (∃ v ∈ canon e.data e.flags.verse0, (v.book, v.chap) = k) ∧
  (∀ v ∈ canon e.data e.flags.verse0, (v.book, v.chap) = k → InRange e.data r v) ∧
  (OddEnd e r → ((r.start.book, r.start.chap) = k → r.start.verse ≠ 0) ∧
    ((r.stop.book, r.stop.chap) = k → (⟨k.1, k.2, 0⟩ : BibleVerse) ∉ canon e.data true))

/-- The same for books; the verse 0 is that of chapter 1. -/
def Spec.CountedBook (e : Env) (r : BibleRange) (k : BibleBook) : Prop :=
  (∃ v ∈ canon e.data e.flags.verse0, v.book = k) ∧
  (∀ v ∈ canon e.data e.flags.verse0, v.book = k → InRange e.data r v) ∧
  (OddEnd e r → (r.start.book = k → r.start.verse ≠ 0) ∧
    (r.stop.book = k → (⟨k, 1, 0⟩ : BibleVerse) ∉ canon e.data true))

/-- C16: what `chap_count` and `book_count` return with `whole=True` for every range of existing verses. -/
theorem C16_whole_exact (e : Env) (h : e.data.WF) (r : BibleRange) (hr : RangeOK e.data true r) :
    (∃ n : Nat, r.chapCount e true = .ok n ∧ HasCard (CountedChap e r) n) ∧
    (∃ n : Nat, r.bookCount e true = .ok n ∧ HasCard (CountedBook e r) n) := by
  have hr' := (rangeOK_iff h).mp hr
  by_cases ho : OddEnd e r
  · obtain ⟨n, h1, l, h2, h3, h4⟩ := chapCount_verse0 h ho.1 hr' ho.2
    obtain ⟨m, g1, k, g2, g3, g4⟩ := bookCount_verse0 h ho.1 hr' ho.2
    refine ⟨⟨n, h1, l, h2, fun c => ?_, h4⟩, ⟨m, g1, k, g2, fun c => ?_, g4⟩⟩
    · rw [h3 c, CountedChap, ho.1]
      exact ⟨fun ⟨a, b, c⟩ => ⟨a, b, fun _ => c⟩, fun ⟨a, b, c⟩ => ⟨a, b, c ho⟩⟩
    · rw [g3 c, CountedBook, ho.1]
      exact ⟨fun ⟨a, b, c⟩ => ⟨a, b, fun _ => c⟩, fun ⟨a, b, c⟩ => ⟨a, b, c ho⟩⟩
  · have hok : RangeOK e.data e.flags.verse0 r := by
      cases hg : e.flags.verse0 with
      | true => exact hr
      | false =>
        have hs : r.start.verse ≠ 0 := fun hh => ho ⟨hg, .inl hh⟩
        have ht : r.stop.verse ≠ 0 := fun hh => ho ⟨hg, .inr hh⟩
        exact (rangeOK_iff h).mpr ⟨hr'.s.of_ne_zero hs, hr'.t.of_ne_zero ht, hr'.le⟩
    obtain ⟨⟨n, h1, l, h2, h3, h4⟩, ⟨m, g1, k, g2, g3, g4⟩⟩ := C16_whole_partial e h r hok
    refine ⟨⟨n, h1, l, h2, fun c => ?_, h4⟩, ⟨m, g1, k, g2, fun c => ?_, g4⟩⟩
    · rw [h3 c, CountedChap]
      exact ⟨fun ⟨a, b⟩ => ⟨a, b, fun hh => absurd hh ho⟩, fun ⟨a, b, _⟩ => ⟨a, b⟩⟩
    · rw [g3 c, CountedBook]
      exact ⟨fun ⟨a, b⟩ => ⟨a, b, fun hh => absurd hh ho⟩, fun ⟨a, b, _⟩ => ⟨a, b⟩⟩

/-- C33: with `whole=True` the counts of a list are the sums of those of its ranges, whatever existing verses they span. -/
theorem C33_whole_exact (e : Env) (h : e.data.WF) (l : RangeList) (hl : ∀ r ∈ l.flatten, RangeOK e.data true r) :
    ∃ c b : BibleRange → Nat,
      RangeList.chapCount e l true = .ok ((l.flatten.map fun r => (c r : Int)).sum) ∧
      RangeList.bookCount e l true = .ok ((l.flatten.map fun r => (b r : Int)).sum) ∧
      ∀ r ∈ l.flatten, HasCard (CountedChap e r) (c r) ∧ HasCard (CountedBook e r) (b r) := by
  have hch : ∀ r : BibleRange, ∃ cb : Nat × Nat, r ∈ l.flatten → r.chapCount e true = .ok (cb.1 : Int) ∧
      r.bookCount e true = .ok (cb.2 : Int) ∧ HasCard (CountedChap e r) cb.1 ∧ HasCard (CountedBook e r) cb.2 := by
    intro r
    by_cases hr : r ∈ l.flatten
    · obtain ⟨⟨n, h1, h2⟩, ⟨m, h3, h4⟩⟩ := C16_whole_exact e h r (hl r hr)
      exact ⟨(n, m), fun _ => ⟨h1, h3, h2, h4⟩⟩
    · exact ⟨(0, 0), fun hh => absurd hh hr⟩
  obtain ⟨f, hf⟩ := Classical.axiomOfChoice hch
  refine ⟨fun r => (f r).1, fun r => (f r).2, ?_, ?_, fun r hr => (hf r hr).2.2⟩
  · unfold RangeList.chapCount
    rw [mapM_ok (fun r hr => (hf r hr).1)]; rfl
  · unfold RangeList.bookCount
    rw [mapM_ok (fun r hr => (hf r hr).2.1)]; rfl

/-- Psalms 3:0-5:12 has three whole chapters of which the code counts only the middle one. -/
example : OddEnd dflt ⟨⟨.Psa, 3, 0⟩, ⟨.Psa, 5, 12⟩⟩ ∧ BibleRange.chapCount dflt ⟨⟨.Psa, 3, 0⟩, ⟨.Psa, 5, 12⟩⟩ true = .ok 1 ∧
    BibleRange.chapCount dfltAll ⟨⟨.Psa, 3, 0⟩, ⟨.Psa, 5, 12⟩⟩ true = .ok 3 := by
  refine ⟨⟨by decide, .inl rfl⟩, ?_, ?_⟩ <;> decide +kernel

example : RangeOK dflt.data true ⟨⟨.Psa, 3, 0⟩, ⟨.Psa, 5, 12⟩⟩ := by
  have h1 : Valid dflt.data true ⟨.Psa, 3, 0⟩ := by unfold Valid; decide +kernel
  have h2 : Valid dflt.data true ⟨.Psa, 5, 12⟩ := by unfold Valid; decide +kernel
  exact (rangeOK_iff defaultData_wf).mpr ⟨h1, h2, (BibleData.WF.le_pos defaultData_wf h1 h2).mp (by decide +kernel)⟩

end Bibleref

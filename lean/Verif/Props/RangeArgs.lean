import Verif.Lemmas.Args
import Verif.Props.Ranges

/-!
# Ranges from book, chapter and verse numbers (C13)

`Spec.argRange` says which range a given start and end denote.
-/

namespace Bibleref
open Spec

/-- C13: arguments in order give the range from the first verse with the start numbers to the last verse with the end
numbers, or an error if there is no such verse or range. Missing: the case that the call allows verse 0s which are not
allowed globally, see `C13_counterexample`. -/
theorem C13_value_partial (e : Env) (h : e.data.WF) (flags : Option BibleFlag)
    (hg : (inForce e flags).verse0 = true → e.flags.verse0 = true)
    (sb : BibleBook) (hS : sb ∈ e.data.bookOrder) (sc sv : Option Int) (eb : Option BibleBook)
    (hE : ∀ b, eb = some b → b ∈ e.data.bookOrder) (ec ev : Option Int) (hn : ¬ Reversed e.data sb sc sv eb ec ev) :
    BibleRange.ofArgs e (some sb) sc sv eb ec ev flags = argRange e.data (inForce e flags) sb sc sv eb ec ev := by
  rw [← eff_eq] at *
  exact (ofArgs_value h hS hE hn).1 hg

/-- C13: arguments in reverse order give the same as the exchanged ones, which are in order. -/
theorem C13_reversed (e : Env) (h : e.data.WF) (flags : Option BibleFlag) (sb : BibleBook) (hS : sb ∈ e.data.bookOrder)
    (sc sv ec ev : Option Int) :
    (∀ eb ∈ e.data.bookOrder, e.data.bookOrder.idxOf eb < e.data.bookOrder.idxOf sb → ¬ Reversed e.data eb ec ev (some sb) sc sv ∧
      BibleRange.ofArgs e (some sb) sc sv (some eb) ec ev flags = BibleRange.ofArgs e (some eb) ec ev (some sb) sc sv flags) ∧
    (∀ eb, (eb = none ∨ eb = some sb) → ∀ c c', c' < c → ¬ Reversed e.data sb (some c') ev eb (some c) sv ∧
      BibleRange.ofArgs e (some sb) (some c) sv eb (some c') ev flags =
        BibleRange.ofArgs e (some sb) (some c') ev eb (some c) sv flags) ∧
    (∀ eb, (eb = none ∨ eb = some sb) → ∀ c n n', n' < n → (ec = none ∨ ec = some c) →
      ¬ Reversed e.data sb (some c) (some n') eb ec (some n) ∧
      BibleRange.ofArgs e (some sb) (some c) (some n) eb ec (some n') flags =
        BibleRange.ofArgs e (some sb) (some c) (some n') eb ec (some n) flags) := by
  refine ⟨?_, ?_, ?_⟩
  · intro eb hE hlt
    have hnr := not_reversed_book sc sv ec ev hlt
    refine ⟨hnr, ?_⟩
    unfold BibleRange.ofArgs
    simp only [BibleRange.earlierBook_bind]
    rw [compareBooks_ok hS (fun b hb => by cases hb; exact hE), compareBooks_ok hE (fun b hb => by cases hb; exact hS)]
    rw [swapArgs_book h hS hE sc sv ec ev hlt, swapArgs_keep h hE (fun b hb => by cases hb; exact hS) hnr]
  · intro eb heb c c' hlt
    have hnr : ¬ Reversed e.data sb (some c') ev eb (some c) sv := by
      rintro (⟨b, hb, hh⟩ | ⟨_, x, hx, ⟨y, hy, hh⟩ | ⟨hy | hy, _⟩⟩)
      · rcases heb with rfl | rfl <;> cases hb; omega
      · cases hx; cases hy; omega
      · cases hy
      · cases hx; cases hy; omega
    refine ⟨hnr, ?_⟩
    have h1 : BibleRange.swapArgs (BibleRange.earlierT e.data sb eb) sb (some c) sv eb (some c') ev = (sb, some c', ev, eb, some c, sv) := by
      rw [swapArgs_same h heb]; simp only; rw [if_pos hlt]
    unfold BibleRange.ofArgs
    simp only [BibleRange.earlierBook_bind]
    rw [h1, swapArgs_keep h hS (fun b hb => by rcases heb with rfl | rfl <;> cases hb; exact hS) hnr]
  · intro eb heb c n n' hlt hec
    have hnr : ¬ Reversed e.data sb (some c) (some n') eb ec (some n) := by
      rintro (⟨b, hb, hh⟩ | ⟨_, x, hx, ⟨y, hy, hh⟩ | ⟨_, m, m', hm, hm', hh⟩⟩)
      · rcases heb with rfl | rfl <;> cases hb; omega
      · cases hx; rcases hec with rfl | rfl
        · cases hy
        · cases hy; omega
      · cases hm; cases hm'; omega
    refine ⟨hnr, ?_⟩
    have h1 : BibleRange.swapArgs (BibleRange.earlierT e.data sb eb) sb (some c) (some n) eb ec (some n') = (sb, some c, some n', eb, ec, some n) := by
      rw [swapArgs_same h heb]
      rcases hec with rfl | rfl
      · simp only; rw [if_pos hlt]
      · simp only; rw [if_neg (by omega), if_pos trivial, if_pos hlt]
    unfold BibleRange.ofArgs
    simp only [BibleRange.earlierBook_bind]
    rw [h1, swapArgs_keep h hS (fun b hb => by rcases heb with rfl | rfl <;> cases hb; exact hS) hnr]

/-- Every call is, up to exchanging arguments, one with arguments in order. -/
theorem ofArgs_normal {e : Env} (h : e.data.WF) (flags : Option BibleFlag) (sb : BibleBook) (hS : sb ∈ e.data.bookOrder)
    (sc sv : Option Int) (eb : Option BibleBook) (hE : ∀ b, eb = some b → b ∈ e.data.bookOrder) (ec ev : Option Int) :
    ∃ sb' sc' sv' eb' ec' ev', sb' ∈ e.data.bookOrder ∧ (∀ b, eb' = some b → b ∈ e.data.bookOrder) ∧ ¬ Reversed e.data sb' sc' sv' eb' ec' ev' ∧
      BibleRange.ofArgs e (some sb) sc sv eb ec ev flags = BibleRange.ofArgs e (some sb') sc' sv' eb' ec' ev' flags := by
  by_cases hn : Reversed e.data sb sc sv eb ec ev
  · rcases hn with ⟨b, rfl, hh⟩ | ⟨heb, c, rfl, ⟨c', rfl, hh⟩ | ⟨hec, n, n', rfl, rfl, hh⟩⟩
    · obtain ⟨h1, h2⟩ := (C13_reversed e h flags sb hS sc sv ec ev).1 b (hE b rfl) hh
      exact ⟨_, _, _, _, _, _, hE b rfl, fun b hb => by cases hb; exact hS, h1, h2⟩
    · obtain ⟨h1, h2⟩ := (C13_reversed e h flags sb hS none sv none ev).2.1 eb heb c c' hh
      exact ⟨_, _, _, _, _, _, hS, hE, h1, h2⟩
    · obtain ⟨h1, h2⟩ := (C13_reversed e h flags sb hS none none ec none).2.2 eb heb c n n' hh hec
      exact ⟨_, _, _, _, _, _, hS, hE, h1, h2⟩
  · exact ⟨_, _, _, _, _, _, hS, hE, hn, rfl⟩

/-- C13: whatever the arguments and flags, the constructor raises `InvalidReferenceError` or `MultibookRangeNotAllowedError`,
or makes a range that exists, is in reading order, and crosses books only with `MULTIBOOK`. -/
theorem C13_sound (e : Env) (h : e.data.WF) (flags : Option BibleFlag) (sb eb : Option BibleBook)
    (hS : ∀ b, sb = some b → b ∈ e.data.bookOrder) (hE : ∀ b, eb = some b → b ∈ e.data.bookOrder) (sc sv ec ev : Option Int) :
    BibleRange.ofArgs e sb sc sv eb ec ev flags = .error .invalidReference ∨
    BibleRange.ofArgs e sb sc sv eb ec ev flags = .error .multibookRange ∨
    ∃ r, BibleRange.ofArgs e sb sc sv eb ec ev flags = .ok r ∧ Allowed e.data (inForce e flags) r := by
  rw [← eff_eq]
  cases sb with
  | none => exact .inl rfl
  | some sb =>
    obtain ⟨sb', sc', sv', eb', ec', ev', hS', hE', hn, heq⟩ := ofArgs_normal h flags sb (hS _ rfl) sc sv eb hE ec ev
    rw [heq]
    rcases (ofArgs_value h (flags := flags) hS' hE' hn).2 with hv | hv
    · rw [hv]
      unfold argRange
      cases hs : argStart e.data (e.eff flags).verse0 sb' sc' sv' with
      | none => exact .inl rfl
      | some s =>
        cases ht : argStop e.data (e.eff flags).verse0 sb' sc' sv' eb' ec' ev' with
        | none => exact .inl rfl
        | some t =>
          simp only [rangeFrom]
          by_cases hb : (e.eff flags).multibook = true ∨ s.book = t.book
          · rw [if_pos hb]
            refine .inr (.inr ⟨_, rfl, ?_⟩)
            rw [allowed_iff h]
            exact ⟨⟨(argStart_some h hS' hs).1, argStop_valid h ht, argStart_le h hS' hE' hn hs ht⟩, hb⟩
          · rw [if_neg hb]; exact .inr (.inl rfl)
    · exact .inl hv

/-- C13 fails when the call allows a verse 0 that is not allowed globally: Psalm 3 is not found, though Psalm 3:0-8 is. -/
theorem C13_counterexample :
    BibleRange.ofArgs dflt (some .Psa) (some 3) none none none none (some .VERSE_0) = .error .invalidReference ∧
    BibleRange.ofArgs dflt (some .Psa) (some 3) (some 0) none (some 3) (some 8) (some .VERSE_0) =
      .ok ⟨⟨.Psa, 3, 0⟩, ⟨.Psa, 3, 8⟩⟩ := by decide +kernel

example : ¬ Reversed dflt.data .Matt (some 5) none none none (some 8) := by
  rintro (⟨_, h1, _⟩ | ⟨_, _, _, ⟨_, h1, _⟩ | ⟨_, _, _, h1, _⟩⟩) <;> cases h1
example : (inForce dflt none).verse0 = true → dflt.flags.verse0 = true := id
example : BibleRange.ofArgs dflt (some .Matt) (some 5) none none none (some 8) none = .ok ⟨⟨.Matt, 5, 1⟩, ⟨.Matt, 5, 8⟩⟩ ∧
    BibleRange.ofArgs dflt (some .Mark) none none (some .Matt) (some 3) none (some .MULTIBOOK) =
      .ok ⟨⟨.Matt, 3, 1⟩, ⟨.Mark, 16, 20⟩⟩ ∧
    BibleRange.ofArgs dflt (some .Mark) none none (some .Matt) (some 3) none none = .error .multibookRange ∧
    BibleRange.ofArgs dflt (some .Matt) (some 7) (some 2) none (some 5) (some 10) none = .ok exMatt ∧
    BibleRange.ofArgs dflt (some .Matt) none (some 2) none none none none = .error .invalidReference := by decide +kernel
example : argStop dflt.data false .Matt (some 5) none none none (some 8) = some ⟨.Matt, 5, 8⟩ := by
  have := lastOf_verse defaultData_wf (v0 := false) .Matt 5 8
  rwa [if_pos (by decide +kernel)] at this

end Bibleref

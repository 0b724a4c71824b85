import Verif.Lemmas.SetOps

/-! Chapters and books as blocks of consecutive verses, and the methods of ranges that refer to them. -/

namespace Bibleref
open Spec

/-- First verse of the verse's chapter. -/
def stChap (d : BibleData) (v0 : Bool) (v : BibleVerse) : BibleVerse := ⟨v.book, v.chap, firstNum d v0 v.book v.chap⟩
/-- First verse of the verse's book. -/
def stBook (d : BibleData) (v0 : Bool) (v : BibleVerse) : BibleVerse := ⟨v.book, 1, firstNum d v0 v.book 1⟩

/-- The verses with equal `key` are the ones from `st` to `en`. -/
structure Blocks {κ : Type} (d : BibleData) (v0 : Bool) (key : BibleVerse → κ) (st en : BibleVerse → BibleVerse) : Prop where
  conv : ∀ {v w u}, Valid d true v → Valid d true w → Valid d true u → pos d v ≤ pos d w → pos d w ≤ pos d u →
    key v = key u → key w = key v
  st_valid : ∀ {w}, Valid d true w → Valid d v0 (st w)
  st_key : ∀ w, key (st w) = key w
  st_min : ∀ {v w}, Valid d v0 v → Valid d true w → key v = key w → pos d (st w) ≤ pos d v
  en_valid : ∀ {w}, Valid d true w → Valid d v0 (en w)
  en_key : ∀ w, key (en w) = key w
  en_max : ∀ {v w}, Valid d true v → Valid d true w → key v = key w → pos d v ≤ pos d (en w)

theorem blocks_chap {d : BibleData} (h : d.WF) (v0 : Bool) :
    Blocks d v0 (fun v => (v.book, v.chap)) (stChap d v0) (enChap d) where
  conv {v w u} hv hw hu h1 h2 hk := by
    rw [pos_le_ix h hv hw] at h1
    rw [pos_le_ix h hw hu] at h2
    obtain ⟨k1, k2⟩ := Prod.mk.injEq .. ▸ hk
    obtain ⟨a, b⟩ := chap_between h (ix_get h hv) (ix_get h hw) (ix_get h hu) h1 h2 k1 k2
    simp [a, b]
  st_valid hw := firstNum_valid h hw.listed hw.1 hw.2.1
  st_key w := rfl
  st_min {v w} hv hw hk := by
    obtain ⟨k1, k2⟩ := Prod.mk.injEq .. ▸ hk
    rw [← h.le_pos (v0 := v0) (show Valid d v0 (stChap d v0 w) from firstNum_valid h hw.listed hw.1 hw.2.1) hv, h.le_iff]
    refine .inr ⟨k1.symm, .inr ⟨k2.symm, ?_⟩⟩
    have := hv.2.2.1
    rwa [k1, k2] at this
  en_valid hw := lastNum_valid h hw.listed hw.1 hw.2.1
  en_key w := rfl
  en_max {v w} hv hw hk := by
    obtain ⟨k1, k2⟩ := Prod.mk.injEq .. ▸ hk
    rw [← h.le_pos (w0 := true) hv (show Valid d true (enChap d w) from lastNum_valid h hw.listed hw.1 hw.2.1)]
    exact le_enChap h hv k1 k2

theorem blocks_book {d : BibleData} (h : d.WF) (v0 : Bool) :
    Blocks d v0 (fun v => v.book) (stBook d v0) (enBook d) where
  conv {v w u} hv hw hu h1 h2 hk := by
    rw [pos_le_ix h hv hw] at h1
    rw [pos_le_ix h hw hu] at h2
    exact book_between h (ix_get h hv) (ix_get h hw) (ix_get h hu) h1 h2 hk
  st_valid {w} hw := by have := h.nChaps_pos w.book; exact firstNum_valid h hw.listed (by omega) (by omega)
  st_key w := rfl
  st_min {v w} hv hw hk := by
    have := h.nChaps_pos w.book
    rw [← h.le_pos (v0 := v0) (show Valid d v0 (stBook d v0 w) from firstNum_valid h hw.listed (by omega) (by omega)) hv, h.le_iff]
    refine .inr ⟨hk.symm, ?_⟩
    by_cases hc : v.chap = 1
    · right
      have h3 := hv.2.2.1
      rw [hc, show v.book = w.book from hk] at h3
      exact ⟨hc.symm, h3⟩
    · have := hv.1
      left; simp only [stBook]; omega
  en_valid hw := enBook_valid h v0 hw.listed
  en_key w := rfl
  en_max {v w} hv hw hk := by
    rw [← h.le_pos (w0 := true) hv (enBook_valid h _ hw.listed)]
    exact le_enBook h hv hk

section
variable {κ : Type} {d : BibleData} {v0 : Bool} {key : BibleVerse → κ} {st en : BibleVerse → BibleVerse}

theorem Blocks.le (B : Blocks d v0 key st en) {v w : BibleVerse} (hv : Valid d true v) (hw : Valid d true w)
    (hle : pos d v ≤ pos d w) : pos d (st v) ≤ pos d (en w) := by
  by_cases hk : key v = key w
  · exact B.en_max (B.st_valid hv).mono hw ((B.st_key v).trans hk)
  · apply Classical.byContradiction
    intro hh
    have h1 := B.en_max hw hw rfl
    exact hk (B.conv hv hw (B.st_valid hv).mono hle (by omega) (B.st_key v).symm).symm

/-- The verses of the smallest range of whole blocks around a range. -/
theorem Blocks.cover (B : Blocks d v0 key st en) {r : BibleRange} (hr : ROK d true r) {v : BibleVerse} (hv : Valid d v0 v) :
    (pos d (st r.start) ≤ pos d v ∧ pos d v ≤ pos d (en r.stop)) ↔
      ∃ u, Valid d true u ∧ (pos d r.start ≤ pos d u ∧ pos d u ≤ pos d r.stop) ∧ key u = key v := by
  have hle := hr.le
  constructor
  · rintro ⟨h1, h2⟩
    by_cases g1 : pos d v < pos d r.start
    · refine ⟨r.start, hr.s, ⟨Nat.le_refl _, hle⟩, ?_⟩
      rw [B.conv (B.st_valid hr.s).mono hv.mono hr.s h1 (by omega) (B.st_key _), B.st_key]
    · by_cases g2 : pos d r.stop < pos d v
      · refine ⟨r.stop, hr.t, ⟨hle, Nat.le_refl _⟩, ?_⟩
        exact (B.conv hr.t hv.mono (B.en_valid hr.t).mono (by omega) h2 (B.en_key _).symm).symm
      · exact ⟨v, hv.mono, ⟨by omega, by omega⟩, rfl⟩
  · rintro ⟨u, hu, ⟨h1, h2⟩, hk⟩
    constructor
    · apply Classical.byContradiction
      intro hh
      have hne : key v ≠ key r.start := fun hk' => hh (B.st_min hv hr.s hk')
      by_cases g1 : pos d r.start ≤ pos d v
      · exact hne (B.conv hr.s hv.mono (B.st_valid hr.s).mono g1 (by omega) (B.st_key _).symm)
      · exact hne (B.conv hv.mono hr.s hu (by omega) h1 hk.symm).symm
    · apply Classical.byContradiction
      intro hh
      have hne : key v ≠ key r.stop := fun hk' => hh (B.en_max hv.mono hr.t hk')
      have h3 := B.en_max hr.t hr.t rfl
      exact hne (hk.symm.trans (B.conv hu hr.t hv.mono h2 (by omega) hk).symm)

/-- The verses of one block. -/
theorem Blocks.block (B : Blocks d v0 key st en) {w : BibleVerse} (hw : Valid d true w) {v : BibleVerse} (hv : Valid d v0 v) :
    (pos d (st w) ≤ pos d v ∧ pos d v ≤ pos d (en w)) ↔ key v = key w := by
  constructor
  · rintro ⟨h1, h2⟩
    rw [B.conv (B.st_valid hw).mono hv.mono (B.en_valid hw).mono h1 h2 ((B.st_key w).trans (B.en_key w).symm), B.st_key]
  · intro hk
    exact ⟨B.st_min hv hw hk, B.en_max hv.mono hw hk⟩

theorem Blocks.spans_start (B : Blocks d v0 key st en) (h : d.WF) {r : BibleRange} (hr : ROK d v0 r) :
    (r.start = st r.start ∧ pos d (en r.start) ≤ pos d r.stop) ↔
      ∀ v, Valid d v0 v → key v = key r.start → pos d r.start ≤ pos d v ∧ pos d v ≤ pos d r.stop := by
  have hs := B.st_valid hr.s.mono
  have he := B.en_valid hr.s.mono
  constructor
  · rintro ⟨h1, h2⟩ v hv hk
    have := B.st_min hv hr.s.mono hk
    have := B.en_max hv.mono hr.s.mono hk
    rw [← h1] at *
    omega
  · intro hh
    have h1 := (hh _ hs (B.st_key _)).1
    have h2 := (hh _ he (B.en_key _)).2
    have h3 := B.st_min hr.s hr.s.mono rfl
    exact ⟨(h.pos_inj hr.s hs).mp (by omega), h2⟩

theorem Blocks.spans_end (B : Blocks d v0 key st en) (h : d.WF) {r : BibleRange} (hr : ROK d v0 r) :
    (r.stop = en r.stop ∧ pos d r.start ≤ pos d (st r.stop)) ↔
      ∀ v, Valid d v0 v → key v = key r.stop → pos d r.start ≤ pos d v ∧ pos d v ≤ pos d r.stop := by
  have hs := B.st_valid hr.t.mono
  have he := B.en_valid hr.t.mono
  constructor
  · rintro ⟨h1, h2⟩ v hv hk
    have := B.st_min hv hr.t.mono hk
    have := B.en_max hv.mono hr.t.mono hk
    rw [← h1] at *
    omega
  · intro hh
    have h1 := (hh _ hs (B.st_key _)).1
    have h2 := (hh _ he (B.en_key _)).2
    have h3 := B.en_max hr.t.mono hr.t.mono rfl
    exact ⟨(h.pos_inj hr.t he).mp (by omega), h1⟩

theorem Blocks.whole (B : Blocks d v0 key st en) (h : d.WF) {r : BibleRange} (hr : ROK d v0 r) :
    (r.start = st r.start ∧ r.stop = en r.start) ↔
      ∃ k, ∀ v, Valid d v0 v → ((pos d r.start ≤ pos d v ∧ pos d v ≤ pos d r.stop) ↔ key v = k) := by
  have hs := B.st_valid hr.s.mono
  have he := B.en_valid hr.s.mono
  have hle := hr.le
  constructor
  · rintro ⟨h1, h2⟩
    refine ⟨key r.start, fun v hv => ?_⟩
    rw [← B.block hr.s.mono hv, ← h1, ← h2]
  · rintro ⟨k, hk⟩
    have hk1 := (hk _ hr.s).mp ⟨Nat.le_refl _, hle⟩
    subst hk1
    have h1 := ((hk _ hs).mpr (B.st_key _)).1
    have h2 := ((hk _ he).mpr (B.en_key _)).2
    have h3 := B.st_min hr.s hr.s.mono rfl
    have h4 := B.en_max hr.t.mono hr.s.mono ((hk _ hr.t).mp ⟨hle, Nat.le_refl _⟩)
    exact ⟨(h.pos_inj hr.s hs).mp (by omega), (h.pos_inj hr.t he).mp (by omega)⟩
end

/-- `first_verse` when verse 0s allowed for the call are also allowed globally. -/
theorem firstVerse_flags {e : Env} (h : e.data.WF) {flags : Option BibleFlag}
    (hg : (e.eff flags).verse0 = true → e.flags.verse0 = true) {b : BibleBook} {c : Int} (h1 : 1 ≤ c) (h2 : c ≤ nChaps e.data b) :
    b.firstVerse e (some c) flags = .ok ⟨b, c, firstNum e.data (e.eff flags).verse0 b c⟩ := by
  have hle : firstNum e.data e.flags.verse0 b c ≤ firstNum e.data (e.eff flags).verse0 b c := by
    rw [firstNum_le_iff]
    rintro ⟨g1, g2, _⟩
    rw [hg g1] at g2; cases g2
  rw [firstVerse_eq h, if_pos ⟨h1, h2, hle⟩]

theorem firstVerse_flags_none {e : Env} (h : e.data.WF) {flags : Option BibleFlag}
    (hg : (e.eff flags).verse0 = true → e.flags.verse0 = true) (b : BibleBook) :
    b.firstVerse e none flags = .ok ⟨b, 1, firstNum e.data (e.eff flags).verse0 b 1⟩ := by
  have := h.nChaps_pos b
  rw [firstVerse_none h, firstVerse_flags h hg (by omega) (by omega)]

theorem lastVerse_ok {e : Env} (h : e.data.WF) {b : BibleBook} {c : Int} (h1 : 1 ≤ c) (h2 : c ≤ nChaps e.data b) :
    b.lastVerse e (some c) = .ok ⟨b, c, lastNum e.data b c⟩ := by rw [lastVerse_eq h, if_pos ⟨h1, h2⟩]

theorem first_st_chap {e : Env} (h : e.data.WF) {flags : Option BibleFlag}
    (hg : (e.eff flags).verse0 = true → e.flags.verse0 = true) {v : BibleVerse} (hv : Valid e.data true v) :
    v.book.firstVerse e (some v.chap) flags = .ok (stChap e.data (e.eff flags).verse0 v) := firstVerse_flags h hg hv.1 hv.2.1

theorem first_st_book {e : Env} (h : e.data.WF) {flags : Option BibleFlag}
    (hg : (e.eff flags).verse0 = true → e.flags.verse0 = true) (v : BibleVerse) :
    v.book.firstVerse e none flags = .ok (stBook e.data (e.eff flags).verse0 v) := firstVerse_flags_none h hg v.book

theorem last_en_chap {e : Env} (h : e.data.WF) {v : BibleVerse} (hv : Valid e.data true v) :
    v.book.lastVerse e (some v.chap) = .ok (enChap e.data v) := lastVerse_ok h hv.1 hv.2.1

theorem last_en_book {e : Env} (h : e.data.WF) (v : BibleVerse) :
    v.book.lastVerse e none = .ok (enBook e.data v) := lastVerse_none h v.book

/-- Flags extended by `MULTIBOOK`. -/
theorem eff_multi (e : Env) (flags : Option BibleFlag) :
    e.eff (some ((e.eff flags).union .MULTIBOOK)) = (e.eff flags).union .MULTIBOOK :=
  Env.eff_some_of_ne e (by cases e.eff flags; simp [BibleFlag.union, BibleFlag.MULTIBOOK, BibleFlag.none])

theorem multi_verse0 (f : BibleFlag) : (f.union .MULTIBOOK).verse0 = f.verse0 := by simp [BibleFlag.union, BibleFlag.MULTIBOOK]
theorem multi_multibook (f : BibleFlag) : (f.union .MULTIBOOK).multibook = true := by simp [BibleFlag.union, BibleFlag.MULTIBOOK]

section
variable {e : Env} (h : e.data.WF) {flags : Option BibleFlag} (hg : (e.eff flags).verse0 = true → e.flags.verse0 = true)
include h hg

theorem chapRange_eq {r : BibleRange} (hr : ROK e.data true r) :
    r.chapRange e flags = .ok ⟨stChap e.data (e.eff flags).verse0 r.start, enChap e.data r.stop⟩ := by
  unfold BibleRange.chapRange
  have hg' : (e.eff (some ((e.eff flags).union .MULTIBOOK))).verse0 = true → e.flags.verse0 = true := by
    rw [eff_multi, multi_verse0]; exact hg
  have B := blocks_chap h (e.eff flags).verse0
  simp only [BibleVerse.firstVerse, BibleVerse.lastVerse, Option.getD_none]
  rw [firstVerse_flags h hg' hr.s.1 hr.s.2.1, lastVerse_ok h hr.t.1 hr.t.2.1]
  simp only [bind, Except.bind]
  rw [new_range_ok h (v0 := (e.eff flags).verse0) (w0 := (e.eff flags).verse0)]
  · rw [eff_multi, multi_verse0]; rfl
  · rw [eff_multi, multi_verse0]; exact B.st_valid hr.s
  · exact B.en_valid hr.t
  · rw [eff_multi, multi_verse0]; exact B.le hr.s hr.t hr.le
  · rw [eff_multi]; exact .inl (multi_multibook _)

theorem bookRange_eq {r : BibleRange} (hr : ROK e.data true r) :
    r.bookRange e flags = .ok ⟨stBook e.data (e.eff flags).verse0 r.start, enBook e.data r.stop⟩ := by
  unfold BibleRange.bookRange
  have hg' : (e.eff (some ((e.eff flags).union .MULTIBOOK))).verse0 = true → e.flags.verse0 = true := by
    rw [eff_multi, multi_verse0]; exact hg
  have B := blocks_book h (e.eff flags).verse0
  simp only
  rw [firstVerse_flags_none h hg', lastVerse_none h]
  simp only [bind, Except.bind]
  rw [new_range_ok h (v0 := (e.eff flags).verse0) (w0 := (e.eff flags).verse0)]
  · rw [eff_multi, multi_verse0]; rfl
  · rw [eff_multi, multi_verse0]; exact B.st_valid hr.s
  · exact B.en_valid hr.t
  · rw [eff_multi, multi_verse0]; exact B.le hr.s hr.t hr.le
  · rw [eff_multi]; exact .inl (multi_multibook _)

theorem book_chapRange_eq {b : BibleBook} {c : Int} (h1 : 1 ≤ c) (h2 : c ≤ nChaps e.data b) :
    b.chapRange e c flags = .ok ⟨⟨b, c, firstNum e.data (e.eff flags).verse0 b c⟩, ⟨b, c, lastNum e.data b c⟩⟩ := by
  unfold BibleBook.chapRange
  rw [firstVerse_flags h hg h1 h2, lastVerse_ok h h1 h2]
  simp only [bind, Except.bind]
  have := h.lastNum_pos h1 h2
  have := firstNum_le_one e.data (e.eff flags).verse0 b c
  exact new_range_book h (.inr ⟨rfl, by omega⟩) flags

theorem book_range_eq (b : BibleBook) :
    b.range e flags = .ok ⟨⟨b, 1, firstNum e.data (e.eff flags).verse0 b 1⟩,
      ⟨b, nChaps e.data b, lastNum e.data b (nChaps e.data b)⟩⟩ := by
  have hp := h.nChaps_pos b
  unfold BibleBook.range
  rw [firstVerse_flags_none h hg, lastVerse_none h]
  simp only [bind, Except.bind]
  have := h.lastNum_pos (b := b) (c := 1) (by omega) (by omega)
  have := firstNum_le_one e.data (e.eff flags).verse0 b 1
  refine new_range_book h ?_ flags
  by_cases h1 : (nChaps e.data b : Int) = 1
  · rw [h1]; exact .inr ⟨rfl, by omega⟩
  · exact .inl (by omega)

end
end Bibleref

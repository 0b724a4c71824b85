import Verif.Lemmas.StrRange
import Verif.Lemmas.Count

/-!
# The text of a list, and how it is read
-/

namespace Bibleref
open Spec

/-! ## The start of a range in a list -/

section
variable (u : Uni) (e : Env) (flags : Option BibleFlag) (o : StrOpts) (r : BibleRange)

/-- What is needed of the parts shown of the start of a range, when the parser is in this state. -/
def StartOK (p : Parts) (chap : Option Int) (atVerse forceDual : Bool) (ps : PState) : Prop :=
  Shows u e.data o p r.start ∧ ∃ x ps', evalSingle u e (e.eff flags) (tree e.data o p r.start) ps = (.ok x, ps') ∧
    x.start = r.start ∧ AfterStart e.data (e.eff flags).verse0 r ps' chap atVerse ∧
    (forceDual = false → RangeList.isDual e flags r = .ok false → x = r ∧ Track e.data ps' r.start.book chap atVerse)

/-- The parts with the start verse if that is forced (ref.py:1741-1744), and whether we are then at verse level. -/
def forced (v0 : Bool) (p : Parts) (atVerse : Bool) : Parts × Bool :=
  if (o.forceStartVerses = true ∧ p.verse = false) ∧ ¬ ToChap e.data v0 r then ({ p with verse := true }, true) else (p, atVerse)

end

section
variable {u : Uni} {e : Env} (h : e.data.WF) {flags : Option BibleFlag} {o : StrOpts} {r : BibleRange}
  (hg : (e.eff flags).verse0 = true → e.flags.verse0 = true) (hr : ROK e.data (e.eff flags).verse0 r)
include h hg hr

/-- A range with one reference is a book, a chapter or a verse. -/
theorem notDual (hd : RangeList.isDual e flags r = .ok false) :
    OneBook e.data (e.eff flags).verse0 r ∨ OneChap e.data (e.eff flags).verse0 r ∨ r.start = r.stop := by
  rw [isDual_eq h hg hr] at hd
  simp only [Except.ok.injEq, decide_eq_false_iff_not] at hd
  grind

theorem notDual_book (hd : RangeList.isDual e flags r = .ok false) : r.start.book = r.stop.book := by
  rcases notDual h hg hr hd with ho | ho | ho
  · rw [ho.2]; rfl
  · rw [ho.2]; rfl
  · rw [ho]

/-- The range begins with its first book. -/
theorem startOK_book (hn : NameReads u e.data o r.start.book) (h1 : FromBook e.data (e.eff flags).verse0 r)
    (hf : o.forceStartVerses = true → nChaps e.data r.start.book = 1 ∨
      firstNum e.data (e.eff flags).verse0 r.start.book 1 = 1) (fd : Bool) (ps : PState) :
    StartOK u e flags o r (forced e o r (e.eff flags).verse0 .BOOK false).1 none
      (forced e o r (e.eff flags).verse0 .BOOK false).2 fd ps := by
  unfold forced
  split
  · rename_i hc
    have hb : r.start.book ≠ r.stop.book := fun hb => hc.2 (h1.toChap h hr hb)
    obtain ⟨x, ps', h2, _⟩ := eval_bookVerse (flags := flags) h hr.s hg hn h1.1 (hf hc.1.1) ps
    exact ⟨shows_book rfl hn.1, _, ps', h2, rfl, fun hb' => absurd hb' hb,
      fun _ hd => absurd (notDual_book h hg hr hd) hb⟩
  · obtain ⟨ps', h2, h3⟩ := eval_book (flags := flags) h hr.s hg hn ps
    refine ⟨shows_book rfl hn.1, _, ps', h2, h1.1.symm, fun hb => ⟨h3 _, by simp, fun _ => ?_⟩, fun _ hd => ⟨?_, 0, h3 0, by simp⟩⟩
    · exact .inl ((h1.same h hr hb).from).2
    · have := h1.same h hr (notDual_book h hg hr hd)
      rw [← this.1, ← this.2]

/-- The range begins with its first chapter, shown without the verse. -/
theorem startOK_chap {p : Parts} {ps : PState} (hp : (p = .BOOK_CHAP ∧ NameReads u e.data o r.start.book) ∨
      (p = .CHAP ∧ ∃ c, Level e.data ps r.start.book c false))
    (h1 : ¬ FromBook e.data (e.eff flags).verse0 r) (h2 : FromChap e.data (e.eff flags).verse0 r) (fd : Bool) :
    StartOK u e flags o r (forced e o r (e.eff flags).verse0 p false).1 (some r.start.chap)
      (forced e o r (e.eff flags).verse0 p false).2 fd ps := by
  have hm : nChaps e.data r.start.book ≠ 1 := fun hm => h1 (h2.single hr hm)
  have hone : RangeList.isDual e flags r = .ok false → OneChap e.data (e.eff flags).verse0 r := by
    intro hd
    rcases notDual h hg hr hd with ho | ho | ho
    · exact absurd ho.from.1 h1
    · exact ho
    · exact h2.same h hr (by rw [ho]) (by rw [ho])
  unfold forced
  split
  · rename_i hc
    obtain ⟨ps', h4, h5⟩ : ∃ ps', evalSingle u e (e.eff flags) (tree e.data o { p with verse := true } r.start) ps =
        (.ok ⟨r.start, r.start⟩, ps') ∧ Level e.data ps' r.start.book r.start.chap true := by
      rcases hp with ⟨rfl, hn⟩ | ⟨rfl, c, hl⟩
      · exact eval_full (flags := flags) h hr.s hn ps
      · exact eval_chapVerse h hr.s ps hl.1
    refine ⟨?_, _, ps', h4, rfl, fun hb => ⟨h5, by simp, by simp⟩, fun _ hd => absurd (hone hd).from.2 hc.2⟩
    rcases hp with ⟨rfl, hn⟩ | ⟨rfl, c, hl⟩
    · exact shows_book rfl hn.1
    · exact shows_verse rfl rfl
  · obtain ⟨ps', h4, h5⟩ : ∃ ps', evalSingle u e (e.eff flags) (tree e.data o p r.start) ps =
        (.ok ⟨stChap e.data (e.eff flags).verse0 r.start, enChap e.data r.start⟩, ps') ∧
        ∀ c, Level e.data ps' r.start.book c false := by
      rcases hp with ⟨rfl, hn⟩ | ⟨rfl, c, hl⟩
      · exact eval_bookChap (flags := flags) h hr.s hg hn hm ps
      · exact eval_chap h hr.s hg hm ps hl
    refine ⟨?_, _, ps', h4, h2.1.symm, fun hb => ⟨h5 _, by simp, fun _ => ?_⟩, fun _ hd => ⟨?_, 0, h5 0, by simp⟩⟩
    · rcases hp with ⟨rfl, hn⟩ | ⟨rfl, c, hl⟩
      · exact shows_book rfl hn.1
      · exact shows_chap h rfl rfl hm
    · by_cases hc : r.start.chap = r.stop.chap
      · exact .inr (.inl (h2.same h hr hb hc).from.2)
      · exact .inr (.inr (by simpa using hc))
    · have := hone hd
      rw [← this.1, ← this.2]

/-- The start is shown with its verse. -/
theorem startOK_verse {p : Parts} {ps : PState} (hp : (p = .full ∧ NameReads u e.data o r.start.book) ∨
      (p = .CHAP_VERSE ∧ ps.book = some r.start.book) ∨ (p = .VERSE ∧ Level e.data ps r.start.book r.start.chap true))
    {fd : Bool} (h1 : fd = true ∨ ¬ FromChap e.data (e.eff flags).verse0 r) :
    StartOK u e flags o r (forced e o r (e.eff flags).verse0 p true).1 (some r.start.chap)
      (forced e o r (e.eff flags).verse0 p true).2 fd ps := by
  have hv : p.verse = true := by rcases hp with ⟨rfl, _⟩ | ⟨rfl, _⟩ | ⟨rfl, _⟩ <;> rfl
  unfold forced
  rw [if_neg (by simp [hv])]
  obtain ⟨ps', h4, h5⟩ : ∃ ps', evalSingle u e (e.eff flags) (tree e.data o p r.start) ps =
      (.ok ⟨r.start, r.start⟩, ps') ∧ Level e.data ps' r.start.book r.start.chap true := by
    rcases hp with ⟨rfl, hn⟩ | ⟨rfl, hl⟩ | ⟨rfl, hl⟩
    · exact eval_full (flags := flags) h hr.s hn ps
    · exact eval_chapVerse h hr.s ps hl
    · exact eval_verse h hr.s ps hl
  refine ⟨?_, _, ps', h4, rfl, fun hb => ⟨h5, by simp, by simp⟩, fun hfd hd => ⟨?_, _, h5, fun _ => rfl⟩⟩
  · rcases hp with ⟨rfl, hn⟩ | ⟨rfl, hl⟩ | ⟨rfl, hl⟩
    · exact shows_book rfl hn.1
    · exact shows_verse rfl rfl
    · exact shows_verse rfl rfl
  · have h1 : ¬ FromChap e.data (e.eff flags).verse0 r := h1.resolve_left (by simp [hfd])
    rcases notDual h hg hr hd with ho | ho | ho
    · exact absurd (ho.from.1.fromChap h hr) h1
    · exact absurd ho.from.1 h1
    · have : r = ⟨r.start, r.stop⟩ := rfl
      rw [this, ← ho]

/-- The beginning of the loop body by cases; `n` is how many chapters the range touches. -/
theorem strStart_eq {n : Int} (hn : r.chapCount e false = .ok n) (s : RangeList.StrState) : RangeList.strStart e o flags s r = .ok (
    if FromBook e.data (e.eff flags).verse0 r then
      (.BOOK, if o.preserveGroups then s.sep else [e.data.majorListSep], none, false, s.forceDual)
    else if FromChap e.data (e.eff flags).verse0 r then
      if s.book = some r.start.book then
        if o.preserveGroups = false ∨ s.sep = [e.data.majorListSep] ∨
            (s.atVerse = false ∧ ToChap e.data (e.eff flags).verse0 r) then
          (.CHAP, if o.preserveGroups then s.sep else [e.data.majorListSep], some r.start.chap, false, s.forceDual)
        else (.CHAP_VERSE, if o.preserveGroups then s.sep else [e.data.majorListSep], some r.start.chap, true, true)
      else (.BOOK_CHAP, if o.preserveGroups then s.sep else [e.data.majorListSep], some r.start.chap, false, s.forceDual)
    else if s.book = some r.start.book then
      if s.atVerse = true ∧ s.chap = some r.start.chap ∧ ¬ n > 1 then (.VERSE, s.sep, some r.start.chap, true, s.forceDual)
      else (.CHAP_VERSE, if o.preserveGroups then s.sep else [e.data.majorListSep], some r.start.chap, true, s.forceDual)
    else (.full, if o.preserveGroups then s.sep else [e.data.majorListSep], some r.start.chap, true, s.forceDual)) := by
  have hr' : ROK e.data true r := ⟨hr.s.mono, hr.t.mono, hr.le⟩
  unfold RangeList.strStart
  rw [spansStartBook_eq h hg hr', spansStartChap_eq h hg hr', spansEndChap_eq h hg hr', hn]
  have e1 : decide (r.start = stBook e.data (e.eff flags).verse0 r.start ∧ pos e.data (enBook e.data r.start) ≤ pos e.data r.stop) =
    decide (FromBook e.data (e.eff flags).verse0 r) := rfl
  have e2 : decide (r.start = stChap e.data (e.eff flags).verse0 r.start ∧ pos e.data (enChap e.data r.start) ≤ pos e.data r.stop) =
    decide (FromChap e.data (e.eff flags).verse0 r) := rfl
  have e3 : decide (r.stop = enChap e.data r.stop ∧ pos e.data r.start ≤ pos e.data (stChap e.data (e.eff flags).verse0 r.stop)) =
    decide (ToChap e.data (e.eff flags).verse0 r) := rfl
  rw [e1, e2, e3]
  simp only [bind, Except.bind, pure, Except.pure]
  generalize (if o.preserveGroups = true then s.sep else [e.data.majorListSep]) = sep
  by_cases h1 : FromBook e.data (e.eff flags).verse0 r
  · simp [h1]
  · simp only [h1, decide_false, Bool.false_eq_true, if_false]
    by_cases h2 : FromChap e.data (e.eff flags).verse0 r
    · simp only [h2, decide_true, if_true]
      by_cases h3 : s.book = some r.start.book
      · simp only [h3, if_true]
        by_cases h4 : o.preserveGroups = false ∨ s.sep = [e.data.majorListSep]
        · rw [if_pos h4, if_pos (h4.elim .inl fun hh => .inr (.inl hh))]
        · have h4' := not_or.1 h4
          rw [if_neg h4]
          cases ha : s.atVerse with
          | true => simp [h4'.1, h4'.2]
          | false =>
            by_cases h5 : ToChap e.data (e.eff flags).verse0 r
            · simp [h5]
            · simp [h5, h4'.1, h4'.2]
      · simp only [h3, if_false]
    · simp only [h2, decide_false, Bool.false_eq_true, if_false]
      by_cases h3 : s.book = some r.start.book
      · simp only [h3, if_true]
        by_cases h4 : s.atVerse = true ∧ s.chap = some r.start.chap
        · rw [if_pos h4]
          by_cases h5 : n > 1
          · simp [h5]
          · simp [h5, h4.1, h4.2]
        · rw [if_neg h4, if_neg (fun hh => h4 ⟨hh.1, hh.2.1⟩)]
      · simp only [h3, if_false]

end

/-! ## One range of a list -/

/-- The state after a separator. -/
def afterSep (m : Bool) (ps : PState) : PState := if m then { ps with atVerse := false } else ps

theorem evalSep_run (m : Bool) (ps : PState) : evalSep m ps = (.ok (), afterSep m ps) := by
  cases m <;> rfl

/-- What links the variables of `str` with the state of the parser. -/
structure Sync (d : BibleData) (o : StrOpts) (s : RangeList.StrState) (ps : PState) : Prop where
  first : s.first = true → s.book = none ∧ s.sep = []
  later : s.first = false → ∃ b a, (s.book = some b ∧ Track d ps b s.chap a) ∧
    ((s.sep = [d.minorListSep] ∧ a = s.atVerse) ∨ (o.preserveGroups = true ∧ s.sep = [d.majorListSep] ∧ s.atVerse = false))

/-- The separator shown, if this is not the first range: as its text and as the parser sees it. -/
def sepText (d : BibleData) (o : StrOpts) (first m : Bool) : List Char := if first then [] else listSep d m :: gap o

theorem Track.major {d : BibleData} {ps : PState} {b : BibleBook} {chap : Option Int} {a : Bool} (h : Track d ps b chap a) (c : Int) :
    Level d (afterSep true ps) b c false := by
  obtain ⟨c', ⟨hb, _⟩, _⟩ := h
  exact ⟨hb, fun _ => ⟨rfl, by simp⟩⟩

theorem Track.book {d : BibleData} {ps : PState} {b : BibleBook} {chap : Option Int} {a : Bool} (h : Track d ps b chap a) (m : Bool) :
    (afterSep m ps).book = some b := by
  obtain ⟨c', ⟨hb, _⟩, _⟩ := h
  cases m <;> exact hb

section
variable {u : Uni} {e : Env} (h : e.data.WF) (hd : PlainSeps u e.data) {flags : Option BibleFlag} {o : StrOpts} {r : BibleRange}
  (hg : (e.eff flags).verse0 = true → e.flags.verse0 = true) (hr : ROK e.data (e.eff flags).verse0 r)
  (hm : (e.eff flags).multibook = true ∨ r.start.book = r.stop.book)
  (hn : NameReads u e.data o r.start.book) (hn' : NameReads u e.data o r.stop.book)
  (hf : o.forceStartVerses = true → (e.eff flags).verse0 = e.flags.verse0 ∧ (nChaps e.data r.start.book = 1 ∨
      firstNum e.data (e.eff flags).verse0 r.start.book 1 = 1))
include h hd hg hr hn hf

omit h hg hr hn hf in
theorem sep_ne : e.data.majorListSep ≠ e.data.minorListSep := fun hh => hd.major (by rw [hh]; exact .head _)

/-- The start of a range in a list. -/
theorem list_start_reads {s : RangeList.StrState} {ps : PState} (hs : Sync e.data o s ps) :
    ∃ p sep chap atVerse fd, RangeList.strStart e o flags s r = .ok (p, sep, chap, atVerse, fd) ∧
      ∃ m, (s.first = false → sep = [listSep e.data m] ∧ (o.preserveGroups = true → s.sep = [listSep e.data m])) ∧
        StartOK u e flags o r (forced e o r (e.eff flags).verse0 p atVerse).1 chap
          (forced e o r (e.eff flags).verse0 p atVerse).2 fd (if s.first then ps else afterSep m ps) := by
  have hr' : ROK e.data true r := ⟨hr.s.mono, hr.t.mono, hr.le⟩
  obtain ⟨n, hcc, _⟩ := chapCount_eq h hr' rfl
  rw [strStart_eq h hg hr hcc]
  have hsepne := sep_ne hd
  -- The separator that is shown unless a verse of the same chapter follows.
  have hsep : ∃ m, (s.first = false → (if o.preserveGroups then s.sep else [e.data.majorListSep]) = [listSep e.data m] ∧
      (o.preserveGroups = true → s.sep = [listSep e.data m])) ∧ (m = true ↔ o.preserveGroups = false ∨ s.sep = [e.data.majorListSep]) := by
    by_cases hp : o.preserveGroups = true
    · by_cases hf' : s.first = true
      · have := hs.first hf'
        exact ⟨false, by simp [hf'], by simp [hp, this.2]⟩
      · have hf' : s.first = false := by simpa using hf'
        obtain ⟨_, _, _, h1⟩ := hs.later hf'
        rcases h1 with ⟨h1, _⟩ | ⟨_, h1, _⟩
        · refine ⟨false, fun _ => ⟨by simp [hp, h1, listSep], fun _ => h1⟩, ?_⟩
          simp only [h1, hp, Bool.false_eq_true, false_iff, Bool.true_eq_false, false_or]
          intro hh
          exact hsepne (by simpa using hh.symm)
        · exact ⟨true, fun _ => ⟨by simp [hp, h1, listSep], fun _ => h1⟩, by simp [h1]⟩
    · have hp : o.preserveGroups = false := by simpa using hp
      exact ⟨true, fun _ => ⟨by simp [hp, listSep], by simp [hp]⟩, by simp [hp]⟩
  obtain ⟨m, hm1, hm2⟩ := hsep
  by_cases h1 : FromBook e.data (e.eff flags).verse0 r
  · simp only [h1, if_true]
    exact ⟨_, _, _, _, _, rfl, m, hm1, startOK_book h hg hr hn h1 (fun hh => (hf hh).2) _ _⟩
  · simp only [h1, if_false]
    by_cases h2 : FromChap e.data (e.eff flags).verse0 r
    · simp only [h2, if_true]
      by_cases h3 : s.book = some r.start.book
      · have hfirst : s.first = false := by
          cases hx : s.first with
          | false => rfl
          | true => rw [(hs.first hx).1] at h3; cases h3
        obtain ⟨b, a, ⟨hb, htr⟩, hss⟩ := hs.later hfirst
        have hbb : b = r.start.book := by rw [hb] at h3; exact Option.some.inj h3
        rw [hbb] at htr
        simp only [h3, if_true]
        by_cases h4 : o.preserveGroups = false ∨ s.sep = [e.data.majorListSep] ∨
            (s.atVerse = false ∧ ToChap e.data (e.eff flags).verse0 r)
        · rw [if_pos h4]
          refine ⟨_, _, _, _, _, rfl, m, hm1, startOK_chap h hg hr (.inr ⟨rfl, ?_⟩) h1 h2 _⟩
          simp only [hfirst, Bool.false_eq_true, if_false]
          cases hmm : m with
          | true => exact ⟨0, htr.major 0⟩
          | false =>
            have h6 : s.sep ≠ [e.data.majorListSep] := fun hh => by
              rw [hmm] at hm2; exact absurd (hm2.2 (.inr hh)) (by simp)
            have : s.atVerse = false := by
              rcases h4 with h4 | h4 | h4
              · rw [hmm] at hm2; exact absurd (hm2.2 (.inl h4)) (by simp)
              · exact absurd h4 h6
              · exact h4.1
            rw [← (hss.resolve_right (fun hh => h6 hh.2.1)).2] at this
            obtain ⟨c, hl, _⟩ := htr
            rw [this] at hl
            exact ⟨c, hl⟩
        · rw [if_neg h4]
          refine ⟨_, _, _, _, _, rfl, m, hm1, startOK_verse h hg hr (.inr (.inl ⟨rfl, ?_⟩)) (.inl rfl)⟩
          simp only [hfirst, Bool.false_eq_true, if_false]
          exact htr.book m
      · simp only [h3, if_false]
        exact ⟨_, _, _, _, _, rfl, m, hm1, startOK_chap h hg hr (.inl ⟨rfl, hn⟩) h1 h2 _⟩
    · simp only [h2, if_false]
      by_cases h3 : s.book = some r.start.book
      · have hfirst : s.first = false := by
          cases hx : s.first with
          | false => rfl
          | true => rw [(hs.first hx).1] at h3; cases h3
        obtain ⟨b, a, ⟨hb, htr⟩, hss⟩ := hs.later hfirst
        have hbb : b = r.start.book := by rw [hb] at h3; exact Option.some.inj h3
        rw [hbb] at htr
        simp only [h3, if_true]
        by_cases h4 : s.atVerse = true ∧ s.chap = some r.start.chap ∧ ¬ (n : Int) > 1
        · rw [if_pos h4]
          obtain ⟨hmin, rfl⟩ := hss.resolve_right (fun hh => by rw [h4.1] at hh; cases hh.2.2)
          refine ⟨_, _, _, _, _, rfl, false, fun _ => ⟨hmin, fun _ => hmin⟩, startOK_verse h hg hr (.inr (.inr ⟨rfl, ?_⟩)) (.inr h2)⟩
          simp only [hfirst, Bool.false_eq_true, if_false]
          obtain ⟨c, hl, hc⟩ := htr
          have := hc h4.1
          rw [h4.2.1] at this
          rw [h4.1] at hl
          rw [Option.some.inj this]
          exact hl
        · rw [if_neg h4]
          refine ⟨_, _, _, _, _, rfl, m, hm1, startOK_verse h hg hr (.inr (.inl ⟨rfl, ?_⟩)) (.inr h2)⟩
          simp only [hfirst, Bool.false_eq_true, if_false]
          exact htr.book m
      · simp only [h3, if_false]
        exact ⟨_, _, _, _, _, rfl, m, hm1, startOK_verse h hg hr (.inl ⟨rfl, hn⟩) (.inr h2)⟩

include hm hn'

/-- One range of a list: the string it adds, and how that is read. -/
theorem step_reads {s : RangeList.StrState} {ps : PState} (hs : Sync e.data o s ps) :
    ∃ text s' m a ps', RangeList.strStep u e o flags s r = .ok (sepText e.data o s.first m ++ text, s') ∧
      (s.first = false → o.preserveGroups = true → s.sep = [listSep e.data m]) ∧
      (∀ rest, AfterRef e.data rest → RefRule u e.data (text ++ rest) a rest) ∧
      evalRef u e (e.eff flags) a (if s.first then ps else afterSep m ps) = (.ok r, ps') ∧
      Sync e.data o s' ps' ∧ s'.first = false ∧ s'.sep = [e.data.minorListSep] := by
  obtain ⟨p, sep, chap, atVerse, fd, h1, m, hm1, hshow, x, ps1, h2, h3, h4, h5⟩ := list_start_reads h hd hg hr hn hf hs
  have hr' : ROK e.data true r := ⟨hr.s.mono, hr.t.mono, hr.le⟩
  -- The forced start verse.
  have hforce : (if o.forceStartVerses ∧ p.verse = false then do
      let endsChap ← r.spansEndChap e none
      pure (if endsChap then (p, atVerse) else ({ p with verse := true }, true))
    else pure (p, atVerse) : Except PyErr (Parts × Bool)) = .ok (forced e o r (e.eff flags).verse0 p atVerse) := by
    unfold forced
    by_cases hc : o.forceStartVerses = true ∧ p.verse = false
    · rw [if_pos hc]
      have hv : (e.eff none).verse0 = (e.eff flags).verse0 := (hf hc.1).1.symm
      rw [spansEndChap_eq h (flags := none) (fun hh => hh) hr', hv]
      change Except.ok (if decide (ToChap e.data (e.eff flags).verse0 r) = true then _ else _) = _
      by_cases ht : ToChap e.data (e.eff flags).verse0 r <;> simp [ht, hc]
    · rw [if_neg hc, if_neg (fun hh => hc hh.1)]
      rfl
  generalize forced e o r (e.eff flags).verse0 p atVerse = pa at *
  obtain ⟨p, atVerse⟩ := pa
  have hstart : r.start.str u e.data o p = verseText e.data o (partsShown e.data p r.start) r.start :=
    str_eq_text hd o p (by have := hr.s.1; omega) (verse_nonneg hr.s) fun _ => hn.1
  -- It is enough to know the parts.
  have key : ∀ (q : Option Parts) (st : List Char) (b : BibleBook) (chap' : Option Int) (atVerse' : Bool) (ps' : PState),
      (∀ y, q = some y → Shows u e.data o y r.stop) →
      st = (match q with
        | none => []
        | some q => e.data.rangeSep :: verseText e.data o (partsShown e.data q r.stop) r.stop) →
      evalRef u e (e.eff flags) (refTree e.data o p q r) (if s.first then ps else afterSep m ps) = (.ok r, ps') →
      Track e.data ps' b chap' atVerse' →
      RangeList.strStep u e o flags s r = .ok (tidy u o ((if s.first then [] else sep) ++ [' '] ++
        verseText e.data o (partsShown e.data p r.start) r.start ++ st), ⟨some b, chap', atVerse', false, [e.data.minorListSep], fd⟩) →
      ∃ text s' m a ps', RangeList.strStep u e o flags s r = .ok (sepText e.data o s.first m ++ text, s') ∧
      (s.first = false → o.preserveGroups = true → s.sep = [listSep e.data m]) ∧
      (∀ rest, AfterRef e.data rest → RefRule u e.data (text ++ rest) a rest) ∧
      evalRef u e (e.eff flags) a (if s.first then ps else afterSep m ps) = (.ok r, ps') ∧
      Sync e.data o s' ps' ∧ s'.first = false ∧ s'.sep = [e.data.minorListSep] := by
    intro q st b chap' atVerse' ps' hq hst hev htr hstep
    refine ⟨refText e.data o p q r, ⟨some b, chap', atVerse', false, [e.data.minorListSep], fd⟩, m, refTree e.data o p q r, ps', ?_, fun hx hy => (hm1 hx).2 hy,
      fun rest hrest => ref_rule hd o hshow hq hrest, hev, ⟨by simp, fun _ => ⟨b, _, ⟨rfl, htr⟩, .inl ⟨rfl, rfl⟩⟩⟩, rfl, rfl⟩
    rw [hstep]
    congr 2
    rw [hst, List.append_assoc]
    change tidy u o ((if s.first = true then [] else sep) ++ [' '] ++ refText e.data o p q r) = _
    unfold sepText
    cases hx : s.first with
    | true =>
      simp only [if_true, List.nil_append]
      exact tidy_blank hd o hshow hq
    | false =>
      rw [(hm1 hx).1]
      simp only [Bool.false_eq_true, if_false]
      exact tidy_sep hd o m hshow hq
  obtain ⟨dual, hdual⟩ : ∃ dual, RangeList.isDual e flags r = .ok dual := ⟨_, isDual_eq h hg hr⟩
  have hstep : RangeList.strStep u e o flags s r = (do
      let dual ← (if fd then pure true else RangeList.isDual e flags r : Except PyErr Bool)
      let (rest, book, chap, atVerse) ← (if dual then do
          let (stopParts, chap, atVerse) ← RangeList.strStop e flags chap atVerse r
          pure (e.data.rangeSep :: r.stop.str u e.data o stopParts, r.stop.book, chap, atVerse)
        else pure ([], r.start.book, chap, atVerse) : Except PyErr (List Char × BibleBook × Option Int × Bool))
      return (tidy u o ((if s.first then [] else sep) ++ [' '] ++ r.start.str u e.data o p ++ rest),
        ⟨some book, chap, atVerse, false, [e.data.minorListSep], fd⟩)) := by
    unfold RangeList.strStep
    rw [h1]
    change ((if o.forceStartVerses ∧ _ = false then _ else _ : Except PyErr (Parts × Bool)) >>= _) = _
    rw [hforce]
    rfl
  by_cases hsingle : fd = false ∧ dual = false
  · obtain ⟨rfl, rfl⟩ := hsingle
    obtain ⟨hx, htr⟩ := h5 rfl hdual
    refine key none [] r.start.book chap atVerse ps1 (by simp) rfl ?_ htr ?_
    · rw [hx] at h2; exact h2
    · rw [hstep, hdual, hstart]
      rfl
  · obtain ⟨q, chap', atVerse', h6, h7, y, ps2, h8, h9, htr⟩ := stop_reads h hg hr hn' h4
    have hstop : r.stop.str u e.data o q = verseText e.data o (partsShown e.data q r.stop) r.stop :=
      str_eq_text hd o q (by have := hr.t.1; omega) (verse_nonneg hr.t) fun _ => hn'.1
    refine key (some q) (e.data.rangeSep :: verseText e.data o (partsShown e.data q r.stop) r.stop) r.stop.book chap' atVerse' ps2
      (by rintro y ⟨⟩; exact h7) rfl (dual_run h hr hm h2 h3 h8 h9) htr ?_
    rw [hstep, hdual, hstart, h6, ← hstop]
    cases fd <;> cases dual <;> first | rfl | exact absurd ⟨rfl, rfl⟩ hsingle

end

/-! ## The whole list -/

/-- What a range of the list must satisfy. -/
structure Showable (u : Uni) (e : Env) (flags : Option BibleFlag) (o : StrOpts) (r : BibleRange) : Prop where
  ok : ROK e.data (e.eff flags).verse0 r
  multi : (e.eff flags).multibook = true ∨ r.start.book = r.stop.book
  start : NameReads u e.data o r.start.book
  stop : NameReads u e.data o r.stop.book
  force : o.forceStartVerses = true → (e.eff flags).verse0 = e.flags.verse0 ∧ (nChaps e.data r.start.book = 1 ∨
      firstNum e.data (e.eff flags).verse0 r.start.book 1 = 1)

/-- The ranges of a group, each with whether the separator before it is the major one, if this is so for the first range. -/
def mark (m : Bool) : List BibleRange → List (Bool × BibleRange)
  | [] => []
  | r :: g => (m, r) :: mark false g

theorem mark_snd (m : Bool) (g : List BibleRange) : (mark m g).map (·.2) = g := by
  induction g generalizing m with
  | nil => rfl
  | cons r g ih => simp [mark, ih]

theorem foldl_mark_false (g : List BibleRange) (a : List (List BibleRange)) (c : List BibleRange) :
    (mark false g).foldl groupStep (a, c) = (a, c ++ g) := by
  induction g generalizing c with
  | nil => simp [mark]
  | cons r g ih =>
    simp only [mark, List.foldl_cons]
    change (mark false g).foldl groupStep (a, c ++ [r]) = _
    rw [ih]
    simp

theorem foldl_mark_groups (gs : List (List BibleRange)) (hne : ∀ g ∈ gs, g ≠ []) (a : List (List BibleRange)) (c : List BibleRange) :
    let s := (gs.flatMap (mark true)).foldl groupStep (a, c)
    s.1 ++ [s.2] = a ++ [c] ++ gs := by
  induction gs generalizing a c with
  | nil => simp
  | cons g gs ih =>
    obtain ⟨r, g, rfl⟩ := List.exists_cons_of_ne_nil (hne g (by simp))
    simp only [List.flatMap_cons, List.foldl_append, mark, List.foldl_cons]
    rw [show groupStep (a, c) (true, r) = (a ++ [c], [r]) from rfl, foldl_mark_false]
    have := ih (fun x hx => hne x (.tail _ hx)) (a ++ [c]) ([r] ++ g)
    simpa using this

theorem groupUp_mark (r : BibleRange) (g : List BibleRange) (gs : List (List BibleRange)) (hne : ∀ g ∈ gs, g ≠ []) :
    groupUp r (mark false g ++ gs.flatMap (mark true)) = (r :: g) :: gs := by
  unfold groupUp
  rw [List.foldl_append, foldl_mark_false]
  simpa using foldl_mark_groups gs hne [] ([r] ++ g)

/-- A piece of the string of a list, how it parses and what it gives. -/
structure Chunk (u : Uni) (e : Env) (flags : Option BibleFlag) (str : List Char) (vals : List (Bool × BibleRange))
    (ps ps' : PState) : Prop where
  after : ∀ tail, AfterRef e.data tail → AfterRef e.data (str ++ tail)
  rule : ∃ items : List (Bool × Ref),
    (∀ tail l t, AfterRef e.data tail → RestRule u e.data tail l t → RestRule u e.data (str ++ tail) (items ++ l) t) ∧
    (∀ l res ps2, evalRest u e (e.eff flags) l ps' = (.ok res, ps2) →
      evalRest u e (e.eff flags) (items ++ l) ps = (.ok (vals ++ res), ps2))

theorem Chunk.nil {u : Uni} {e : Env} {flags : Option BibleFlag} (ps : PState) : Chunk u e flags [] [] ps ps :=
  ⟨fun _ h => h, [], fun _ _ _ _ h => h, fun _ _ _ h => h⟩

theorem Chunk.append {u : Uni} {e : Env} {flags : Option BibleFlag} {s1 s2 : List Char} {v1 v2 : List (Bool × BibleRange)}
    {p1 p2 p3 : PState} (h1 : Chunk u e flags s1 v1 p1 p2) (h2 : Chunk u e flags s2 v2 p2 p3) :
    Chunk u e flags (s1 ++ s2) (v1 ++ v2) p1 p3 := by
  obtain ⟨a1, i1, r1, e1⟩ := h1
  obtain ⟨a2, i2, r2, e2⟩ := h2
  refine ⟨fun tail ht => by rw [List.append_assoc]; exact a1 _ (a2 _ ht), i1 ++ i2, fun tail l t ht hl => ?_, fun l res ps2 hl => ?_⟩
  · rw [List.append_assoc, List.append_assoc]
    exact r1 _ _ _ (a2 _ ht) (r2 _ _ _ ht hl)
  · rw [List.append_assoc, List.append_assoc]
    exact e1 _ _ _ (e2 _ _ _ hl)

theorem evalRest_cons {u : Uni} {e : Env} {f : BibleFlag} {m : Bool} {a : Ref} {l : List (Bool × Ref)} {ps ps1 ps2 : PState}
    {r : BibleRange} {res : List (Bool × BibleRange)} (h1 : evalRef u e f a (afterSep m ps) = (.ok r, ps1))
    (h2 : evalRest u e f l ps1 = (.ok res, ps2)) : evalRest u e f ((m, a) :: l) ps = (.ok ((m, r) :: res), ps2) := by
  have : evalRest u e f ((m, a) :: l) ps = (do
      evalSep m
      let x ← evalRef u e f a
      let rest ← evalRest u e f l
      return (m, x) :: rest : PM _) ps := rfl
  rw [this, PM.bind_run, evalSep_run]
  simp only [PM.bind_run, h1, h2]
  rfl

theorem Chunk.one {u : Uni} {e : Env} {flags : Option BibleFlag} (o : StrOpts) {m : Bool} {text : List Char} {a : Ref} {r : BibleRange}
    {ps ps' : PState} (h1 : ∀ rest, AfterRef e.data rest → RefRule u e.data (text ++ rest) a rest)
    (h2 : evalRef u e (e.eff flags) a (afterSep m ps) = (.ok r, ps')) :
    Chunk u e flags (listSep e.data m :: gap o ++ text) [(m, r)] ps ps' := by
  refine ⟨fun tail _ => .inr ⟨_, _, rfl, ?_⟩, [(m, a)], fun tail l t ht hl => ?_, fun l res ps2 hl => evalRest_cons h2 hl⟩
  · cases m <;> simp [listSep]
  · refine .cons (s1 := gap o ++ (text ++ tail)) ?_ (refRule_skip (skips_gap _ _) (h1 tail ht)) hl
    simp only [List.append_assoc, List.cons_append]
    exact skips_self _

theorem listSep_inj {u : Uni} {d : BibleData} (hd : PlainSeps u d) {m m' : Bool} (h : listSep d m = listSep d m') : m = m' := by
  have : d.majorListSep ≠ d.minorListSep := fun hh => hd.major (by rw [hh]; exact .head _)
  cases m <;> cases m' <;> simp_all [listSep]

section
variable {u : Uni} {e : Env} (h : e.data.WF) (hd : PlainSeps u e.data) {flags : Option BibleFlag} {o : StrOpts}
  (hg : (e.eff flags).verse0 = true → e.flags.verse0 = true)
include h hd hg

/-- A group, or what is left of it. -/
theorem group_reads (g : List BibleRange) (hall : ∀ r ∈ g, Showable u e flags o r) {s : RangeList.StrState} {ps : PState}
    (hs : Sync e.data o s ps) (hfirst : s.first = false) :
    ∃ str s' vals ps', RangeList.strGroup u e o flags s g = .ok (str, s') ∧ Chunk u e flags str vals ps ps' ∧
      Sync e.data o s' ps' ∧ s'.first = false ∧ vals.map (·.2) = g ∧
      (o.preserveGroups = true → ∀ m, s.sep = [listSep e.data m] → vals = mark m g) := by
  induction g generalizing s ps with
  | nil => exact ⟨[], s, [], ps, rfl, .nil ps, hs, hfirst, rfl, fun _ _ _ => rfl⟩
  | cons r g ih =>
    have hr := hall r (by simp)
    obtain ⟨text, s1, m, a, ps1, h1, h2, h3, h4, h5, h6, h7⟩ :=
      step_reads h hd hg hr.ok hr.multi hr.start hr.stop hr.force hs
    obtain ⟨str, s', vals, ps', k1, k2, k3, k4, k5, k6⟩ := ih (fun x hx => hall x (.tail _ hx)) h5 h6
    rw [hfirst] at h1 h4
    have hc : Chunk u e flags (sepText e.data o false m ++ text) [(m, r)] ps ps1 := .one o h3 h4
    refine ⟨_, s', _, ps', ?_, hc.append k2, k3, k4, by simp [k5], fun hp m' hm' => ?_⟩
    · unfold RangeList.strGroup
      rw [h1]
      simp only [bind, Except.bind, k1]
      rfl
    · have := h2 hfirst hp
      rw [hm'] at this
      have := listSep_inj hd (List.cons.inj this).1
      rw [this, k6 hp false h7]
      rfl

omit h hd hg in
theorem Sync.endGroup {s : RangeList.StrState} {ps : PState} (hs : Sync e.data o s ps) (hfirst : s.first = false) :
    Sync e.data o (RangeList.strEndGroup e o s) ps ∧ (RangeList.strEndGroup e o s).first = false ∧
      (o.preserveGroups = true → (RangeList.strEndGroup e o s).sep = [listSep e.data true]) := by
  unfold RangeList.strEndGroup
  by_cases hp : o.preserveGroups = true
  · rw [if_pos hp]
    obtain ⟨b, a, hb, _⟩ := hs.later hfirst
    exact ⟨⟨by simp [hfirst], fun _ => ⟨b, a, hb, .inr ⟨hp, rfl, rfl⟩⟩⟩, hfirst, fun _ => rfl⟩
  · rw [if_neg hp]
    exact ⟨hs, hfirst, fun hp' => absurd hp' hp⟩

/-- The groups after the first one. -/
theorem groups_reads (gs : RangeList) (hall : ∀ g ∈ gs, ∀ r ∈ g, Showable u e flags o r) {s : RangeList.StrState} {ps : PState}
    (hs : Sync e.data o s ps) (hfirst : s.first = false) (hsep : o.preserveGroups = true → s.sep = [listSep e.data true]) :
    ∃ str vals ps', RangeList.strGroups u e o flags s gs = .ok str ∧ Chunk u e flags str vals ps ps' ∧
      vals.map (·.2) = gs.flatten ∧ (o.preserveGroups = true → vals = gs.flatMap (mark true)) := by
  induction gs generalizing s ps with
  | nil => exact ⟨[], [], ps, rfl, .nil ps, rfl, fun _ => rfl⟩
  | cons g gs ih =>
    obtain ⟨str1, s1, v1, ps1, h1, h2, h3, h4, h5, h6⟩ := group_reads h hd hg g (hall g (by simp)) hs hfirst
    obtain ⟨k1, k2, k3⟩ := h3.endGroup h4
    obtain ⟨str2, v2, ps2, j1, j2, j3, j4⟩ := ih (fun g hg => hall g (.tail _ hg)) k1 k2 k3
    refine ⟨_, _, ps2, ?_, h2.append j2, by simp [h5, j3], fun hp => by rw [h6 hp true (hsep hp), j4 hp]; rfl⟩
    unfold RangeList.strGroups
    rw [h1]
    simp only [bind, Except.bind, j1]
    rfl

/-- A list of groups that are not empty. -/
theorem list_reads {l : RangeList} (hl : l ≠ []) (hne : ∀ g ∈ l, g ≠ []) (hall : ∀ r ∈ l.flatten, Showable u e flags o r)
    (ps : PState) :
    ∃ str l' ps', RangeList.str u e o flags l = .ok str ∧ RangeList.ofStr u e flags str ps = (.ok l', ps') ∧
      l'.flatten = l.flatten ∧ (o.preserveGroups = true → l' = l) := by
  obtain ⟨g, gs, rfl⟩ := List.exists_cons_of_ne_nil hl
  obtain ⟨r, g, rfl⟩ := List.exists_cons_of_ne_nil (hne g (by simp))
  have hall' : ∀ x ∈ (r :: g) :: gs, ∀ y ∈ x, Showable u e flags o y := fun x hx y hy => hall y (List.mem_flatten.2 ⟨x, hx, hy⟩)
  have hr := hall r (by simp)
  have hs0 : Sync e.data o RangeList.StrState.init ps := ⟨fun _ => ⟨rfl, rfl⟩, fun hh => absurd hh (by decide)⟩
  obtain ⟨text, s1, m, a, ps1, h1, -, h3, h4, h5, h6, h7⟩ :=
    step_reads h hd hg hr.ok hr.multi hr.start hr.stop hr.force hs0
  have h1 : RangeList.strStep u e o flags RangeList.StrState.init r = .ok (text, s1) := h1
  have h4 : evalRef u e (e.eff flags) a ps = (.ok r, ps1) := h4
  obtain ⟨str1, s2, v1, ps2, k1, k2, k3, k4, k5, k6⟩ :=
    group_reads h hd hg g (fun y hy => hall' (r :: g) (.head _) y (.tail _ hy)) h5 h6
  obtain ⟨i1, i2, i3⟩ := k3.endGroup k4
  obtain ⟨str2, v2, ps3, j1, j2, j3, j4⟩ := groups_reads h hd hg gs (fun x hx => hall' x (.tail _ hx)) i1 i2 i3
  obtain ⟨after, items, rule, ev⟩ := k2.append j2
  have hgroup : RangeList.strGroup u e o flags RangeList.StrState.init (r :: g) = .ok (text ++ str1, s2) := by
    unfold RangeList.strGroup
    rw [h1]
    simp only [bind, Except.bind, k1]
    rfl
  have hrule : ListRule u e.data (text ++ (str1 ++ str2)) ⟨a, items, none⟩ := by
    refine ⟨str1 ++ str2, h3 _ ?_, ?_⟩
    · simpa using after [] (.inl rfl)
    · simpa using rule [] [] none (.inl rfl) (.done (skips_self _))
  have hev : evalRest u e (e.eff flags) items ps1 = (.ok (v1 ++ v2), ps3) := by
    simpa using ev [] [] ps3 rfl
  refine ⟨text ++ (str1 ++ str2), _, _, ?_, ofStr_run hd hrule h4 hev, ?_, fun hp => ?_⟩
  · unfold RangeList.str RangeList.strGroups
    rw [hgroup]
    simp only [bind, Except.bind, j1, pure, Except.pure, List.append_assoc]
  · rw [(groupUp_ne r _).2.2]
    simp [k5, j3]
  · rw [k6 hp false h7, j4 hp]
    exact groupUp_mark r g gs fun x hx => hne x (.tail _ hx)

end
end Bibleref

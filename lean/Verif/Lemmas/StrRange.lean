import Verif.Lemmas.StrEval

/-!
# The text of a range, and how it is read
-/

namespace Bibleref
open Spec

/-! ## The text of one or two references -/

/-- The text of a range shown with these parts. -/
def refText (d : BibleData) (o : StrOpts) (p : Parts) (q : Option Parts) (r : BibleRange) : List Char :=
  verseText d o (partsShown d p r.start) r.start ++
    match q with
    | none => []
    | some q => d.rangeSep :: verseText d o (partsShown d q r.stop) r.stop

/-- Its tree. -/
def refTree (d : BibleData) (o : StrOpts) (p : Parts) (q : Option Parts) (r : BibleRange) : Ref :=
  match q with
  | none => .single (tree d o p r.start)
  | some q => .dual (tree d o p r.start) (tree d o q r.stop)

/-- Something is shown, and if it is the name then that is one. -/
def Shows (u : Uni) (d : BibleData) (o : StrOpts) (p : Parts) (v : BibleVerse) : Prop :=
  partsShown d p v ≠ ⟨false, false, false⟩ ∧ ((partsShown d p v).book = true → IsName u d (shownAs d o v.book))

theorem partsShown_book (d : BibleData) (p : Parts) (v : BibleVerse) : (partsShown d p v).book = p.book := by
  unfold partsShown; split <;> rfl

theorem partsShown_verse (d : BibleData) (p : Parts) (v : BibleVerse) : (partsShown d p v).verse = p.verse := by
  unfold partsShown; split <;> rfl

theorem shows_book {u : Uni} {d : BibleData} {o : StrOpts} {p : Parts} {v : BibleVerse} (hp : p.book = true)
    (hn : IsName u d (shownAs d o v.book)) : Shows u d o p v := by
  refine ⟨fun h => ?_, fun _ => hn⟩
  have := partsShown_book d p v
  rw [h, hp] at this
  cases this

theorem shows_verse {u : Uni} {d : BibleData} {o : StrOpts} {p : Parts} {v : BibleVerse} (hp : p.verse = true)
    (hb : p.book = false) : Shows u d o p v := by
  refine ⟨fun h => ?_, fun h => ?_⟩
  · have := partsShown_verse d p v
    rw [h, hp] at this
    cases this
  · rw [partsShown_book, hb] at h
    cases h

theorem shows_chap {u : Uni} {e : Env} (h : e.data.WF) {o : StrOpts} {p : Parts} {v : BibleVerse} (hp : p.chap = true)
    (hb : p.book = false) (hm : nChaps e.data v.book ≠ 1) : Shows u e.data o p v := by
  refine ⟨fun h' => ?_, fun h' => ?_⟩
  · rw [partsShown_multi h hm] at h'
    rw [h'] at hp
    cases hp
  · rw [partsShown_book, hb] at h'
    cases h'

section
variable {u : Uni} {d : BibleData} (hd : PlainSeps u d)
include hd

theorem verseText_clean (o : StrOpts) {p : Parts} {v : BibleVerse} (hp : p ≠ ⟨false, false, false⟩)
    (hn : p.book = true → IsName u d (shownAs d o v.book)) :
    Clean u (verseText d o p v) ∧ verseText d o p v ≠ [] ∧ (o.nospace = true → ' ' ∉ verseText d o p v) := by
  have hnum := numText_spec hd o p v
  unfold verseText
  cases hb : p.book with
  | false =>
    have : (p.chap || p.verse) = true := by
      obtain ⟨a, b, c⟩ := p
      cases a <;> cases b <;> cases c <;> first | rfl | (exact absurd rfl hp) | (cases hb)
    exact ⟨hnum.1, hnum.2.2 this, fun _ => hnum.2.1⟩
  | true =>
    have hname := isName_clean (hn hb)
    have hno : o.nospace = true → ' ' ∉ shownAs d o v.book := by
      intro h
      unfold shownAs
      rw [if_pos h]
      unfold removeBlanks
      simp
    cases hcv : p.chap || p.verse with
    | true =>
      refine ⟨Clean.around _ hname.1 hname.2 hnum.1 (hnum.2.2 hcv), by simp [hname.2], fun h => ?_⟩
      simp only [List.mem_append, not_or]
      exact ⟨⟨hno h, by simp [gap, h]⟩, hnum.2.1⟩
    | false => exact ⟨hname.1, hname.2, hno⟩

theorem refText_clean (o : StrOpts) {p : Parts} {q : Option Parts} {r : BibleRange} (hp : Shows u d o p r.start)
    (hq : ∀ x, q = some x → Shows u d o x r.stop) :
    Clean u (refText d o p q r) ∧ refText d o p q r ≠ [] ∧ (o.nospace = true → ' ' ∉ refText d o p q r) := by
  have h1 := verseText_clean hd o hp.1 hp.2
  unfold refText
  cases q with
  | none => simpa using h1
  | some q =>
    have h2 := verseText_clean hd o (hq q rfl).1 (hq q rfl).2
    have hs := sep_plain hd (c := d.rangeSep) (.head _)
    refine ⟨?_, by simp [h1.2.1], fun h => ?_⟩
    · have := Clean.around [d.rangeSep] h1.1 h1.2.1 h2.1 h2.2.1
      simpa using this
    · simp only [List.mem_append, List.mem_cons, not_or]
      refine ⟨h1.2.2 h, fun hx => ?_, h2.2.2 h⟩
      have := hs.2.1
      rw [← hx] at this
      cases this

/-- What the `str` methods do to the finished string. -/
def tidy (u : Uni) (o : StrOpts) (s : List Char) : List Char := if o.nospace then removeBlanks s else strip u s

theorem tidy_refText (o : StrOpts) {p : Parts} {q : Option Parts} {r : BibleRange} (hp : Shows u d o p r.start)
    (hq : ∀ x, q = some x → Shows u d o x r.stop) : tidy u o (refText d o p q r) = refText d o p q r := by
  obtain ⟨h1, _, h3⟩ := refText_clean hd o hp hq
  unfold tidy
  cases hns : o.nospace with
  | true => exact removeBlanks_none (h3 hns)
  | false => exact strip_clean h1

theorem tidy_blank (o : StrOpts) {p : Parts} {q : Option Parts} {r : BibleRange} (hp : Shows u d o p r.start)
    (hq : ∀ x, q = some x → Shows u d o x r.stop) : tidy u o (' ' :: refText d o p q r) = refText d o p q r := by
  obtain ⟨h1, _, h3⟩ := refText_clean hd o hp hq
  unfold tidy
  cases hns : o.nospace with
  | true => simpa [removeBlanks] using removeBlanks_none (h3 hns)
  | false =>
    simp only [Bool.false_eq_true, if_false]
    rw [strip_blank_cons, strip_clean h1]

theorem tidy_sep (o : StrOpts) (m : Bool) {p : Parts} {q : Option Parts} {r : BibleRange} (hp : Shows u d o p r.start)
    (hq : ∀ x, q = some x → Shows u d o x r.stop) :
    tidy u o (listSep d m :: ' ' :: refText d o p q r) = listSep d m :: (gap o ++ refText d o p q r) := by
  obtain ⟨h1, h2, h3⟩ := refText_clean hd o hp hq
  have hs := sep_plain hd (listSep_mem m).1
  unfold tidy gap
  cases hns : o.nospace with
  | true =>
    have := removeBlanks_none (h3 hns)
    simp only [if_true, List.nil_append]
    have hb : listSep d m ≠ ' ' := by
      intro h
      rw [h] at hs
      cases hs.2.1
    unfold removeBlanks at this ⊢
    simp only [List.filter_cons, hb, ne_eq, not_false_eq_true, decide_true, if_true, decide_false,
      Bool.false_eq_true, if_false, not_true_eq_false]
    rw [this]
  | false =>
    simp only [Bool.false_eq_true, if_false]
    have := Clean.around (u := u) [' '] (a := [listSep d m])
      (clean_of_forall fun c hc => by rw [List.mem_singleton.1 hc]; exact hs.2.1) (by simp) h1 h2
    exact strip_clean this

/-- The text is read as its tree. -/
theorem ref_rule (o : StrOpts) {p : Parts} {q : Option Parts} {r : BibleRange} (hp : Shows u d o p r.start)
    (hq : ∀ x, q = some x → Shows u d o x r.stop) {rest : List Char} (hr : AfterRef d rest) :
    RefRule u d (refText d o p q r ++ rest) (refTree d o p q r) rest := by
  unfold refText refTree
  cases q with
  | none =>
    rw [List.append_nil]
    exact .single (text_rule hd o _ _ hr hp.1 hp.2)
  | some q =>
    have h2 := text_rule hd o _ _ hr (hq q rfl).1 (hq q rfl).2
    refine .dual (s1 := d.rangeSep :: (verseText d o (partsShown d q r.stop) r.stop ++ rest)) ?_ (skips_self _) h2
    rw [List.append_assoc]
    exact text_rule hd o _ _ (.inr ⟨_, _, rfl, .head _⟩) hp.1 hp.2

omit hd in
theorem refRule_skip {s s' : List Char} {a : Ref} {rest : List Char} (hs : Skips s s') (h : RefRule u d s' a rest) :
    RefRule u d s a rest := by
  cases h with
  | single h => exact .single (singleRule_skip hs h)
  | dual h1 h2 h3 => exact .dual (singleRule_skip hs h1) h2 h3

end

/-! ## From trees to results -/

/-- A string with a known tree whose parts have known values. -/
theorem ofStr_run {u : Uni} {e : Env} (hd : PlainSeps u e.data) {flags : Option BibleFlag} {s : List Char} {a : Ref}
    {l : List (Bool × Ref)} (hs : ListRule u e.data s ⟨a, l, none⟩) {ps ps1 ps2 : PState} {r : BibleRange}
    {rs : List (Bool × BibleRange)} (ha : evalRef u e (e.eff flags) a ps = (.ok r, ps1))
    (hl : evalRest u e (e.eff flags) l ps1 = (.ok rs, ps2)) :
    RangeList.ofStr u e flags s ps = (.ok (groupUp r rs), ps2) := by
  have hp : parse u e (some (e.eff flags)) s ps = (.ok (groupUp r rs), ps2) := by
    unfold parse
    rw [tree_complete hd hs]
    simp only [Env.eff_eff]
    unfold evalTree
    rw [PM.bind_run, ha]
    simp only
    rw [PM.bind_run, hl]
    rfl
  unfold RangeList.ofStr
  rw [PM.bind_run, hp]
  simp only [ofNested_groupUp]
  rfl

section
variable {u : Uni} {e : Env} (h : e.data.WF) {flags : Option BibleFlag}
include h

theorem dual_run {a b : Single} {r x y : BibleRange} {ps ps1 ps2 : PState} (hr : ROK e.data (e.eff flags).verse0 r)
    (hm : (e.eff flags).multibook = true ∨ r.start.book = r.stop.book)
    (ha : evalSingle u e (e.eff flags) a ps = (.ok x, ps1)) (hx : x.start = r.start)
    (hb : evalSingle u e (e.eff flags) b ps1 = (.ok y, ps2)) (hy : y.stop = r.stop) :
    evalRef u e (e.eff flags) (.dual a b) ps = (.ok r, ps2) := by
  have : evalRef u e (e.eff flags) (.dual a b) ps = (evalSingle u e (e.eff flags) a >>= fun first =>
      evalSingle u e (e.eff flags) b >>= fun second => PM.lift (asParsing (BibleRange.ofArgs e (some first.start.book)
        (some first.start.chap) (some first.start.verse) (some second.stop.book) (some second.stop.chap)
        (some second.stop.verse) (some (e.eff flags))))) ps := rfl
  rw [this, PM.bind_run, ha]
  simp only
  rw [PM.bind_run, hb]
  simp only [hx, hy]
  rw [ofArgs_two_verses h hr hm]
  rfl

end

/-! ## The end of a range -/

/-- The parser keeps up with the variables of the `str` method. -/
def Track (d : BibleData) (ps : PState) (b : BibleBook) (chap : Option Int) (atVerse : Bool) : Prop :=
  ∃ c, Level d ps b c atVerse ∧ (atVerse = true → chap = some c)

/-- What is known when the start of a range has been read. -/
def AfterStart (d : BibleData) (v0 : Bool) (r : BibleRange) (ps : PState) (chap : Option Int) (atVerse : Bool) : Prop :=
  r.start.book = r.stop.book → Level d ps r.start.book r.start.chap atVerse ∧ (atVerse = true → chap = some r.start.chap) ∧
    (atVerse = false → ToBook d v0 r ∨ ToChap d v0 r ∨ chap ≠ some r.stop.chap)

section
variable {u : Uni} {e : Env} (h : e.data.WF) {flags : Option BibleFlag} {o : StrOpts} {r : BibleRange}
  (hg : (e.eff flags).verse0 = true → e.flags.verse0 = true) (hr : ROK e.data (e.eff flags).verse0 r)
  (hn : NameReads u e.data o r.stop.book)
include h hg hr

theorem isDual_eq : RangeList.isDual e flags r = .ok (decide (¬ OneBook e.data (e.eff flags).verse0 r ∧
    ¬ OneChap e.data (e.eff flags).verse0 r ∧ r.start ≠ r.stop)) := by
  have hr' : ROK e.data true r := ⟨hr.s.mono, hr.t.mono, hr.le⟩
  unfold RangeList.isDual
  rw [isWholeBook_eq h hg, isWholeChap_eq h hg hr']
  simp only [bind, Except.bind, pure, Except.pure]
  change (if decide (OneBook e.data (e.eff flags).verse0 r) = true then _ else if decide (OneChap e.data (e.eff flags).verse0 r) = true then _ else _) = _
  by_cases h1 : OneBook e.data (e.eff flags).verse0 r
  · simp [h1]
  · by_cases h2 : OneChap e.data (e.eff flags).verse0 r
    · simp [h1, h2]
    · simp [h1, h2, BibleRange.isSingleVerse]

/-- The parts shown of the end, and what is carried on: by cases. -/
theorem strStop_eq (chap : Option Int) (atVerse : Bool) : RangeList.strStop e flags chap atVerse r = .ok (
    if ToBook e.data (e.eff flags).verse0 r then (.BOOK, none, false)
    else if ToChap e.data (e.eff flags).verse0 r ∧ (r.start.book = r.stop.book → atVerse = false) then
      (if r.start.book = r.stop.book then .CHAP else .BOOK_CHAP, some r.stop.chap, false)
    else (if r.start.book = r.stop.book then (if chap = some r.stop.chap then .VERSE else .CHAP_VERSE) else .full,
      some r.stop.chap, true)) := by
  have hr' : ROK e.data true r := ⟨hr.s.mono, hr.t.mono, hr.le⟩
  unfold RangeList.strStop
  rw [spansEndBook_eq h hg hr', spansEndChap_eq h hg hr']
  simp only [bind, Except.bind, pure, Except.pure]
  change (if decide (ToBook e.data (e.eff flags).verse0 r) = true then _ else _) = _
  by_cases h1 : ToBook e.data (e.eff flags).verse0 r
  · simp [h1]
  · simp only [h1, decide_false, Bool.false_eq_true, if_false]
    have hdec : decide (r.stop = enChap e.data r.stop ∧ pos e.data r.start ≤ pos e.data (stChap e.data (e.eff flags).verse0 r.stop)) =
      decide (ToChap e.data (e.eff flags).verse0 r) := rfl
    rw [hdec]
    by_cases hb : r.start.book = r.stop.book
    · have hb' : ¬ (r.stop.book ≠ r.start.book) := by simp [hb]
      rw [if_neg hb']
      by_cases h2 : ToChap e.data (e.eff flags).verse0 r <;> cases atVerse <;> simp [hb, h2]
    · have hb' : r.stop.book ≠ r.start.book := fun hh => hb hh.symm
      rw [if_pos hb']
      by_cases h2 : ToChap e.data (e.eff flags).verse0 r <;> cases atVerse <;> simp [hb, h2]

include hn

theorem stop_reads {chap : Option Int} {atVerse : Bool} {ps : PState} (hs : AfterStart e.data (e.eff flags).verse0 r ps chap atVerse) :
    ∃ q chap' atVerse', RangeList.strStop e flags chap atVerse r = .ok (q, chap', atVerse') ∧ Shows u e.data o q r.stop ∧
      ∃ y ps', evalSingle u e (e.eff flags) (tree e.data o q r.stop) ps = (.ok y, ps') ∧ y.stop = r.stop ∧
        Track e.data ps' r.stop.book chap' atVerse' := by
  rw [strStop_eq h hg hr]
  by_cases h1 : ToBook e.data (e.eff flags).verse0 r
  · simp only [h1, if_true]
    obtain ⟨ps', h2, h3⟩ := eval_book (flags := flags) h hr.t hg hn ps
    exact ⟨.BOOK, none, false, rfl, shows_book rfl hn.1, _, ps', h2, h1.1.symm, 0, h3 0, fun h => by cases h⟩
  · simp only [h1, if_false]
    by_cases h2 : ToChap e.data (e.eff flags).verse0 r ∧ (r.start.book = r.stop.book → atVerse = false)
    · have hm : nChaps e.data r.stop.book ≠ 1 := fun hm => h1 (h2.1.single hr hm)
      rw [if_pos h2]
      by_cases hb : r.start.book = r.stop.book
      · simp only [hb, if_true]
        have hl := (hs hb).1
        rw [h2.2 hb, hb] at hl
        obtain ⟨ps', h4, h5⟩ := eval_chap (u := u) (o := o) (flags := flags) h hr.t hg hm ps hl
        exact ⟨.CHAP, _, false, rfl, shows_chap h rfl rfl hm, _, ps', h4, h2.1.1.symm, 0, h5 0, fun h => by cases h⟩
      · simp only [hb, if_false]
        obtain ⟨ps', h4, h5⟩ := eval_bookChap (flags := flags) h hr.t hg hn hm ps
        exact ⟨.BOOK_CHAP, _, false, rfl, shows_book rfl hn.1, _, ps', h4, h2.1.1.symm, 0, h5 0, fun h => by cases h⟩
    · rw [if_neg h2]
      by_cases hb : r.start.book = r.stop.book
      · obtain ⟨hl, hc, hf⟩ := hs hb
        simp only [hb, if_true]
        by_cases h3 : chap = some r.stop.chap
        · have ha : atVerse = true := by
            cases ha : atVerse with
            | true => rfl
            | false =>
              rcases hf ha with hf | hf | hf
              · exact absurd hf h1
              · exact absurd ⟨hf, fun _ => ha⟩ h2
              · exact absurd h3 hf
          have := hc ha
          rw [h3] at this
          have hcc := Option.some.inj this
          rw [ha, hb, ← hcc] at hl
          obtain ⟨ps', h4, h5⟩ := eval_verse (u := u) (o := o) (flags := flags) h hr.t ps hl
          simp only [h3, if_true]
          exact ⟨.VERSE, _, true, rfl, shows_verse rfl rfl, _, ps', h4, rfl, _, h5, fun _ => rfl⟩
        · simp only [h3, if_false]
          obtain ⟨ps', h4, h5⟩ := eval_chapVerse (u := u) (o := o) (flags := flags) h hr.t ps (by rw [hl.1, hb])
          exact ⟨.CHAP_VERSE, _, true, rfl, shows_verse rfl rfl, _, ps', h4, rfl, _, h5, fun _ => rfl⟩
      · simp only [hb, if_false]
        obtain ⟨ps', h4, h5⟩ := eval_full (flags := flags) h hr.t hn ps
        exact ⟨.full, _, true, rfl, shows_book rfl hn.1, _, ps', h4, rfl, _, h5, fun _ => rfl⟩

end

end Bibleref

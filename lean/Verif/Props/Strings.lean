import Verif.Lemmas.StrRange
import Verif.Props.Names
import Verif.Props.Grammar

/-!
# Strings of references, read back (C40, C41)

`NameReads` is about the names of the books involved; `default_nameReads` proves it for the default names.
-/

namespace Bibleref
open Spec

/-! ## The default names -/

section
variable (u : Uni) {s : List Char} (hs : ∀ c ∈ s, c.toNat < 128)
include hs

theorem shape_ascii : shape u s = shape exampleUni s := by
  induction s with
  | nil => rfl
  | cons c s ih =>
    have hc := hs c List.mem_cons_self
    have := ih fun c h => hs c (List.mem_cons_of_mem _ h)
    unfold shape isSpace foldChar
    simp [hc, this]

theorem isName_ascii {d : BibleData} (h : IsName exampleUni d s) : IsName u d s := by
  obtain ⟨c, mid, x, rfl, h1, h2, h3, h4, h5⟩ := h
  have hsp : ∀ y ∈ c :: (mid ++ [x]), isSpace u y = isSpace exampleUni y := fun y hy => by
    unfold isSpace; simp [hs y hy]
  have hw : ∀ y ∈ c :: (mid ++ [x]), isWord u y = isWord exampleUni y := fun y hy => by
    unfold isWord; simp [hs y hy]
  refine ⟨c, mid, x, rfl, by rw [hw c (.head _)]; exact h1, fun y hy => ?_, h3, by rw [hsp x (by simp)]; exact h4, h5⟩
  rw [hsp y (by simp [hy]), hw y (by simp [hy])]
  exact h2 y hy

end

/-- The combinations of options and book for which the name shown is recognised. -/
def goodName (short nospace : Bool) (b : BibleBook) : Bool := !(nospace && !short && decide (b = .Song))

theorem defaultNames_shown : (BibleBook.all.all fun b => [false, true].all fun short => [false, true].all fun nospace =>
    !goodName short nospace b || match defaultNameData b with
    | none => false
    | some n =>
      let s := shownAs defaultData ⟨short, false, nospace, false, false⟩ b
      s.all (fun c => decide (c.toNat < 128)) && decide (lexName exampleUni defaultData s = some (s, [])) &&
        ((nameRx n).lang lower).contains (trim (shape exampleUni s))) = true := by
  decide +kernel

theorem default_nameReads (u : Uni) (o : StrOpts) (b : BibleBook) (h : ¬ (o.nospace = true ∧ o.short = false ∧ b = .Song)) :
    NameReads u defaultData o b := by
  have ht := defaultNames_shown
  simp only [List.all_eq_true, Bool.or_eq_true, Bool.not_eq_true', goodName] at ht
  have hb := ht b b.mem_all o.short (by cases o.short <;> simp) o.nospace (by cases o.nospace <;> simp)
  have hg : (!(o.nospace && !o.short && decide (b = .Song))) = true := by
    simp only [Bool.not_eq_true', Bool.and_eq_false_iff, decide_eq_false_iff_not]
    cases h1 : o.nospace <;> cases h2 : o.short <;> simp
    intro h3; exact h ⟨h1, h2, h3⟩
  rw [hg] at hb
  obtain ⟨n, hn, _, ha⟩ := defaultNames b
  simp only [hn, Bool.true_eq_false, false_or, Bool.and_eq_true, List.all_eq_true, decide_eq_true_eq,
    List.contains_iff_mem] at hb
  have hso : shownAs defaultData ⟨o.short, false, o.nospace, false, false⟩ b = shownAs defaultData o b := rfl
  rw [hso] at hb
  refine ⟨isName_ascii u hb.1.1 (lexName_iff.1 hb.1.2).1, ?_⟩
  rw [C46_from_str]
  refine ⟨n, hn, ?_⟩
  rw [← lang_nameRx, Rx.lang_ascii u ha, shape_ascii u hb.1.1]
  exact hb.2

/-! ## C40 -/

/-- **C40, every verse, in all its strings, is read back** as itself and as the only thing in the list, whatever was parsed
before. The names of books must be recognisable as such. -/
theorem C40_verse (u : Uni) (e : Env) (h : e.data.WF) (hd : PlainSeps u e.data) (flags : Option BibleFlag) (o : StrOpts)
    (v : BibleVerse) (hv : v ∈ canon e.data (inForce e flags).verse0) (hn : NameReads u e.data o v.book) (st : PState) :
    (RangeList.ofStr u e flags (v.str u e.data o .full) st).1 = .ok [[⟨v, v⟩]] ∧
    (BibleVerse.ofStr u e flags (v.str u e.data o .full) st).1 = .ok v := by
  have hv' : Valid e.data (e.eff flags).verse0 v := by rw [eff_eq]; exact (mem_canon h).1 hv
  have hs : Shows u e.data o .full v := shows_book rfl hn.1
  have key : (RangeList.ofStr u e flags (v.str u e.data o .full) st).1 = .ok [[⟨v, v⟩]] := by
    rw [str_eq_text hd o .full (by have := hv'.1; omega) (verse_nonneg hv') fun _ => hn.1]
    obtain ⟨ps', h1, _⟩ := eval_full (flags := flags) h hv' hn st
    have hrule := ref_rule hd o (r := ⟨v, v⟩) (q := none) hs (by simp) (rest := []) (.inl rfl)
    have := ofStr_run (u := u) (e := e) hd (flags := flags) (a := .single (tree e.data o .full v)) (l := [])
      (s := refText e.data o .full none ⟨v, v⟩) ⟨[], by rw [List.append_nil] at hrule; exact hrule, .done (skips_self _)⟩ (ps := st) h1 (rs := []) rfl
    unfold refText at this
    simp only [List.append_nil] at this
    rw [this]
    rfl
  refine ⟨key, ?_⟩
  rw [BibleVerse.ofStr_fst, key]
  simp [BibleRange.isSingleVerse]

/-- **C40 for the default Bible.** What is missing: the full title of Song of Songs without spaces, for which it is false
(`C40_counterexample`). -/
theorem C40_default_partial (u : Uni) (f : BibleFlag) (flags : Option BibleFlag) (o : StrOpts) (v : BibleVerse)
    (hv : v ∈ canon defaultData (inForce ⟨defaultData, f⟩ flags).verse0)
    (ho : ¬ (o.nospace = true ∧ o.short = false ∧ v.book = .Song)) (st : PState) :
    (RangeList.ofStr u ⟨defaultData, f⟩ flags (v.str u defaultData o .full) st).1 = .ok [[⟨v, v⟩]] ∧
    (BibleVerse.ofStr u ⟨defaultData, f⟩ flags (v.str u defaultData o .full) st).1 = .ok v :=
  C40_verse u ⟨defaultData, f⟩ defaultData_wf (default_plainSeps u) flags o v hv (default_nameReads u o v.book ho) st

/-- Without spaces, the string of a verse of Song of Songs is not recognised. -/
theorem C40_counterexample :
    (⟨.Song, 1, 1⟩ : BibleVerse) ∈ canon defaultData false ∧
    (⟨.Song, 1, 1⟩ : BibleVerse).str exampleUni defaultData ⟨false, false, true, true, false⟩ .full = "SongofSongs1:1".toList ∧
    (BibleVerse.ofStr exampleUni dflt none "SongofSongs1:1".toList PState.init).1 = .error .parsing := by
  refine ⟨(mem_canon defaultData_wf).2 (by decide +kernel), by decide +kernel, by decide +kernel⟩

example : (⟨.IJn, 4, 8⟩ : BibleVerse) ∈ canon dflt.data (inForce dflt none).verse0 ∧
    NameReads exampleUni dflt.data ⟨true, true, true, true, false⟩ .IJn ∧
    (⟨.IJn, 4, 8⟩ : BibleVerse).str exampleUni dflt.data ⟨true, true, true, true, false⟩ .full = "1Jn4.8".toList := by
  refine ⟨(mem_canon defaultData_wf).2 (by decide +kernel), default_nameReads _ _ _ (by decide), by decide +kernel⟩

example : (⟨.Jude, 1, 7⟩ : BibleVerse) ∈ canon dflt.data (inForce dflt none).verse0 ∧
    (⟨.Jude, 1, 7⟩ : BibleVerse).str exampleUni dflt.data .default .full = "Jude 7".toList := by
  refine ⟨(mem_canon defaultData_wf).2 (by decide +kernel), by decide +kernel⟩

/-! ## C41 -/

section
variable {u : Uni} {e : Env} (h : e.data.WF) {flags : Option BibleFlag} {o : StrOpts} {r : BibleRange}
  (hg : (e.eff flags).verse0 = e.flags.verse0) (hr : ROK e.data (e.eff flags).verse0 r)
include h hg hr

theorem range_strStart_eq : BibleRange.strStart e o r = .ok (
    if FromBook e.data (e.eff flags).verse0 r then (.BOOK, false)
    else if FromChap e.data (e.eff flags).verse0 r then
      (if o.forceStartVerses = true ∧ ¬ ToChap e.data (e.eff flags).verse0 r then (.full, true) else (.BOOK_CHAP, false))
    else (.full, true)) := by
  have hr' : ROK e.data true r := ⟨hr.s.mono, hr.t.mono, hr.le⟩
  have hv : (e.eff none).verse0 = (e.eff flags).verse0 := hg.symm
  unfold BibleRange.strStart
  rw [spansStartBook_eq h (flags := none) (fun h => h) hr', spansStartChap_eq h (flags := none) (fun h => h) hr',
    spansEndChap_eq h (flags := none) (fun h => h) hr', hv]
  have e1 : decide (r.start = stBook e.data (e.eff flags).verse0 r.start ∧ pos e.data (enBook e.data r.start) ≤ pos e.data r.stop) =
    decide (FromBook e.data (e.eff flags).verse0 r) := rfl
  have e2 : decide (r.start = stChap e.data (e.eff flags).verse0 r.start ∧ pos e.data (enChap e.data r.start) ≤ pos e.data r.stop) =
    decide (FromChap e.data (e.eff flags).verse0 r) := rfl
  have e3 : decide (r.stop = enChap e.data r.stop ∧ pos e.data r.start ≤ pos e.data (stChap e.data (e.eff flags).verse0 r.stop)) =
    decide (ToChap e.data (e.eff flags).verse0 r) := rfl
  rw [e1, e2, e3]
  simp only [bind, Except.bind, pure, Except.pure]
  by_cases h1 : FromBook e.data (e.eff flags).verse0 r <;> by_cases h2 : FromChap e.data (e.eff flags).verse0 r <;>
    by_cases h3 : ToChap e.data (e.eff flags).verse0 r <;> cases o.forceStartVerses <;> simp [h1, h2, h3]

theorem range_strStop_eq (h1 : ¬ OneBook e.data (e.eff flags).verse0 r) (h2 : ¬ OneChap e.data (e.eff flags).verse0 r)
    (atVerse : Bool) {q : Parts} {chap' : Option Int} {atVerse' : Bool}
    (hq : RangeList.strStop e flags (some r.start.chap) atVerse r = .ok (q, chap', atVerse')) :
    BibleRange.strStop e flags atVerse r = .ok q := by
  have hr' : ROK e.data true r := ⟨hr.s.mono, hr.t.mono, hr.le⟩
  have hg' : (e.eff flags).verse0 = true → e.flags.verse0 = true := fun h => hg ▸ h
  rw [strStop_eq h hg' hr] at hq
  unfold BibleRange.strStop
  rw [spansEndBook_eq h hg' hr', spansEndChap_eq h hg' hr']
  have e1 : decide (r.stop = enBook e.data r.stop ∧ pos e.data r.start ≤ pos e.data (stBook e.data (e.eff flags).verse0 r.stop)) =
    decide (ToBook e.data (e.eff flags).verse0 r) := rfl
  have e3 : decide (r.stop = enChap e.data r.stop ∧ pos e.data r.start ≤ pos e.data (stChap e.data (e.eff flags).verse0 r.stop)) =
    decide (ToChap e.data (e.eff flags).verse0 r) := rfl
  rw [e1, e3]
  simp only [bind, Except.bind, pure, Except.pure]
  by_cases hb : r.start.book = r.stop.book
  · have h3 : ¬ ToBook e.data (e.eff flags).verse0 r := fun hf => h1 (hf.same h hr hb)
    have hb' : ¬ (r.stop.book ≠ r.start.book) := by simp [hb]
    rw [if_neg hb']
    by_cases hc : r.start.chap = r.stop.chap
    · have h4 : ¬ ToChap e.data (e.eff flags).verse0 r := fun hf => h2 (hf.same h hr hb hc)
      cases atVerse <;> simp [h3, h4, hb, hc, Parts.VERSE, Parts.full] at hq ⊢ <;> exact hq.1
    · by_cases h4 : ToChap e.data (e.eff flags).verse0 r <;> cases atVerse <;>
        simp [h3, h4, hb, hc, Parts.CHAP, Parts.CHAP_VERSE, Parts.BOOK_CHAP, Parts.full] at hq ⊢ <;> exact hq.1
  · have hb' : r.stop.book ≠ r.start.book := fun hh => hb hh.symm
    rw [if_pos hb']
    by_cases h3 : ToBook e.data (e.eff flags).verse0 r <;> by_cases h4 : ToChap e.data (e.eff flags).verse0 r <;>
      cases atVerse <;> simp [h3, h4, hb, Parts.BOOK, Parts.BOOK_CHAP, Parts.full] at hq ⊢ <;> exact hq.1

/-- The start of a range, read. -/
theorem range_start_reads (hn : NameReads u e.data o r.start.book) (ps : PState) :
    ∃ p atVerse, BibleRange.strStart e o r = .ok (p, atVerse) ∧ p.book = true ∧
      ∃ x ps', evalSingle u e (e.eff flags) (tree e.data o p r.start) ps = (.ok x, ps') ∧ x.start = r.start ∧
        AfterStart e.data (e.eff flags).verse0 r ps' (some r.start.chap) atVerse ∧
        (RangeList.isDual e flags r = .ok false → x = r) := by
  have hg' : (e.eff flags).verse0 = true → e.flags.verse0 = true := fun h => hg ▸ h
  rw [range_strStart_eq h hg hr, isDual_eq h hg' hr]
  have hnd : ∀ {q : Prop}, (Except.ok (ε := PyErr) (decide (¬ OneBook e.data (e.eff flags).verse0 r ∧
      ¬ OneChap e.data (e.eff flags).verse0 r ∧ r.start ≠ r.stop)) = .ok false →
      (OneBook e.data (e.eff flags).verse0 r ∨ OneChap e.data (e.eff flags).verse0 r ∨ r.start = r.stop → q) → q) := by
    intro q hd hq
    simp only [Except.ok.injEq, decide_eq_false_iff_not] at hd
    exact hq (by grind)
  by_cases h1 : FromBook e.data (e.eff flags).verse0 r
  · obtain ⟨ps', h2, h3⟩ := eval_book (flags := flags) h hr.s hg' hn ps
    refine ⟨.BOOK, false, by simp [h1], rfl, _, ps', h2, h1.1.symm, fun hb => ⟨h3 _, by simp, fun _ => ?_⟩, fun hd => ?_⟩
    · exact .inl ((h1.same h hr hb).from).2
    · have hb : r.start.book = r.stop.book := hnd hd fun
        | .inl ho => by rw [ho.2]; rfl
        | .inr (.inl ho) => by rw [ho.2]; rfl
        | .inr (.inr ho) => by rw [ho]
      have := h1.same h hr hb
      rw [← this.1, ← this.2]
  · by_cases h2 : FromChap e.data (e.eff flags).verse0 r
    · have hm : nChaps e.data r.start.book ≠ 1 := fun hm => h1 (h2.single hr hm)
      have hone : OneBook e.data (e.eff flags).verse0 r ∨ OneChap e.data (e.eff flags).verse0 r ∨ r.start = r.stop →
          OneChap e.data (e.eff flags).verse0 r := by
        rintro (ho | ho | ho)
        · exact absurd ho.from.1 h1
        · exact ho
        · exact h2.same h hr (by rw [ho]) (by rw [ho])
      by_cases h3 : o.forceStartVerses = true ∧ ¬ ToChap e.data (e.eff flags).verse0 r
      · obtain ⟨ps', h4, h5⟩ := eval_full (flags := flags) h hr.s hn ps
        refine ⟨.full, true, by simp [h1, h2, h3], rfl, _, ps', h4, rfl, fun hb => ⟨h5, by simp, by simp⟩, fun hd => ?_⟩
        exact absurd (hnd hd hone).from.2 h3.2
      · obtain ⟨ps', h4, h5⟩ := eval_bookChap (flags := flags) h hr.s hg' hn hm ps
        refine ⟨.BOOK_CHAP, false, by rw [if_neg h1, if_pos h2, if_neg h3], rfl, _, ps', h4, h2.1.symm,
          fun hb => ⟨h5 _, by simp, fun _ => ?_⟩, fun hd => ?_⟩
        · by_cases hc : r.start.chap = r.stop.chap
          · exact .inr (.inl (h2.same h hr hb hc).from.2)
          · exact .inr (.inr (by simpa using hc))
        · have := hnd hd hone
          rw [← this.1, ← this.2]
    · obtain ⟨ps', h4, h5⟩ := eval_full (flags := flags) h hr.s hn ps
      refine ⟨.full, true, by simp [h1, h2], rfl, _, ps', h4, rfl, fun hb => ⟨h5, by simp, by simp⟩, fun hd => ?_⟩
      refine hnd hd fun
        | .inl ho => absurd ho.from.1 h1
        | .inr (.inl ho) => absurd ho.from.1 h2
        | .inr (.inr ho) => ?_
      have : r = ⟨r.start, r.stop⟩ := rfl
      rw [this, ← ho]

end

/-- **C41, every range, in all its strings, is read back** as itself, whatever was parsed before. The names of books must be
recognisable as such, and the flags given must agree with the global flags on verses 0, since `str` does not look at them when
it shows the start of a range (see `C41_counterexample_flags`). -/
theorem C41_range_partial (u : Uni) (e : Env) (h : e.data.WF) (hd : PlainSeps u e.data) (flags : Option BibleFlag) (o : StrOpts)
    (r : BibleRange) (hr : Allowed e.data (inForce e flags) r) (hn : NameReads u e.data o r.start.book)
    (hn' : NameReads u e.data o r.stop.book) (hg : (inForce e flags).verse0 = e.flags.verse0) (st : PState) :
    ∃ s, r.str u e o flags = .ok s ∧ (BibleRange.ofStr u e flags s st).1 = .ok r ∧
      (RangeList.ofStr u e flags s st).1 = .ok [[r]] := by
  rw [allowed_iff h, ← eff_eq] at hr
  rw [← eff_eq] at hg
  obtain ⟨hr, hm⟩ := hr
  have hg' : (e.eff flags).verse0 = true → e.flags.verse0 = true := fun h => hg ▸ h
  -- It is enough to find parts.
  have key : ∀ p q ps', r.str u e o flags = .ok (tidy u o (refText e.data o p q r)) → Shows u e.data o p r.start →
      (∀ x, q = some x → Shows u e.data o x r.stop) →
      evalRef u e (e.eff flags) (refTree e.data o p q r) st = (.ok r, ps') →
      ∃ s, r.str u e o flags = .ok s ∧ (BibleRange.ofStr u e flags s st).1 = .ok r ∧
        (RangeList.ofStr u e flags s st).1 = .ok [[r]] := by
    intro p q ps' hs hp hq hev
    rw [tidy_refText hd o hp hq] at hs
    have hrule := ref_rule hd o hp hq (rest := []) (.inl rfl)
    rw [List.append_nil] at hrule
    have hrun : ∀ f, e.eff f = e.eff flags → (RangeList.ofStr u e f (refText e.data o p q r) st).1 = .ok [[r]] := by
      intro f hf
      rw [← hf] at hev
      have := ofStr_run (u := u) (e := e) hd (flags := f) (l := []) ⟨[], hrule, .done (skips_self _)⟩ (ps := st) hev (rs := []) rfl
      rw [this]
      rfl
    refine ⟨_, hs, ?_, hrun _ rfl⟩
    rw [BibleRange.ofStr_fst, hrun _ (Env.eff_eff e flags)]
    rfl
  obtain ⟨p, atVerse, h1, hpb, x, ps1, h2, h3, h4, h5⟩ := range_start_reads (o := o) h hg hr hn st
  have hps : Shows u e.data o p r.start := shows_book hpb hn.1
  have hstart : r.start.str u e.data o p = verseText e.data o (partsShown e.data p r.start) r.start :=
    str_eq_text hd o p (by have := hr.s.1; omega) (verse_nonneg hr.s) fun _ => hn.1
  by_cases hdual : RangeList.isDual e flags r = .ok false
  · refine key p none ps1 ?_ hps (by simp) ?_
    · unfold BibleRange.str
      rw [h1, hdual]
      simp only [bind, Except.bind, pure, Except.pure, Bool.false_eq_true, if_false, hstart]
      rfl
    · rw [h5 hdual] at h2
      exact h2
  · have hd2 : RangeList.isDual e flags r = .ok true := by
      rw [isDual_eq h hg' hr] at hdual ⊢
      simp only [Except.ok.injEq, Bool.not_eq_false] at hdual ⊢
      exact hdual
    have hno : ¬ OneBook e.data (e.eff flags).verse0 r ∧ ¬ OneChap e.data (e.eff flags).verse0 r := by
      rw [isDual_eq h hg' hr] at hd2
      simp only [Except.ok.injEq, decide_eq_true_eq] at hd2
      exact ⟨hd2.1, hd2.2.1⟩
    obtain ⟨q, chap', atVerse', h6, h7, y, ps2, h8, h9, _⟩ := stop_reads h hg' hr hn' h4
    have hstop : r.stop.str u e.data o q = verseText e.data o (partsShown e.data q r.stop) r.stop :=
      str_eq_text hd o q (by have := hr.t.1; omega) (verse_nonneg hr.t) fun _ => hn'.1
    refine key p (some q) ps2 ?_ hps (by rintro x ⟨⟩; exact h7) ?_
    · unfold BibleRange.str
      rw [h1, hd2]
      simp only [bind, Except.bind, pure, Except.pure, if_true, hstart]
      rw [range_strStop_eq h hg hr hno.1 hno.2 atVerse h6]
      simp only [hstop]
      rfl
    · exact dual_run h hr hm h2 h3 h8 h9

theorem allowedBy {d : BibleData} (h : d.WF) {f : BibleFlag} {r : BibleRange} (hs : Valid d f.verse0 r.start)
    (ht : Valid d f.verse0 r.stop) (hl : bidx d r.start.book < bidx d r.stop.book ∨
      (r.start.book = r.stop.book ∧ (r.start.chap < r.stop.chap ∨ (r.start.chap = r.stop.chap ∧ r.start.verse ≤ r.stop.verse))))
    (hm : f.multibook = true ∨ r.start.book = r.stop.book) : Allowed d f r :=
  (allowed_iff h).2 ⟨⟨hs, ht, (pos_le_parts h hs ht).2 hl⟩, hm⟩

/-- **C41 for the default Bible**, with the flags as set globally or as given. What is missing: the full title of Song of Songs
without spaces (`C40_counterexample`), and flags that disagree with the global ones on verses 0 (`C41_counterexample_flags`). -/
theorem C41_default_partial (u : Uni) (f : BibleFlag) (flags : Option BibleFlag) (o : StrOpts) (r : BibleRange)
    (hr : Allowed defaultData (inForce ⟨defaultData, f⟩ flags) r)
    (ho : ¬ (o.nospace = true ∧ o.short = false ∧ (r.start.book = .Song ∨ r.stop.book = .Song)))
    (hg : (inForce ⟨defaultData, f⟩ flags).verse0 = f.verse0) (st : PState) :
    ∃ s, r.str u ⟨defaultData, f⟩ o flags = .ok s ∧ (BibleRange.ofStr u ⟨defaultData, f⟩ flags s st).1 = .ok r ∧
      (RangeList.ofStr u ⟨defaultData, f⟩ flags s st).1 = .ok [[r]] :=
  C41_range_partial u ⟨defaultData, f⟩ defaultData_wf (default_plainSeps u) flags o r hr
    (default_nameReads u o _ fun ⟨h1, h2, h3⟩ => ho ⟨h1, h2, .inl h3⟩)
    (default_nameReads u o _ fun ⟨h1, h2, h3⟩ => ho ⟨h1, h2, .inr h3⟩) hg st

/-- With `VERSE_0` set globally but not in the flags given, all of Psalm 3 without the superscription is shown as "Psalms 3:1",
which is read as that verse only. With `flags=VERSE_0` given but not set globally, showing the whole of Psalm 3 raises. -/
theorem C41_counterexample_flags :
    (Allowed defaultData (inForce ⟨defaultData, .VERSE_0⟩ (some .MULTIBOOK)) ⟨⟨.Psa, 3, 1⟩, ⟨.Psa, 3, 8⟩⟩ ∧
    (⟨⟨.Psa, 3, 1⟩, ⟨.Psa, 3, 8⟩⟩ : BibleRange).str exampleUni ⟨defaultData, .VERSE_0⟩ .default (some .MULTIBOOK) =
      .ok "Psalms 3:1".toList ∧
    (BibleRange.ofStr exampleUni ⟨defaultData, .VERSE_0⟩ (some .MULTIBOOK) "Psalms 3:1".toList PState.init).1 =
      .ok ⟨⟨.Psa, 3, 1⟩, ⟨.Psa, 3, 1⟩⟩) ∧
    Allowed defaultData (inForce dflt (some .VERSE_0)) ⟨⟨.Psa, 3, 0⟩, ⟨.Psa, 3, 8⟩⟩ ∧
    (⟨⟨.Psa, 3, 0⟩, ⟨.Psa, 3, 8⟩⟩ : BibleRange).str exampleUni dflt .default (some .VERSE_0) = .error .invalidReference := by
  refine ⟨⟨allowedBy defaultData_wf (by decide +kernel) (by decide +kernel) (by decide +kernel) (.inr rfl),
    by decide +kernel, by decide +kernel⟩,
    allowedBy defaultData_wf (by decide +kernel) (by decide +kernel) (by decide +kernel) (.inr rfl), by decide +kernel⟩

example : Allowed dflt.data (inForce dflt none) ⟨⟨.Mark, 2, 1⟩, ⟨.Mark, 3, 6⟩⟩ ∧
    NameReads exampleUni dflt.data .default .Mark ∧ (inForce dflt none).verse0 = dflt.flags.verse0 ∧
    (⟨⟨.Mark, 2, 1⟩, ⟨.Mark, 3, 6⟩⟩ : BibleRange).str exampleUni dflt .default none = .ok "Mark 2-3:6".toList := by
  refine ⟨allowedBy defaultData_wf (by decide +kernel) (by decide +kernel) (by decide +kernel) (.inr rfl),
    default_nameReads _ _ _ (by decide), rfl, by decide +kernel⟩

example : Allowed dfltAll.data (inForce dfltAll none) ⟨⟨.Mark, 2, 1⟩, ⟨.IIIJn, 1, 8⟩⟩ ∧
    (⟨⟨.Mark, 2, 1⟩, ⟨.IIIJn, 1, 8⟩⟩ : BibleRange).str exampleUni dfltAll ⟨true, false, false, true, true⟩ none =
      .ok "Mark 2:1-3Jn 8".toList := by
  refine ⟨allowedBy defaultData_wf (by decide +kernel) (by decide +kernel) (by decide +kernel) (.inl rfl),
    by decide +kernel⟩

end Bibleref

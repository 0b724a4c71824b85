import Verif.Props.Strings2
import Verif.Props.Parsing

/-!
# More about strings: range separators, lists of one range, strings in normal form
-/

namespace Bibleref
open Spec

/-! ## C55 -/

/-- A range that needs two references: it is not one verse, one whole chapter or one whole book. -/
def TwoRefs (e : Env) (flags : Option BibleFlag) (r : BibleRange) : Prop :=
  r.isSingleVerse = false ∧ r.isWholeChap e flags = .ok false ∧ r.isWholeBook e flags = .ok false

instance (e : Env) (flags : Option BibleFlag) (r : BibleRange) : Decidable (TwoRefs e flags r) := by
  unfold TwoRefs; infer_instance

theorem count_dropWhile {p : Char → Bool} {c : Char} (hc : p c = false) (s : List Char) : (s.dropWhile p).count c = s.count c := by
  induction s with
  | nil => rfl
  | cons x s ih =>
    rw [List.dropWhile_cons]
    split
    · rename_i hx
      rw [ih, List.count_cons_of_ne]
      rintro rfl
      rw [hc] at hx; cases hx
    · rfl

theorem count_tidy {u : Uni} {d : BibleData} (hd : PlainSeps u d) (o : StrOpts) (s : List Char) :
    (tidy u o s).count d.rangeSep = s.count d.rangeSep := by
  have hp := hd.plain d.rangeSep (.head _)
  have hb : d.rangeSep ≠ ' ' := by
    intro hh
    have := hp.2
    rw [hh] at this
    cases this
  unfold tidy
  split
  · unfold removeBlanks
    induction s with
    | nil => rfl
    | cons x s ih =>
      rw [List.filter_cons]
      split
      · rw [List.count_cons, List.count_cons, ih]
      · rename_i hx
        rw [ih, List.count_cons_of_ne]
        rintro rfl
        simp [hb] at hx
  · unfold strip
    rw [List.count_reverse, count_dropWhile hp.2, List.count_reverse, count_dropWhile hp.2]

theorem verse_count_sep {u : Uni} {e : Env} (hd : PlainSeps u e.data) (o : StrOpts) (p : Parts) {v0 : Bool} {v : BibleVerse}
    (hv : Valid e.data v0 v) (hn : IsName u e.data (shownAs e.data o v.book)) : (v.str u e.data o p).count e.data.rangeSep = 0 := by
  rw [str_eq_text hd o p (by have := hv.1; omega) (Int.le_trans (firstNum_nonneg _ _ _ _) hv.2.2.1) fun _ => hn, List.count_eq_zero]
  have hp := hd.plain e.data.rangeSep (.head _)
  have hdig : ∀ n, e.data.rangeSep ∉ natStr n := fun n hm => by
    have := isDigit_word (u := u) ((natStr_spec n).2.1 _ hm)
    rw [hp.1] at this; cases this
  have hname : e.data.rangeSep ∉ shownAs e.data o v.book := by
    obtain ⟨c, mid, x, h1, h2, h3, h4, h5, h6⟩ := hn
    rw [h1]
    intro hm
    simp only [List.mem_cons, List.mem_append, List.not_mem_nil, or_false] at hm
    rcases hm with hm | hm | hm
    · rw [← hm, hp.1] at h2; cases h2
    · rcases h3 _ hm with hh | hh
      · rw [hp.1] at hh; cases hh
      · rw [hp.2] at hh; cases hh
    · apply h6; rw [← hm]; simp
  have hsep : e.data.rangeSep ≠ verseSep e.data o := by
    intro hh
    apply hd.range
    rw [hh]
    unfold verseSep
    split <;> simp
  have hgap : e.data.rangeSep ∉ gap o := by
    unfold gap
    split
    · simp
    · intro hm
      simp only [List.mem_singleton] at hm
      have := hp.2
      rw [hm] at this
      cases this
  have hnum : ∀ q, e.data.rangeSep ∉ numText e.data o q v := by
    intro q
    unfold numText
    split <;> simp [hdig, hsep]
  unfold verseText
  split <;> simp [hname, hgap, hnum]

theorem isDual_iff {e : Env} {flags : Option BibleFlag} {r : BibleRange} {b : Bool} (h : RangeList.isDual e flags r = .ok b) :
    b = true ↔ TwoRefs e flags r := by
  unfold RangeList.isDual at h
  unfold TwoRefs
  cases h1 : r.isWholeBook e flags with
  | error x => rw [h1] at h; cases h
  | ok x =>
    cases h2 : r.isWholeChap e flags with
    | error y => rw [h1, h2] at h; cases x <;> simp [bind, Except.bind, pure, Except.pure] at h ⊢ <;> first | exact h | exact h.symm
    | ok y =>
      rw [h1, h2] at h
      cases x <;> cases y <;> cases h3 : r.isSingleVerse <;>
        simp [bind, Except.bind, pure, Except.pure, h3] at h ⊢ <;> first | exact h | exact h.symm

section
variable {u : Uni} {e : Env} (h : e.data.WF) (hd : PlainSeps u e.data) {flags : Option BibleFlag} {o : StrOpts}
  (hg : (e.eff flags).verse0 = true → e.flags.verse0 = true) (hp : o.preserveGroups = false)
include h hd hg hp

theorem step_count {r : BibleRange} (hr : ROK e.data (e.eff flags).verse0 r)
    (hn : IsName u e.data (shownAs e.data o r.start.book)) (hn' : IsName u e.data (shownAs e.data o r.stop.book))
    {s : RangeList.StrState} (hs : s.forceDual = false) (hsep : s.sep.count e.data.rangeSep = 0) :
    ∃ str s', RangeList.strStep u e o flags s r = .ok (str, s') ∧
      str.count e.data.rangeSep = (if TwoRefs e flags r then 1 else 0) ∧
      s'.forceDual = false ∧ s'.sep.count e.data.rangeSep = 0 := by
  have hr' : ROK e.data true r := ⟨hr.s.mono, hr.t.mono, hr.le⟩
  have hmaj : [e.data.majorListSep].count e.data.rangeSep = 0 := by
    rw [List.count_eq_zero, List.mem_singleton]
    intro hh; apply hd.range; rw [hh]; simp
  have hmin : [e.data.minorListSep].count e.data.rangeSep = 0 := by
    rw [List.count_eq_zero, List.mem_singleton]
    intro hh; apply hd.range; rw [hh]; simp
  have hblank : [' '].count e.data.rangeSep = 0 := by
    rw [List.count_eq_zero, List.mem_singleton]
    intro hh
    have := (hd.plain e.data.rangeSep (.head _)).2
    rw [hh] at this; cases this
  obtain ⟨n, hcc, _⟩ := chapCount_eq h hr' rfl
  have hstart : ∃ p sep chap av, RangeList.strStart e o flags s r = .ok (p, sep, chap, av, false) ∧
      sep.count e.data.rangeSep = 0 := by
    rw [strStart_eq h hg hr hcc, hs, hp]
    simp only [Bool.false_eq_true, if_false, true_or, if_true]
    repeat' split
    all_goals exact ⟨_, _, _, _, rfl, by first | exact hmaj | exact hsep⟩
  obtain ⟨p, sep, chap, av, h1, h2⟩ := hstart
  obtain ⟨dual, hdual⟩ : ∃ dual, RangeList.isDual e flags r = .ok dual := ⟨_, isDual_eq h hg hr⟩
  have hforce : ∃ p' av', (if o.forceStartVerses ∧ p.verse = false then do
      let endsChap ← r.spansEndChap e none
      pure (if endsChap then (p, av) else ({ p with verse := true }, true))
    else pure (p, av) : Except PyErr (Parts × Bool)) = .ok (p', av') := by
    rw [spansEndChap_eq h (flags := none) (fun hh => hh) hr']
    simp only [bind, Except.bind, pure, Except.pure]
    repeat' split
    all_goals exact ⟨_, _, rfl⟩
  obtain ⟨p', av', hforce⟩ := hforce
  have hcount : ∀ rest : List Char, (tidy u o ((if s.first then [] else sep) ++ [' '] ++ r.start.str u e.data o p' ++ rest)).count
      e.data.rangeSep = rest.count e.data.rangeSep := by
    intro rest
    rw [count_tidy hd]
    simp only [List.count_append, hblank, verse_count_sep hd o p' hr.s hn]
    split <;> simp [h2]
  have hiff := isDual_iff hdual
  unfold RangeList.strStep
  rw [h1]
  change ∃ str s', ((if o.forceStartVerses ∧ p.verse = false then _ else _ : Except PyErr (Parts × Bool)) >>= _) = _ ∧ _
  rw [hforce, hdual]
  simp only [bind, Except.bind, pure, Except.pure, Bool.false_eq_true, if_false]
  cases dual with
  | false =>
    refine ⟨_, _, rfl, ?_, rfl, hmin⟩
    rw [if_neg (c := TwoRefs e flags r) (fun hh => by have := hiff.2 hh; cases this)]
    have := hcount []
    unfold tidy at this
    exact this
  | true =>
    simp only [if_true, strStop_eq h hg hr]
    refine ⟨_, _, rfl, ?_, rfl, hmin⟩
    rw [if_pos (c := TwoRefs e flags r) (hiff.1 rfl)]
    unfold tidy at hcount
    refine (hcount _).trans ?_
    rw [List.count_cons_self, verse_count_sep hd o _ hr.t hn']

theorem group_count (g : List BibleRange) (hr : ∀ r ∈ g, ROK e.data (e.eff flags).verse0 r ∧
      IsName u e.data (shownAs e.data o r.start.book) ∧ IsName u e.data (shownAs e.data o r.stop.book))
    {s : RangeList.StrState} (hs : s.forceDual = false) (hsep : s.sep.count e.data.rangeSep = 0) :
    ∃ str s', RangeList.strGroup u e o flags s g = .ok (str, s') ∧
      str.count e.data.rangeSep = g.countP (TwoRefs e flags) := by
  induction g generalizing s with
  | nil => exact ⟨[], s, rfl, rfl⟩
  | cons r g ih =>
    obtain ⟨h1, h2, h3⟩ := hr r (.head _)
    obtain ⟨str, s', k1, k2, k3, k4⟩ := step_count h hd hg hp h1 h2 h3 hs hsep
    obtain ⟨str', s'', j1, j2⟩ := ih (fun x hx => hr x (.tail _ hx)) k3 k4
    refine ⟨str ++ str', s'', ?_, ?_⟩
    · unfold RangeList.strGroup
      rw [k1]
      simp only [bind, Except.bind, j1]
      rfl
    · rw [List.count_append, k2, j2, List.countP_cons, Nat.add_comm]
      simp

end

/-- **C55, a range separator for each range that needs two references, and no other**, in the string of a list whose groups are
not preserved. With groups preserved this is false (`C55_counterexample`). -/
theorem C55_list_partial (u : Uni) (e : Env) (h : e.data.WF) (hd : PlainSeps u e.data) (flags : Option BibleFlag) (o : StrOpts)
    (hp : o.preserveGroups = false) (l : RangeList) (hr : ∀ r ∈ l.flatten, Allowed e.data (inForce e flags) r)
    (hn : ∀ r ∈ l.flatten, IsName u e.data (shownAs e.data o r.start.book) ∧ IsName u e.data (shownAs e.data o r.stop.book))
    (hg : (inForce e flags).verse0 = true → e.flags.verse0 = true) :
    ∃ s, RangeList.str u e o flags l = .ok s ∧ s.count e.data.rangeSep = l.flatten.countP (TwoRefs e flags) := by
  rw [← eff_eq] at hg
  have hall : ∀ r ∈ l.flatten, ROK e.data (e.eff flags).verse0 r ∧
      IsName u e.data (shownAs e.data o r.start.book) ∧ IsName u e.data (shownAs e.data o r.stop.book) := by
    intro r hx
    have := hr r hx
    rw [allowed_iff h, ← eff_eq] at this
    exact ⟨this.1, hn r hx⟩
  obtain ⟨s, s', h1, h2⟩ := group_count h hd hg hp l.flatten hall (s := .init) rfl rfl
  refine ⟨s, ?_, h2⟩
  unfold RangeList.str
  rw [strGroups_flat hp, h1]
  rfl

/-- In the string of this list, which preserves the groups, the verse after "3:1-4:2" is shown as "5-5": once a whole chapter at
the beginning of a range has been shown by its first verse, every range is shown by two references. -/
theorem C55_counterexample :
    let l : RangeList := [[⟨⟨.Mark, 2, 1⟩, ⟨.Mark, 2, 28⟩⟩, ⟨⟨.Mark, 3, 1⟩, ⟨.Mark, 4, 2⟩⟩, ⟨⟨.Mark, 4, 5⟩, ⟨.Mark, 4, 5⟩⟩]]
    (∀ r ∈ l.flatten, Allowed defaultData (inForce dflt none) r) ∧
    RangeList.str exampleUni dflt .default none l = .ok "Mark 2, 3:1-4:2, 5-5".toList ∧
    ¬ TwoRefs dflt none ⟨⟨.Mark, 4, 5⟩, ⟨.Mark, 4, 5⟩⟩ := by
  refine ⟨?_, by decide +kernel, by decide +kernel⟩
  intro r hr
  refine allowedBy defaultData_wf ?_ ?_ ?_ ?_ <;> revert r <;> decide +kernel

/-- **C55, ranges.** The string of a range has one range separator if the range needs two references, else none. -/
theorem C55_range_partial (u : Uni) (e : Env) (h : e.data.WF) (hd : PlainSeps u e.data) (flags : Option BibleFlag) (o : StrOpts)
    (r : BibleRange) (hr : Allowed e.data (inForce e flags) r) (hn : IsName u e.data (shownAs e.data o r.start.book))
    (hn' : IsName u e.data (shownAs e.data o r.stop.book)) (hg : (inForce e flags).verse0 = e.flags.verse0) :
    ∃ s, r.str u e o flags = .ok s ∧ s.count e.data.rangeSep = if TwoRefs e flags r then 1 else 0 := by
  rw [← eff_eq] at hg
  rw [allowed_iff h, ← eff_eq] at hr
  obtain ⟨hr, _⟩ := hr
  have hg' : (e.eff flags).verse0 = true → e.flags.verse0 = true := fun hh => hg ▸ hh
  obtain ⟨dual, hdual⟩ : ∃ dual, RangeList.isDual e flags r = .ok dual := ⟨_, isDual_eq h hg' hr⟩
  have hiff := isDual_iff hdual
  obtain ⟨⟨p, a⟩, hs⟩ : ∃ x, BibleRange.strStart e o r = .ok x := ⟨_, range_strStart_eq h hg hr⟩
  have hrange : BibleRange.str u e o flags r = (do
      let rest ← (if dual then do
          let stopParts ← r.strStop e flags a
          pure (e.data.rangeSep :: r.stop.str u e.data o stopParts)
        else pure [] : Except PyErr (List Char))
      return tidy u o (r.start.str u e.data o p ++ rest)) := by
    unfold BibleRange.str
    rw [hs, hdual]
    rfl
  cases dual with
  | false =>
    refine ⟨_, hrange, ?_⟩
    rw [count_tidy hd, List.append_nil, verse_count_sep hd o p hr.s hn,
      if_neg (fun hh => by have := hiff.2 hh; cases this)]
  | true =>
    have hno : ¬ OneBook e.data (e.eff flags).verse0 r ∧ ¬ OneChap e.data (e.eff flags).verse0 r := by
      rw [isDual_eq h hg' hr] at hdual
      simp only [Except.ok.injEq, decide_eq_true_eq] at hdual
      exact ⟨hdual.1, hdual.2.1⟩
    obtain ⟨⟨q, c', a'⟩, hq⟩ : ∃ x, RangeList.strStop e flags (some r.start.chap) a r = .ok x := ⟨_, strStop_eq h hg' hr _ _⟩
    rw [if_pos rfl, range_strStop_eq h hg hr hno.1 hno.2 a hq] at hrange
    refine ⟨_, hrange, ?_⟩
    rw [count_tidy hd, List.count_append, List.count_cons_self, verse_count_sep hd o p hr.s hn,
      verse_count_sep hd o q hr.t hn', if_pos (hiff.1 rfl)]

example : ∃ s, RangeList.str exampleUni dflt { StrOpts.default with preserveGroups := false } none exampleList = .ok s ∧
    s.count '-' = 2 := by
  obtain ⟨s, h1, h2⟩ := C55_list_partial exampleUni dflt defaultData_wf (default_plainSeps _) none
    { StrOpts.default with preserveGroups := false } rfl exampleList exampleList_allowed
    (fun r _ => ⟨(default_nameReads exampleUni _ r.start.book (by simp [StrOpts.default])).1,
      (default_nameReads exampleUni _ r.stop.book (by simp [StrOpts.default])).1⟩) (fun h => h)
  refine ⟨s, h1, h2.trans ?_⟩
  decide +kernel

example : TwoRefs dflt none ⟨⟨.Mark, 3, 1⟩, ⟨.Mark, 4, 2⟩⟩ ∧ ¬ TwoRefs dflt none ⟨⟨.Mark, 3, 1⟩, ⟨.Mark, 3, 35⟩⟩ := by
  decide +kernel

/-! ## C56 -/

theorem tidy_cons_blank (u : Uni) (o : StrOpts) (s : List Char) : tidy u o (' ' :: s) = tidy u o s := by
  unfold tidy
  split
  · unfold removeBlanks; simp
  · unfold strip
    have : isSpace u ' ' = true := by unfold isSpace; simp
    rw [List.dropWhile_cons, if_pos this]

/-- **C56, a list of one range is shown as the range is**, when the flags given agree with the global ones about `VERSE_0` and
when, if `force_start_verses` is given, the range lies in one book. -/
theorem C56_partial (u : Uni) (e : Env) (h : e.data.WF) (flags : Option BibleFlag) (o : StrOpts) (r : BibleRange)
    (hr : Allowed e.data (inForce e flags) r) (hg : (inForce e flags).verse0 = e.flags.verse0)
    (hf : o.forceStartVerses = true → r.start.book = r.stop.book) :
    ∃ s, RangeList.str u e o flags [[r]] = .ok s ∧ r.str u e o flags = .ok s := by
  rw [← eff_eq] at hg
  rw [allowed_iff h, ← eff_eq] at hr
  obtain ⟨hr, _⟩ := hr
  have hr' : ROK e.data true r := ⟨hr.s.mono, hr.t.mono, hr.le⟩
  have hg' : (e.eff flags).verse0 = true → e.flags.verse0 = true := fun hh => hg ▸ hh
  obtain ⟨n, hcc, _⟩ := chapCount_eq h hr' rfl
  obtain ⟨dual, hdual⟩ : ∃ dual, RangeList.isDual e flags r = .ok dual := ⟨_, isDual_eq h hg' hr⟩
  have hv : (e.eff none).verse0 = (e.eff flags).verse0 := hg.symm
  have hends : r.spansEndChap e none = .ok (decide (ToChap e.data (e.eff flags).verse0 r)) := by
    rw [spansEndChap_eq h (flags := none) (fun hh => hh) hr', hv]
    rfl
  -- The two methods agree about the start.
  obtain ⟨p0, chap, a0, p, a, hs1, hs2, hs3, hchap⟩ : ∃ p0 chap a0 p a,
      RangeList.strStart e o flags .init r = .ok (p0, if o.preserveGroups then [] else [e.data.majorListSep], chap, a0, false) ∧
      (if o.forceStartVerses ∧ p0.verse = false then do
        let endsChap ← r.spansEndChap e none
        pure (if endsChap then (p0, a0) else ({ p0 with verse := true }, true))
      else pure (p0, a0) : Except PyErr (Parts × Bool)) = .ok (p, a) ∧
      BibleRange.strStart e o r = .ok (p, a) ∧
      (chap = some r.start.chap ∨ FromBook e.data (e.eff flags).verse0 r) := by
    rw [strStart_eq h hg' hr hcc, range_strStart_eq h hg hr, hends]
    by_cases h1 : FromBook e.data (e.eff flags).verse0 r
    · rw [if_pos h1, if_pos h1]
      refine ⟨_, _, _, _, _, rfl, ?_, rfl, .inr h1⟩
      split
      · rename_i hh
        have := h1.toChap h hr (hf hh.1)
        simp [this, bind, Except.bind, pure, Except.pure]
      · rfl
    · rw [if_neg h1, if_neg h1]
      by_cases h2 : FromChap e.data (e.eff flags).verse0 r
      · rw [if_pos h2, if_pos h2, if_neg (by simp [RangeList.StrState.init])]
        by_cases h3 : o.forceStartVerses = true ∧ ¬ ToChap e.data (e.eff flags).verse0 r
        · rw [if_pos h3]
          refine ⟨_, _, _, _, _, rfl, ?_, rfl, .inl rfl⟩
          simp [h3.1, h3.2, bind, Except.bind, pure, Except.pure, Parts.BOOK_CHAP, Parts.full]
        · rw [if_neg h3]
          refine ⟨_, _, _, _, _, rfl, ?_, rfl, .inl rfl⟩
          by_cases h4 : o.forceStartVerses = true
          · have h5 : ToChap e.data (e.eff flags).verse0 r := Classical.not_not.1 fun h5 => h3 ⟨h4, h5⟩
            simp [h4, h5, bind, Except.bind, pure, Except.pure, Parts.BOOK_CHAP]
          · simp [h4, pure, Except.pure]
      · rw [if_neg h2, if_neg h2, if_neg (by simp [RangeList.StrState.init])]
        refine ⟨_, _, _, _, _, rfl, ?_, rfl, .inl rfl⟩
        simp [Parts.full, pure, Except.pure]
  have hfin : ∀ x st, RangeList.strStep u e o flags .init r = .ok (x, st) → RangeList.str u e o flags [[r]] = .ok x := by
    intro x st hx
    unfold RangeList.str RangeList.strGroups RangeList.strGroup
    rw [hx]
    simp [bind, Except.bind, pure, Except.pure, RangeList.strGroup, RangeList.strGroups]
  have hstep : RangeList.strStep u e o flags .init r = (do
      let (rest, book, chap, atVerse) ← (if dual then do
          let (stopParts, chap, atVerse) ← RangeList.strStop e flags chap a r
          pure (e.data.rangeSep :: r.stop.str u e.data o stopParts, r.stop.book, chap, atVerse)
        else pure ([], r.start.book, chap, a) : Except PyErr (List Char × BibleBook × Option Int × Bool))
      return (tidy u o (' ' :: (r.start.str u e.data o p ++ rest)),
        ⟨some book, chap, atVerse, false, [e.data.minorListSep], false⟩)) := by
    unfold RangeList.strStep
    rw [hs1]
    change ((if o.forceStartVerses ∧ p0.verse = false then _ else _ : Except PyErr (Parts × Bool)) >>= _) = _
    rw [hs2, hdual]
    rfl
  have hrange : BibleRange.str u e o flags r = (do
      let rest ← (if dual then do
          let stopParts ← r.strStop e flags a
          pure (e.data.rangeSep :: r.stop.str u e.data o stopParts)
        else pure [] : Except PyErr (List Char))
      return tidy u o (r.start.str u e.data o p ++ rest)) := by
    unfold BibleRange.str
    rw [hs3, hdual]
    rfl
  simp only [tidy_cons_blank] at hstep
  cases dual with
  | false =>
    refine ⟨_, hfin _ _ hstep, ?_⟩
    rw [hrange]
    rfl
  | true =>
    have hno : ¬ OneBook e.data (e.eff flags).verse0 r ∧ ¬ OneChap e.data (e.eff flags).verse0 r := by
      rw [isDual_eq h hg' hr] at hdual
      simp only [Except.ok.injEq, decide_eq_true_eq] at hdual
      exact ⟨hdual.1, hdual.2.1⟩
    obtain ⟨⟨q, c', a'⟩, hq⟩ : ∃ x, RangeList.strStop e flags (some r.start.chap) a r = .ok x := ⟨_, strStop_eq h hg' hr _ _⟩
    have hq2 : RangeList.strStop e flags chap a r = .ok (q, c', a') := by
      rcases hchap with hc | hc
      · rw [hc]; exact hq
      · have hb : ¬ r.start.book = r.stop.book := fun hb => hno.1 (hc.same h hr hb)
        rw [strStop_eq h hg' hr] at hq ⊢
        simp only [hb, if_false] at hq ⊢
        exact hq
    have hq3 := range_strStop_eq h hg hr hno.1 hno.2 a hq
    rw [if_pos rfl, hq2] at hstep
    rw [if_pos rfl, hq3] at hrange
    exact ⟨_, hfin _ _ hstep, hrange⟩

/-- With `force_start_verses`, a range that begins with a whole book and ends within a chapter of another one is shown
differently by the two methods. -/
theorem C56_counterexample :
    let r : BibleRange := ⟨⟨.Gen, 1, 1⟩, ⟨.Exod, 3, 2⟩⟩
    let o := { StrOpts.default with forceStartVerses := true }
    Allowed defaultData (inForce dfltAll none) r ∧
    RangeList.str exampleUni dfltAll o none [[r]] = .ok "Genesis 1-Exodus 3:2".toList ∧
    r.str exampleUni dfltAll o none = .ok "Genesis-Exodus 3:2".toList := by
  refine ⟨allowedBy defaultData_wf ?_ ?_ ?_ ?_, ?_, ?_⟩ <;> decide +kernel

example : ∃ s, RangeList.str exampleUni dflt .default none [[⟨⟨.Mark, 3, 1⟩, ⟨.Mark, 4, 2⟩⟩]] = .ok s ∧
    (⟨⟨.Mark, 3, 1⟩, ⟨.Mark, 4, 2⟩⟩ : BibleRange).str exampleUni dflt .default none = .ok s :=
  C56_partial _ _ defaultData_wf _ _ _ (allowedBy defaultData_wf (by decide +kernel) (by decide +kernel) (by decide +kernel)
    (by decide +kernel)) rfl (by decide)

/-! ## C57 -/

/-- **C57, strings of what was read are a normal form.** If a string can be read as a list, then the string of that list, groups
preserved, can be read, gives the same list and so the same string again. Said of the default data; the exceptions are those of
`C42_default_partial`. -/
theorem C57_list_partial (u : Uni) (f : BibleFlag) (flags : Option BibleFlag) (o : StrOpts) (hp : o.preserveGroups = true)
    (hg : (inForce ⟨defaultData, f⟩ flags).verse0 = f.verse0)
    (s : List Char) (st st' : PState) (l : RangeList) (hs : (RangeList.ofStr u ⟨defaultData, f⟩ flags s st).1 = .ok l)
    (ho : ¬ (o.nospace = true ∧ o.short = false ∧ ∃ r ∈ l.flatten, r.start.book = .Song ∨ r.stop.book = .Song)) :
    ∃ t, RangeList.str u ⟨defaultData, f⟩ o flags l = .ok t ∧ (RangeList.ofStr u ⟨defaultData, f⟩ flags t st').1 = .ok l := by
  rcases C45_list u ⟨defaultData, f⟩ defaultData_full flags s st with hh | ⟨l', h1, h2, h3, h4⟩
  · rw [hh] at hs; cases hs
  · rw [hs] at h1
    cases h1
    obtain ⟨t, l', k1, k2, _, k3⟩ := C42_default_partial u f flags o l h2 h3 h4 ho
      (fun hh => hg ▸ hh) (fun _ => hg) st'
    exact ⟨t, k1, k3 hp ▸ k2⟩

/-- **C57, ranges.** -/
theorem C57_range_partial (u : Uni) (f : BibleFlag) (flags : Option BibleFlag) (o : StrOpts)
    (hg : (inForce ⟨defaultData, f⟩ flags).verse0 = f.verse0)
    (s : List Char) (st st' : PState) (r : BibleRange) (hs : (BibleRange.ofStr u ⟨defaultData, f⟩ flags s st).1 = .ok r)
    (ho : ¬ (o.nospace = true ∧ o.short = false ∧ (r.start.book = .Song ∨ r.stop.book = .Song))) :
    ∃ t, r.str u ⟨defaultData, f⟩ o flags = .ok t ∧ (BibleRange.ofStr u ⟨defaultData, f⟩ flags t st').1 = .ok r := by
  rcases C45_range u ⟨defaultData, f⟩ defaultData_full flags s st with hh | hh | ⟨r', h1, h2⟩
  · rw [hh] at hs; cases hs
  · rw [hh] at hs; cases hs
  · rw [hs] at h1
    cases h1
    obtain ⟨t, k1, k2, _⟩ := C41_default_partial u f flags o r h2 ho hg st'
    exact ⟨t, k1, k2⟩

/-- **C57, verses.** -/
theorem C57_verse_partial (u : Uni) (f : BibleFlag) (flags : Option BibleFlag) (o : StrOpts)
    (s : List Char) (st st' : PState) (v : BibleVerse)
    (hs : (BibleVerse.ofStr u ⟨defaultData, f⟩ flags s st).1 = .ok v)
    (ho : ¬ (o.nospace = true ∧ o.short = false ∧ v.book = .Song)) :
    (BibleVerse.ofStr u ⟨defaultData, f⟩ flags (v.str u defaultData o .full) st').1 = .ok v := by
  rcases C45_verse u ⟨defaultData, f⟩ defaultData_full flags s st with hh | hh | ⟨v', h1, h2⟩
  · rw [hh] at hs; cases hs
  · rw [hh] at hs; cases hs
  · rw [hs] at h1
    cases h1
    exact (C40_default_partial u f flags o v h2 ho st').2

/-- The first verse of "SongofSongs1:1" cannot be read, though it is the string of a verse that was: the exception in
`C57_verse_partial` is needed. -/
theorem C57_counterexample :
    (BibleVerse.ofStr exampleUni dflt none "Song of Songs 1:1".toList PState.init).1 = .ok ⟨.Song, 1, 1⟩ ∧
    (⟨.Song, 1, 1⟩ : BibleVerse).str exampleUni defaultData ⟨false, false, true, true, false⟩ .full = "SongofSongs1:1".toList ∧
    (BibleVerse.ofStr exampleUni dflt none "SongofSongs1:1".toList PState.init).1 = .error .parsing := by
  decide +kernel

example : ∃ l, (RangeList.ofStr exampleUni dflt none " Mk 2-3.6 ;4,jude;".toList PState.init).1 = .ok l ∧
    RangeList.str exampleUni dflt .default none l = .ok "Mark 2-3:6; 4, Jude".toList := by
  refine ⟨[[⟨⟨.Mark, 2, 1⟩, ⟨.Mark, 3, 6⟩⟩], [⟨⟨.Mark, 4, 1⟩, ⟨.Mark, 4, 41⟩⟩, ⟨⟨.Jude, 1, 1⟩, ⟨.Jude, 1, 25⟩⟩]], ?_⟩
  decide +kernel

end Bibleref

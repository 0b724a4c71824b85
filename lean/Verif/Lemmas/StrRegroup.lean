import Verif.Lemmas.StrList

/-!
# Regrouping agrees with the grouping of `str`
-/

namespace Bibleref
open Spec

/-- What links the variables of `str` with and without preserved groups before a range; `head` says whether the range begins a
group. -/
structure Same (d : BibleData) (head : Bool) (s t : RangeList.StrState) : Prop where
  first : s.first = t.first
  book : s.book = t.book
  chap : s.chap = t.chap
  dual : s.forceDual = false ∧ t.forceDual = false
  begin : t.first = true → t.book = none
  later : t.first = false → t.sep = [d.minorListSep] ∧ if head then s.sep = [d.majorListSep] ∧ s.atVerse = false else s = t

section
variable {u : Uni} {e : Env} (h : e.data.WF) {flags : Option BibleFlag} {o o' : StrOpts} {r : BibleRange}
  (hg : (e.eff flags).verse0 = e.flags.verse0) (hr : ROK e.data (e.eff flags).verse0 r)
include h hg hr

/-- The three loops begin alike. -/
theorem start_same (hp : o.preserveGroups = true) (hp' : o'.preserveGroups = false) {head : Bool} {s t : RangeList.StrState}
    (hs : Same e.data head s t) {chap : Option Int} {atVerse showStart : Bool}
    (hh : RangeList.regroupStart e flags ⟨t.book, t.chap, t.atVerse⟩ r = .ok (head, chap, atVerse, showStart)) :
    ∃ p sep sep', RangeList.strStart e o flags s r = .ok (p, sep, chap, atVerse, false) ∧
      RangeList.strStart e o' flags t r = .ok (p, sep', chap, atVerse, false) ∧ (t.first = false → sep = sep') ∧
      p.verse = showStart ∧ (showStart = false → FromChap e.data (e.eff flags).verse0 r ∧ atVerse = false) := by
  have hr' : ROK e.data true r := ⟨hr.s.mono, hr.t.mono, hr.le⟩
  have hg' : (e.eff flags).verse0 = true → e.flags.verse0 = true := fun h => hg ▸ h
  obtain ⟨n, hn, _⟩ := chapCount_eq h hr' rfl
  rw [strStart_eq h hg' hr hn, strStart_eq h hg' hr hn, hs.book]
  unfold RangeList.regroupStart at hh
  rw [spansStartBook_eq h hg' hr', spansStartChap_eq h hg' hr', hn] at hh
  simp only [bind, Except.bind, pure, Except.pure] at hh
  have e1 : decide (r.start = stBook e.data (e.eff flags).verse0 r.start ∧ pos e.data (enBook e.data r.start) ≤ pos e.data r.stop) =
    decide (FromBook e.data (e.eff flags).verse0 r) := rfl
  have e2 : decide (r.start = stChap e.data (e.eff flags).verse0 r.start ∧ pos e.data (enChap e.data r.start) ≤ pos e.data r.stop) =
    decide (FromChap e.data (e.eff flags).verse0 r) := rfl
  rw [e1, e2] at hh
  simp only [hp, hp', if_true, Bool.false_eq_true, if_false]
  have hsep : head = true → t.first = false → s.sep = [e.data.majorListSep] := fun hx hy => by
    have := (hs.later hy).2; rw [if_pos hx] at this; exact this.1
  by_cases h1 : FromBook e.data (e.eff flags).verse0 r
  · simp only [h1, decide_true, if_true] at hh ⊢
    cases hh
    exact ⟨_, _, _, by rw [hs.dual.1], by rw [hs.dual.2], hsep rfl, rfl, fun _ => ⟨h1.fromChap h hr, rfl⟩⟩
  · simp only [h1, decide_false, if_false, Bool.false_eq_true] at hh ⊢
    by_cases h2 : FromChap e.data (e.eff flags).verse0 r
    · simp only [h2, decide_true, if_true] at hh ⊢
      cases hh
      by_cases h3 : t.book = some r.start.book
      · have hfirst : t.first = false := by
          cases hx : t.first with
          | false => rfl
          | true => rw [hs.begin hx] at h3; cases h3
        simp only [h3, hsep rfl hfirst, if_true, true_or, or_true]
        exact ⟨_, _, _, by rw [hs.dual.1], by rw [hs.dual.2], fun _ => rfl, rfl, by simp⟩
      · simp only [h3, if_false]
        exact ⟨_, _, _, by rw [hs.dual.1], by rw [hs.dual.2], hsep rfl, rfl, by simp⟩
    · simp only [h2, decide_false, if_false, Bool.false_eq_true] at hh ⊢
      by_cases h3 : t.book = some r.start.book
      · have hfirst : t.first = false := by
          cases hx : t.first with
          | false => rfl
          | true => rw [hs.begin hx] at h3; cases h3
        simp only [h3, if_true] at hh ⊢
        by_cases h4 : t.atVerse = true ∧ t.chap = some r.start.chap ∧ ¬ (n : Int) > 1
        · rw [if_neg (by simp [h4.1, h4.2.1])] at hh
          simp only [h4.2.2, decide_false] at hh
          cases hh
          obtain ⟨h5, h6⟩ := hs.later hfirst
          simp only [Bool.false_eq_true, if_false] at h6
          subst h6
          exact ⟨_, _, _, by rw [if_pos h4, hs.dual.1], by rw [if_pos h4, hs.dual.1], fun _ => rfl, rfl, by simp⟩
        · have hhead : head = true ∧ chap = some r.start.chap ∧ atVerse = true ∧ showStart = true := by
            split at hh
            · cases hh; exact ⟨rfl, rfl, rfl, rfl⟩
            · rename_i h5
              simp only [not_or, Bool.not_eq_false, Classical.not_not] at h5
              have : (n : Int) > 1 := by
                refine Classical.byContradiction fun h6 => h4 ⟨h5.1, h5.2, h6⟩
              simp only [this, decide_true] at hh
              cases hh; exact ⟨rfl, rfl, rfl, rfl⟩
          obtain ⟨rfl, rfl, rfl, rfl⟩ := hhead
          obtain ⟨h5, h6⟩ := hs.later hfirst
          simp only [if_true] at h6
          rw [if_neg h4, if_neg (by rw [h6.2]; simp)]
          exact ⟨_, _, _, by rw [hs.dual.1], by rw [hs.dual.2], fun _ => h6.1, rfl, by simp⟩
      · simp only [h3, if_false] at hh ⊢
        cases hh
        exact ⟨_, _, _, by rw [hs.dual.1], by rw [hs.dual.2], hsep rfl, rfl, by simp⟩

omit h hg hr in
theorem step_same_str (ho : o' = { o with preserveGroups := false }) {s t : RangeList.StrState} (hs : s.first = t.first)
    {p : Parts} {sep sep' : List Char} {chap : Option Int} {atVerse fd : Bool}
    (h1 : RangeList.strStart e o flags s r = .ok (p, sep, chap, atVerse, fd))
    (h2 : RangeList.strStart e o' flags t r = .ok (p, sep', chap, atVerse, fd)) (h3 : t.first = false → sep = sep') :
    RangeList.strStep u e o flags s r = RangeList.strStep u e o' flags t r := by
  unfold RangeList.strStep
  rw [h1, h2, hs]
  subst ho
  cases hf : t.first with
  | true => rfl
  | false => rw [h3 hf]; rfl

theorem regroupStop_eq (atVerse : Bool) : RangeList.regroupStop e flags atVerse r = .ok (
    if ToBook e.data (e.eff flags).verse0 r then ⟨some r.stop.book, none, false⟩
    else if ToChap e.data (e.eff flags).verse0 r ∧ (r.start.book = r.stop.book → atVerse = false) then
      ⟨some r.stop.book, some r.stop.chap, false⟩
    else ⟨some r.stop.book, some r.stop.chap, true⟩) := by
  have hr' : ROK e.data true r := ⟨hr.s.mono, hr.t.mono, hr.le⟩
  have hg' : (e.eff flags).verse0 = true → e.flags.verse0 = true := fun h => hg ▸ h
  unfold RangeList.regroupStop
  rw [spansEndBook_eq h hg' hr', spansEndChap_eq h hg' hr']
  simp only [bind, Except.bind, pure, Except.pure]
  change (if decide (ToBook e.data (e.eff flags).verse0 r) = true then _ else _) = _
  by_cases h1 : ToBook e.data (e.eff flags).verse0 r
  · simp [h1]
  · simp only [h1, decide_false, Bool.false_eq_true, if_false]
    have hdec : decide (r.stop = enChap e.data r.stop ∧ pos e.data r.start ≤ pos e.data (stChap e.data (e.eff flags).verse0 r.stop)) =
      decide (ToChap e.data (e.eff flags).verse0 r) := rfl
    rw [hdec]
    by_cases hb : r.start.book = r.stop.book
    · have hb' : ¬ (r.stop.book ≠ r.start.book) := by simp [hb]
      rw [if_neg hb']
      by_cases h2 : ToChap e.data (e.eff flags).verse0 r <;> cases atVerse <;> simp [hb, h2]
    · have hb' : r.stop.book ≠ r.start.book := fun hh => hb hh.symm
      rw [if_pos hb']
      by_cases h2 : ToChap e.data (e.eff flags).verse0 r <;> cases atVerse <;> simp [hb, h2]

/-- The state after a range is that of regrouping. -/
theorem step_state {s : RangeList.StrState} {p : Parts} {sep : List Char} {chap : Option Int} {atVerse : Bool}
    (h1 : RangeList.strStart e o flags s r = .ok (p, sep, chap, atVerse, false)) {gs g : RangeList.GroupState} {head : Bool}
    (h2 : RangeList.regroupStart e flags gs r = .ok (head, chap, atVerse, p.verse))
    (h3 : p.verse = false → FromChap e.data (e.eff flags).verse0 r ∧ atVerse = false)
    (hh : RangeList.regroupStep e flags gs r = .ok (head, g)) :
    ∃ str, RangeList.strStep u e o flags s r = .ok (str, ⟨g.book, g.chap, g.atVerse, false, [e.data.minorListSep], false⟩) := by
  have hr' : ROK e.data true r := ⟨hr.s.mono, hr.t.mono, hr.le⟩
  have hg' : (e.eff flags).verse0 = true → e.flags.verse0 = true := fun h => hg ▸ h
  have hend : r.spansEndChap e none = .ok (decide (ToChap e.data (e.eff flags).verse0 r)) := by
    have hv : (e.eff none).verse0 = (e.eff flags).verse0 := hg.symm
    rw [spansEndChap_eq h (flags := none) (fun hh => hh) hr', hv]
    rfl
  unfold RangeList.regroupStep at hh
  unfold RangeList.strStep
  rw [h2, hend, isDual_eq h hg' hr] at hh
  rw [h1, hend, isDual_eq h hg' hr]
  simp only [bind, Except.bind, pure, Except.pure, Bool.false_eq_true, if_false] at hh ⊢
  have hone : ¬ (¬ OneBook e.data (e.eff flags).verse0 r ∧ ¬ OneChap e.data (e.eff flags).verse0 r ∧ r.start ≠ r.stop) →
      FromChap e.data (e.eff flags).verse0 r → ToChap e.data (e.eff flags).verse0 r := by
    intro hd hf
    by_cases h4 : OneBook e.data (e.eff flags).verse0 r
    · exact h4.from.1.toChap h hr (by rw [h4.2]; rfl)
    · by_cases h5 : OneChap e.data (e.eff flags).verse0 r
      · exact h5.from.2
      · have h6 : r.start = r.stop := Classical.byContradiction fun h6 => hd ⟨h4, h5, h6⟩
        exact (hf.same h hr (by rw [h6]) (by rw [h6])).from.2
  by_cases hd : ¬ OneBook e.data (e.eff flags).verse0 r ∧ ¬ OneChap e.data (e.eff flags).verse0 r ∧ r.start ≠ r.stop
  · simp only [hd, not_false_eq_true, ne_eq, and_self, decide_true, if_true] at hh ⊢
    cases hv : p.verse with
    | true =>
      simp only [hv, if_true, regroupStop_eq h hg hr, Except.ok.injEq, Prod.mk.injEq, true_and] at hh
      simp only [Bool.true_eq_false, and_false, if_false, strStop_eq h hg' hr]
      subst hh
      by_cases h4 : ToBook e.data (e.eff flags).verse0 r
      · simp only [h4, if_true]; exact ⟨_, rfl⟩
      · simp only [h4, if_false]
        by_cases h5 : ToChap e.data (e.eff flags).verse0 r ∧ (r.start.book = r.stop.book → atVerse = false)
        · simp only [if_pos h5]; exact ⟨_, rfl⟩
        · simp only [if_neg h5]; exact ⟨_, rfl⟩
    | false =>
      obtain ⟨h4, rfl⟩ := h3 hv
      simp only [hv, Bool.false_eq_true, if_false, regroupStop_eq h hg hr] at hh
      by_cases h5 : ToChap e.data (e.eff flags).verse0 r
      · simp only [h5, decide_true, if_true, true_and, implies_true, Except.ok.injEq, Prod.mk.injEq] at hh ⊢
        subst hh
        by_cases hf : o.forceStartVerses = true
        · simp only [hf, and_self, if_true, strStop_eq h hg' hr]
          by_cases h6 : ToBook e.data (e.eff flags).verse0 r
          · simp only [h6, if_true]; exact ⟨_, rfl⟩
          · simp only [h6, if_false, h5, implies_true, and_self, if_true]; exact ⟨_, rfl⟩
        · simp only [hf, and_true, Bool.false_eq_true, if_false, strStop_eq h hg' hr]
          by_cases h6 : ToBook e.data (e.eff flags).verse0 r
          · simp only [h6, if_true]; exact ⟨_, rfl⟩
          · simp only [h6, if_false, h5, implies_true, and_self, if_true]; exact ⟨_, rfl⟩
      · simp only [h5, decide_false, Bool.false_eq_true, if_false, false_and, Except.ok.injEq, Prod.mk.injEq, true_and] at hh ⊢
        subst hh
        by_cases hf : o.forceStartVerses = true
        · simp only [hf, and_self, if_true, strStop_eq h hg' hr]
          by_cases h6 : ToBook e.data (e.eff flags).verse0 r
          · simp only [h6, if_true]; exact ⟨_, rfl⟩
          · simp only [h6, if_false, h5, false_and]; exact ⟨_, rfl⟩
        · simp only [hf, and_true, Bool.false_eq_true, if_false, strStop_eq h hg' hr]
          by_cases h6 : ToBook e.data (e.eff flags).verse0 r
          · simp only [h6, if_true]; exact ⟨_, rfl⟩
          · simp only [h6, if_false, h5, false_and]; exact ⟨_, rfl⟩
  · have hone := hone hd
    simp only [hd, decide_false, Bool.false_eq_true, if_false] at hh ⊢
    cases hv : p.verse with
    | true =>
      simp only [hv, if_true, Except.ok.injEq, Prod.mk.injEq, true_and] at hh
      subst hh
      simp only [Bool.true_eq_false, and_false, if_false]
      exact ⟨_, rfl⟩
    | false =>
      obtain ⟨h4, rfl⟩ := h3 hv
      simp only [hv, hone h4, decide_true, Bool.false_eq_true, if_false, if_true, Except.ok.injEq, Prod.mk.injEq, true_and] at hh
      subst hh
      simp only [hone h4, decide_true, if_true]
      by_cases hf : o.forceStartVerses = true
      · simp only [hf, and_self, if_true]; exact ⟨_, rfl⟩
      · simp only [hf, and_true, Bool.false_eq_true, if_false]; exact ⟨_, rfl⟩

/-- One range: the same string with and without preserved groups, and then the same state, which is also that of regrouping. -/
theorem step_same (hp : o.preserveGroups = true) (ho : o' = { o with preserveGroups := false }) {head : Bool}
    {s t : RangeList.StrState} (hs : Same e.data head s t) {g : RangeList.GroupState}
    (hh : RangeList.regroupStep e flags ⟨t.book, t.chap, t.atVerse⟩ r = .ok (head, g)) :
    ∃ str, RangeList.strStep u e o flags s r = .ok (str, ⟨g.book, g.chap, g.atVerse, false, [e.data.minorListSep], false⟩) ∧
      RangeList.strStep u e o' flags t r = .ok (str, ⟨g.book, g.chap, g.atVerse, false, [e.data.minorListSep], false⟩) := by
  have hr' : ROK e.data true r := ⟨hr.s.mono, hr.t.mono, hr.le⟩
  have hg' : (e.eff flags).verse0 = true → e.flags.verse0 = true := fun h => hg ▸ h
  obtain ⟨⟨head', chap, atVerse, showStart⟩, h1⟩ := RangeList.regroupStart_ok h hg' hr' ⟨t.book, t.chap, t.atVerse⟩
  have hhead : head' = head := by
    unfold RangeList.regroupStep at hh
    rw [h1] at hh
    simp only [bind, Except.bind, pure, Except.pure] at hh
    repeat' split at hh
    all_goals simp at hh
    all_goals exact hh.1
  subst hhead
  obtain ⟨p, sep, sep', h2, h3, h4, h5, h6⟩ := start_same (o := o) (o' := o') h hg hr hp (by rw [ho]) hs h1
  subst h5
  obtain ⟨str, h7⟩ := step_state (u := u) h hg hr h2 h1 h6 hh
  exact ⟨str, h7, by rw [← step_same_str ho hs.first h2 h3 h4]; exact h7⟩

end

/-! ## The whole list -/

/-- Without preserved groups, the groups make no difference. -/
theorem strGroups_flat {u : Uni} {e : Env} {flags : Option BibleFlag} {o : StrOpts} (hp : o.preserveGroups = false)
    (l : RangeList) (s : RangeList.StrState) :
    RangeList.strGroups u e o flags s l = (RangeList.strGroup u e o flags s l.flatten).map (·.1) := by
  have happ : ∀ (g g' : List BibleRange) (s : RangeList.StrState), RangeList.strGroup u e o flags s (g ++ g') = (do
      let (str, s) ← RangeList.strGroup u e o flags s g
      let (rest, s) ← RangeList.strGroup u e o flags s g'
      return (str ++ rest, s)) := by
    intro g g' s
    induction g generalizing s with
    | nil =>
      simp only [List.nil_append, RangeList.strGroup, bind, Except.bind, pure, Except.pure]
      cases RangeList.strGroup u e o flags s g' <;> rfl
    | cons r g ih =>
      simp only [List.cons_append, RangeList.strGroup, ih, bind, Except.bind, pure, Except.pure]
      cases RangeList.strStep u e o flags s r with
      | error x => rfl
      | ok x =>
        simp only
        cases RangeList.strGroup u e o flags x.2 g with
        | error y => rfl
        | ok y =>
          simp only
          cases RangeList.strGroup u e o flags y.2 g' <;> simp
  induction l generalizing s with
  | nil => rfl
  | cons g gs ih =>
    rw [List.flatten_cons, happ]
    simp only [RangeList.strGroups, RangeList.strEndGroup, hp, Bool.false_eq_true, if_false, ih, bind, Except.bind, pure, Except.pure]
    cases RangeList.strGroup u e o flags s g with
    | error x => rfl
    | ok x =>
      simp only
      cases RangeList.strGroup u e o flags x.2 gs.flatten <;> rfl

section
variable {u : Uni} {e : Env} (h : e.data.WF) {flags : Option BibleFlag} {o o' : StrOpts}
  (hg : (e.eff flags).verse0 = e.flags.verse0) (hp : o.preserveGroups = true) (ho : o' = { o with preserveGroups := false })
include h hg hp ho

omit hp ho in
theorem heads_cons {l : List BibleRange} {r : BibleRange} (hr : ∀ x ∈ r :: l, ROK e.data (e.eff flags).verse0 x)
    {g : RangeList.GroupState} {marked : List (Bool × BibleRange)} (hh : RangeList.regroupHeads e flags g (r :: l) = .ok marked) :
    ∃ head g' rest, RangeList.regroupStep e flags g r = .ok (head, g') ∧ RangeList.regroupHeads e flags g' l = .ok rest ∧
      marked = (head, r) :: rest := by
  have hr' : ROK e.data true r := ⟨(hr r (.head _)).s.mono, (hr r (.head _)).t.mono, (hr r (.head _)).le⟩
  have hg' : (e.eff flags).verse0 = true → e.flags.verse0 = true := fun h => hg ▸ h
  obtain ⟨⟨head', g'⟩, h1⟩ := RangeList.regroupStep_ok h hg' hr' g
  rw [RangeList.regroupHeads, h1] at hh
  simp only [bind, Except.bind, pure, Except.pure] at hh
  cases h2 : RangeList.regroupHeads e flags g' l with
  | error x => rw [h2] at hh; cases hh
  | ok rest =>
    rw [h2] at hh
    simp only [Except.ok.injEq] at hh
    exact ⟨head', g', rest, h1, h2, hh.symm⟩

theorem groups_same (l : List BibleRange) (r : BibleRange) (hr : ∀ x ∈ r :: l, ROK e.data (e.eff flags).verse0 x)
    {s t : RangeList.StrState} {head : Bool} {marked : List (Bool × BibleRange)} (hs : Same e.data head s t)
    (hh : RangeList.regroupHeads e flags ⟨t.book, t.chap, t.atVerse⟩ (r :: l) = .ok ((head, r) :: marked)) :
    ∃ str, RangeList.strGroups u e o flags s (Groups.cut ((head, r) :: marked)) = .ok str ∧
      (RangeList.strGroup u e o' flags t (r :: l)).map (·.1) = .ok str := by
  obtain ⟨head', g, rest, h1, h2, h3⟩ := heads_cons h hg hr hh
  cases h3
  obtain ⟨str, k1, k2⟩ := step_same (u := u) h hg (hr r (.head _)) hp ho hs h1
  induction l generalizing r s t head g marked str with
  | nil =>
    cases h2
    refine ⟨str, ?_, ?_⟩
    · simp [Groups.cut, RangeList.strGroups, RangeList.strGroup, k1, bind, Except.bind, pure, Except.pure]
    · simp [RangeList.strGroup, k2, bind, Except.bind, pure, Except.pure, Except.map]
  | cons r' l ih =>
    have hrl : ∀ x ∈ r' :: l, ROK e.data (e.eff flags).verse0 x := fun x hx => hr x (.tail _ hx)
    obtain ⟨head2, g2, rest2, j1, j2, j3⟩ := heads_cons h hg hrl h2
    subst j3
    generalize ht : (⟨g.book, g.chap, g.atVerse, false, [e.data.minorListSep], false⟩ : RangeList.StrState) = t' at *
    have hgt : g = ⟨t'.book, t'.chap, t'.atVerse⟩ := by rw [← ht]
    have hsame : Same e.data head2 (if head2 then RangeList.strEndGroup e o t' else t') t' := by
      subst ht
      cases head2 with
      | true => exact ⟨by simp [RangeList.strEndGroup, hp], by simp [RangeList.strEndGroup, hp], by simp [RangeList.strEndGroup, hp],
          ⟨by simp [RangeList.strEndGroup, hp], rfl⟩, by simp, fun _ => ⟨rfl, by simp [RangeList.strEndGroup, hp]⟩⟩
      | false => exact ⟨rfl, rfl, rfl, ⟨rfl, rfl⟩, by simp, fun _ => ⟨rfl, by simp⟩⟩
    rw [hgt] at h2 j1
    obtain ⟨str2, i1, i2⟩ := step_same (u := u) h hg (hrl r' (.head _)) hp ho hsame j1
    obtain ⟨str3, m1, m2⟩ := ih r' hrl hsame h2 g2 j1 j2 str2 i1 i2
    refine ⟨str ++ str3, ?_, ?_⟩
    · cases head2 with
      | true =>
        rw [Groups.cut]
        simp only [if_true] at m1
        simp only [RangeList.strGroups, RangeList.strGroup, k1, bind, Except.bind, pure, Except.pure, m1, List.append_nil]
      | false =>
        simp only [Bool.false_eq_true, if_false] at m1
        obtain ⟨a, b, hc⟩ := Groups.cut_cons false r' rest2
        rw [Groups.cut, hc]
        rw [hc] at m1
        simp only [RangeList.strGroups, bind, Except.bind, pure, Except.pure] at m1 ⊢
        rw [RangeList.strGroup, k1]
        simp only [bind, Except.bind, pure, Except.pure]
        cases hx : RangeList.strGroup u e o flags t' (r' :: a) with
        | error x => rw [hx] at m1; cases m1
        | ok x =>
          rw [hx] at m1
          simp only at m1 ⊢
          cases hy : RangeList.strGroups u e o flags (RangeList.strEndGroup e o x.2) b with
          | error y => rw [hy] at m1; cases m1
          | ok y =>
            rw [hy] at m1
            simp only [Except.ok.injEq] at m1
            simp [← m1]
    · rw [RangeList.strGroup, k2]
      simp only [bind, Except.bind, pure, Except.pure]
      cases hx : RangeList.strGroup u e o' flags t' (r' :: l) with
      | error x => rw [hx] at m2; cases m2
      | ok x =>
        rw [hx] at m2
        simp only [Except.map, Except.ok.injEq] at m2
        simp [Except.map, m2]

/-- Regrouped, the string with preserved groups is that without. -/
theorem regroup_str {l m : RangeList} (hr : ∀ x ∈ l.flatten, ROK e.data (e.eff flags).verse0 x)
    (hm : RangeList.regroup e flags l.flatten = .ok m) :
    ∃ str, RangeList.str u e o flags m = .ok str ∧ RangeList.str u e o' flags l = .ok str := by
  unfold RangeList.regroup at hm
  simp only [bind, Except.bind, pure, Except.pure] at hm
  cases hx : RangeList.regroupHeads e flags ⟨none, none, false⟩ l.flatten with
  | error x => rw [hx] at hm; cases hm
  | ok marked =>
    rw [hx] at hm
    simp only [Except.ok.injEq] at hm
    subst hm
    unfold RangeList.str
    rw [strGroups_flat (o := o') (by rw [ho])]
    cases hl : l.flatten with
    | nil =>
      rw [hl] at hx
      cases hx
      exact ⟨[], rfl, rfl⟩
    | cons r rs =>
      rw [hl] at hx hr
      obtain ⟨head, g', rest, h1, h2, rfl⟩ := heads_cons h hg hr hx
      exact groups_same h hg hp ho rs r hr ⟨rfl, rfl, rfl, ⟨rfl, rfl⟩, fun _ => rfl, fun hh => absurd hh (by decide)⟩ hx

end
end Bibleref

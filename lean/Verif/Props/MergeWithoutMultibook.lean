import Verif.Lemmas.MergeWithout

/-!
# Lists of ranges over several books when `MULTIBOOK` is not set (C81)

The ranges `a` and `b` *touch* when neither is apart from the other: they have a verse in common, or one begins in the book and right
after the verse in which the other ends.
-/

namespace Bibleref
open Spec

/-- No two of the ranges touch, unless each of them lies in one book. -/
abbrev Mergeable (d : BibleData) (v0 : Bool) (l : List BibleRange) : Prop :=
  l.Pairwise fun a b => Apart d ⟨false, v0⟩ a b ∨ Apart d ⟨false, v0⟩ b a ∨ (a.start.book = a.stop.book ∧ b.start.book = b.stop.book)

theorem not_joins_iff {d : BibleData} (h : d.WF) {f : BibleFlag} {a b : BibleRange} (ha : ROK d f.verse0 a) (hb : ROK d f.verse0 b) :
    ¬ Joins d f a b ↔ Apart d f a b ∨ Apart d f b a := by
  rw [← gap_iff_apart h ha hb, ← gap_iff_apart h hb ha, Joins, Gap, Gap]
  have := ha.le
  have := hb.le
  constructor
  · intro hh
    simp only [not_or] at hh
    by_cases h1 : pos d a.stop < pos d b.start
    · exact .inl ⟨h1, hh.2.1⟩
    · exact .inr ⟨by omega, hh.2.2⟩
  · rintro (⟨h1, h2⟩ | ⟨h1, h2⟩) (hh | hh | hh)
    · omega
    · exact h2 hh
    · have := adj_pos h hb ha hh; omega
    · omega
    · have := adj_pos h ha hb hh; omega
    · exact h2 hh

theorem mergeable_iff {d : BibleData} (h : d.WF) {v0} {l : List BibleRange} (hl : ∀ r ∈ l, ROK d v0 r) :
    Mergeable d v0 l ↔ l.Pairwise (MayMerge d ⟨false, v0⟩) := by
  refine List.Pairwise.iff_of_mem fun {a b} ha hb => ?_
  rw [← or_assoc, ← not_joins_iff (f := ⟨false, v0⟩) h (hl a ha) (hl b hb), MayMerge]
  by_cases hj : Joins d ⟨false, v0⟩ a b <;> simp [hj, InBook]

/-- C81 for merging without `MULTIBOOK`: it is refused exactly when two ranges of the list touch and one of them lies in several
books. Otherwise the same verses are covered, the ranges come in order and do not touch, and the ranges over several books are
exactly those that were in the list. -/
theorem C81_merge (e : Env) (h : e.data.WF) (flags : Option BibleFlag) (v0 : Bool) (hf : inForce e flags = ⟨false, v0⟩)
    (l : RangeList) (hl : ∀ r ∈ l.flatten, RangeOK e.data v0 r) :
    (¬ Mergeable e.data v0 l.flatten → RangeList.merge e l flags = .error .multibookRange) ∧
    (Mergeable e.data v0 l.flatten → ∃ m, RangeList.merge e l flags = .ok m ∧ (∀ r ∈ m.flatten, RangeOK e.data v0 r) ∧
      (∀ v ∈ canon e.data v0, Covered e.data m.flatten v ↔ Covered e.data l.flatten v) ∧
      Canonical e.data ⟨false, v0⟩ m.flatten ∧ (∀ g ∈ m, g ≠ []) ∧
      ∀ r, r.start.book ≠ r.stop.book → (r ∈ m.flatten ↔ r ∈ l.flatten)) := by
  rw [← eff_eq] at hf
  simp only [rangeOK_iff h] at *
  rw [mergeable_iff h hl]
  have hw := RangeList.merge_without h (flags := flags) (by rw [hf]) (l := l) (by rw [hf]; exact hl)
  rw [hf] at hw
  rcases hw with ⟨h0, m, h1, h2, h3, h4, h5, h6⟩ | ⟨h0, h1⟩
  · refine ⟨fun hh => absurd h0 hh, fun _ => ⟨m, h1, h3, fun v hv => h5 v ((mem_canon h).mp hv), ?_, h2, h6⟩⟩
    exact (gaps_iff_canonical_rok (f := ⟨false, v0⟩) h h3).mp h4
  · exact ⟨fun _ => h1, fun hh => absurd hh h0⟩

/-- C81 for `contains` without `MULTIBOOK`: it is refused exactly when merging the list is. Otherwise it says yes exactly when every
range of the other list that lies in one book is covered, and every one over several books lies in one range of the list. -/
theorem C81_contains (e : Env) (h : e.data.WF) (flags : Option BibleFlag) (v0 : Bool) (hf : inForce e flags = ⟨false, v0⟩)
    (l m : RangeList) (hl : ∀ r ∈ l.flatten, RangeOK e.data v0 r) (hm : ∀ r ∈ m.flatten, RangeOK e.data v0 r) :
    (¬ Mergeable e.data v0 l.flatten → RangeList.contains e l m flags = .error .multibookRange) ∧
    (Mergeable e.data v0 l.flatten → Answers (RangeList.contains e l m flags) (∀ s ∈ m.flatten,
      if s.start.book = s.stop.book then ∀ v ∈ canon e.data v0, InRange e.data s v → Covered e.data l.flatten v
      else ∃ r ∈ l.flatten, pos e.data r.start ≤ pos e.data s.start ∧ pos e.data s.stop ≤ pos e.data r.stop)) := by
  rw [← eff_eq] at hf
  simp only [rangeOK_iff h] at *
  rw [mergeable_iff h hl]
  have hw := RangeList.merge_without h (flags := flags) (by rw [hf]) (l := RangeList.copy l) (by
    rw [hf, RangeList.copy_flatten]; exact hl)
  rw [hf, RangeList.copy_flatten] at hw
  rcases hw with ⟨h0, s, h1, h2, h3, h4, h5, h6⟩ | ⟨h0, h1⟩
  · refine ⟨fun hh => absurd h0 hh, fun _ => ⟨m.flatten.all fun b => s.flatten.any fun a => a.containsT e.data b, ?_, ?_⟩⟩
    · unfold RangeList.contains; rw [h1]
      exact allM_ok _ _ _ fun b hb => anyM_ok _ _ _ fun a ha => BibleRange.contains_eq ((h3 a ha).alike (hm b hb))
    · simp only [List.all_eq_true, List.any_eq_true]
      refine forall_congr' fun r => forall_congr' fun hr => ?_
      have hrok := hm r hr
      by_cases hb : r.start.book = r.stop.book
      · rw [if_pos hb]
        constructor
        · rintro ⟨p, hp, hc⟩ v hv hin
          rw [contains_iff h (h3 p hp) hrok] at hc
          rw [← h5 v ((mem_canon h).mp hv)]
          have := hin.1; have := hin.2
          exact ⟨p, hp, by omega, by omega⟩
        · intro hh
          obtain ⟨p, hp, hc⟩ := covered_single_rok (f := ⟨false, v0⟩) h (x := r) ⟨hrok, .inr hb⟩ h3 h4 (fun v hv hin =>
            (h5 v hv).mpr (hh v ((mem_canon h).mpr hv) hin))
          exact ⟨p, hp, (contains_iff h (h3 p hp) hrok).mpr hc⟩
      · rw [if_neg hb]
        constructor
        · rintro ⟨p, hp, hc⟩
          rw [contains_iff h (h3 p hp) hrok] at hc
          exact ⟨p, (h6 p fun hi => hb (inBook_mono h (h3 p hp) hrok hc.1 hc.2 hi)).mp hp, hc⟩
        · rintro ⟨p, hp, hc⟩
          exact ⟨p, (h6 p fun hi => hb (inBook_mono h (hl p hp) hrok hc.1 hc.2 hi)).mpr hp,
            (contains_iff h (hl p hp) hrok).mpr hc⟩
  · refine ⟨fun _ => ?_, fun hh => absurd hh h0⟩
    unfold RangeList.contains; rw [h1]; rfl

/-- C81 for the union of lists without `MULTIBOOK`: refused exactly when the ranges of both lists together cannot be merged;
otherwise the union covers what either list covers, its ranges do not touch, and those over several books are the given ones. -/
theorem C81_list_union (e : Env) (h : e.data.WF) (flags : Option BibleFlag) (v0 : Bool) (hf : inForce e flags = ⟨false, v0⟩)
    (l m : RangeList) (hl : ∀ r ∈ l.flatten, RangeOK e.data v0 r) (hm : ∀ r ∈ m.flatten, RangeOK e.data v0 r) :
    (¬ Mergeable e.data v0 (l.flatten ++ m.flatten) → RangeList.union e l m flags = .error .multibookRange) ∧
    (Mergeable e.data v0 (l.flatten ++ m.flatten) → ∃ u, RangeList.union e l m flags = .ok u ∧
      (∀ r ∈ u.flatten, RangeOK e.data v0 r) ∧
      (∀ v ∈ canon e.data v0, Covered e.data u.flatten v ↔ Covered e.data l.flatten v ∨ Covered e.data m.flatten v) ∧
      Canonical e.data ⟨false, v0⟩ u.flatten ∧ (∀ g ∈ u, g ≠ []) ∧
      ∀ r, r.start.book ≠ r.stop.book → (r ∈ u.flatten ↔ r ∈ l.flatten ∨ r ∈ m.flatten)) := by
  have hfl : (Groups.extend (RangeList.copy l) m.flatten).flatten = l.flatten ++ m.flatten := by
    rw [unionUpdate_flatten, RangeList.copy_flatten]
  have hw := C81_merge e h flags v0 hf (Groups.extend (RangeList.copy l) m.flatten) (by
    rw [hfl]
    intro r hr
    rcases List.mem_append.mp hr with hr | hr
    · exact hl r hr
    · exact hm r hr)
  simp only [hfl, covered_append, List.mem_append] at hw
  exact hw

theorem mapM_err {α β} {f : α → Except PyErr β} {E : PyErr} {l : List α} (hf : ∀ a ∈ l, (∃ b, f a = .ok b) ∨ f a = .error E)
    (hx : ∃ a ∈ l, f a = .error E) : l.mapM f = .error E := by
  induction l with
  | nil => obtain ⟨a, ha, _⟩ := hx; cases ha
  | cons a l ih =>
    rw [List.mapM_cons]
    rcases hf a List.mem_cons_self with ⟨b, hb⟩ | hb
    · rw [hb]
      have : ∃ a ∈ l, f a = .error E := by
        obtain ⟨x, hx, he⟩ := hx
        rcases List.mem_cons.mp hx with rfl | hx
        · rw [hb] at he; cases he
        · exact ⟨x, hx, he⟩
      simp only [bind, Except.bind, ih (fun a ha => hf a (List.mem_cons_of_mem _ ha)) this]
    · rw [hb]; rfl

theorem intersection_without {e : Env} (h : e.data.WF) {flags : Option BibleFlag} (hm : (e.eff flags).multibook = false) {v0}
    {a b : BibleRange} (ha : ROK e.data v0 a) (hb : ROK e.data v0 b) :
    a.intersection e b flags = if RangeList.Meets e.data a b then
      (if InBook (meet e.data a b) then .ok [meet e.data a b] else .error .multibookRange) else .ok [] := by
  have hdis := isDisjoint_iff h ha hb
  have hla := ha.le
  have hlb := hb.le
  rw [BibleRange.intersection_eq (ha.alike hb)]
  by_cases ho : RangeList.Meets e.data a b
  · have ho' := ho
    unfold RangeList.Meets at ho'
    obtain ⟨h1, h2, h3, h4⟩ := meet_pos h ha hb
    have hnew := new_without h h3 h4 (by omega) (flags := flags) hm
    rw [if_neg (by rw [hdis]; omega), if_pos ho]
    simp only [meet] at hnew
    simp only [bind, Except.bind, hnew, meet, InBook]
    by_cases hbk : (BibleRange.maxVerse e.data a.start b.start).book = (BibleRange.minVerse e.data a.stop b.stop).book
    · simp only [hbk, if_true]; rfl
    · simp only [hbk, if_false]
  · have ho' := ho
    unfold RangeList.Meets at ho'
    rw [if_pos (by rw [hdis]; omega), if_neg ho]; rfl

/-- C81 for the intersection of lists without `MULTIBOOK`: refused exactly when a range of one list and a range of the other have
verses of several books in common; otherwise it covers what both cover, and its ranges lie in one book each and do not touch. -/
theorem C81_list_intersection (e : Env) (h : e.data.WF) (flags : Option BibleFlag) (v0 : Bool) (hf : inForce e flags = ⟨false, v0⟩)
    (l m : RangeList) (hl : ∀ r ∈ l.flatten, RangeOK e.data v0 r) (hm : ∀ r ∈ m.flatten, RangeOK e.data v0 r) :
    ((∃ a ∈ l.flatten, ∃ b ∈ m.flatten, ∃ v ∈ canon e.data v0, ∃ w ∈ canon e.data v0, InRange e.data a v ∧ InRange e.data b v ∧
      InRange e.data a w ∧ InRange e.data b w ∧ v.book ≠ w.book) → RangeList.intersection e l m flags = .error .multibookRange) ∧
    ((¬ ∃ a ∈ l.flatten, ∃ b ∈ m.flatten, ∃ v ∈ canon e.data v0, ∃ w ∈ canon e.data v0, InRange e.data a v ∧ InRange e.data b v ∧
      InRange e.data a w ∧ InRange e.data b w ∧ v.book ≠ w.book) → ∃ i, RangeList.intersection e l m flags = .ok i ∧
      (∀ r ∈ i.flatten, Allowed e.data ⟨false, v0⟩ r) ∧
      (∀ v ∈ canon e.data v0, Covered e.data i.flatten v ↔ Covered e.data l.flatten v ∧ Covered e.data m.flatten v) ∧
      Canonical e.data ⟨false, v0⟩ i.flatten ∧ (∀ g ∈ i, g ≠ [])) := by
  have hfi := hf
  rw [← eff_eq] at hf
  simp only [rangeOK_iff h, mem_canon h] at *
  have hcross : ∀ a ∈ l.flatten, ∀ b ∈ m.flatten, (∃ v, Valid e.data v0 v ∧ ∃ w, Valid e.data v0 w ∧ InRange e.data a v ∧ InRange e.data b v ∧
      InRange e.data a w ∧ InRange e.data b w ∧ v.book ≠ w.book) ↔ RangeList.Meets e.data a b ∧ ¬ InBook (meet e.data a b) := by
    intro a ha b hb
    have ha' := hl a ha
    have hb' := hm b hb
    obtain ⟨h1, h2, h3, h4⟩ := meet_pos h ha' hb'
    have := ha'.le; have := hb'.le
    unfold RangeList.Meets
    constructor
    · rintro ⟨v, hv, w, hw, a1, b1, a2, b2, hne⟩
      have := a1.1; have := a1.2; have := b1.1; have := b1.2
      have := a2.1; have := a2.2; have := b2.1; have := b2.2
      refine ⟨by omega, fun hi => hne ?_⟩
      have i1 := book_le_of_pos h h3 hv (by omega)
      have i2 := book_le_of_pos h hv h4 (by omega)
      have i3 := book_le_of_pos h h3 hw (by omega)
      have i4 := book_le_of_pos h hw h4 (by omega)
      rw [InBook] at hi
      rw [hi] at i1 i3
      exact h.bidx_inj.mp (by omega)
    · rintro ⟨ho, hi⟩
      exact ⟨_, h3, _, h4, ⟨by omega, by omega⟩, ⟨by omega, by omega⟩, ⟨by omega, by omega⟩, ⟨by omega, by omega⟩, hi⟩
  have hint : ∀ a ∈ l.flatten, ∀ b ∈ m.flatten, a.intersection e b flags = _ := fun a ha b hb =>
    intersection_without h (flags := flags) (by rw [hf]) (hl a ha) (hm b hb)
  constructor
  · rintro ⟨a, ha, b, hb, hvw⟩
    have hbad := (hcross a ha b hb).mp hvw
    have alt : ∀ a ∈ l.flatten, ∀ b ∈ m.flatten, (∃ x, a.intersection e b flags = .ok x) ∨ a.intersection e b flags = .error .multibookRange := by
      intro a ha b hb
      rw [hint a ha b hb]
      split
      · split
        · exact .inl ⟨_, rfl⟩
        · exact .inr rfl
      · exact .inl ⟨_, rfl⟩
    have herr : a.intersection e b flags = .error .multibookRange := by
      rw [hint a ha b hb, if_pos hbad.1, if_neg hbad.2]
    have hitems : RangeList.intersectionItems e flags l.flatten m.flatten = .error .multibookRange := by
      unfold RangeList.intersectionItems
      rw [mapM_err (E := .multibookRange)]
      · rfl
      · intro x hx
        by_cases hh : ∃ y ∈ m.flatten, x.intersection e y flags = .error .multibookRange
        · right
          rw [mapM_err (alt x hx) hh]; rfl
        · left
          have : ∀ y ∈ m.flatten, x.intersection e y flags = .ok (match x.intersection e y flags with | .ok z => z | .error _ => []) := by
            intro y hy
            rcases alt x hx y hy with ⟨z, hz⟩ | hz
            · rw [hz]
            · exact absurd ⟨y, hy, hz⟩ hh
          rw [mapM_ok this]
          exact ⟨_, rfl⟩
      · refine ⟨a, ha, ?_⟩
        rw [mapM_err (alt a ha) ⟨b, hb, herr⟩]; rfl
    unfold RangeList.intersection
    rw [hitems]; rfl
  · intro hno
    have hin : ∀ a ∈ l.flatten, ∀ b ∈ m.flatten, RangeList.Meets e.data a b → InBook (meet e.data a b) := fun a ha b hb ho =>
      Classical.byContradiction fun hi => hno ⟨a, ha, b, hb, (hcross a ha b hb).mpr ⟨ho, hi⟩⟩
    have hitems : RangeList.intersectionItems e flags l.flatten m.flatten = .ok (RangeList.meets e.data l.flatten m.flatten) := by
      unfold RangeList.intersectionItems
      rw [mapM_ok (g := fun a => m.flatten.flatMap fun b => if RangeList.Meets e.data a b then [meet e.data a b] else [])]
      · simp only [bind, Except.bind, pure, Except.pure, RangeList.meets, List.flatMap]
      · intro a ha
        rw [mapM_ok (g := fun b => if RangeList.Meets e.data a b then [meet e.data a b] else [])]
        · simp only [bind, Except.bind, pure, Except.pure]
          congr 1
          rw [List.flatMap_map]
          congr 1
          funext b
          by_cases hb : RangeList.Meets e.data a b <;> simp [hb]
        · intro b hb
          rw [hint a ha b hb]
          by_cases ho : RangeList.Meets e.data a b
          · rw [if_pos ho, if_pos ho, if_pos (hin a ha b hb ho)]
          · rw [if_neg ho, if_neg ho]
    have hok : ∀ r ∈ RangeList.meets e.data l.flatten m.flatten, Allowed e.data ⟨false, v0⟩ r := by
      intro r hr
      obtain ⟨a, ha, b, hb, ho, rfl⟩ := RangeList.mem_meets.mp hr
      obtain ⟨h1, h2, h3, h4⟩ := meet_pos h (hl a ha) (hm b hb)
      have := (hl a ha).le; have := (hm b hb).le
      have ho' := ho
      unfold RangeList.Meets at ho'
      exact (allowed_iff h).mpr ⟨⟨h3, h4, by omega⟩, .inr (hin a ha b hb ho)⟩
    obtain ⟨i, h1, h2, h3, h4, h5⟩ := C26_merge e h flags (RangeList.ofRanges (RangeList.meets e.data l.flatten m.flatten)) (by
      rw [RangeList.ofRanges_flatten, hfi]; exact hok)
    rw [hfi, RangeList.ofRanges_flatten] at *
    refine ⟨i, ?_, h2, fun v hv => ?_, h4, h5⟩
    · unfold RangeList.intersection
      rw [hitems]; exact h1
    · rw [h3 v ((mem_canon h).mpr hv)]
      constructor
      · rintro ⟨r, hr, hin⟩
        obtain ⟨a, ha, b, hb, ho, rfl⟩ := RangeList.mem_meets.mp hr
        obtain ⟨g1, g2, _, _⟩ := meet_pos h (hl a ha) (hm b hb)
        have := hin.1; have := hin.2
        exact ⟨⟨a, ha, by omega, by omega⟩, ⟨b, hb, by omega, by omega⟩⟩
      · rintro ⟨⟨a, ha, i1, i2⟩, ⟨b, hb, i3, i4⟩⟩
        obtain ⟨g1, g2, _, _⟩ := meet_pos h (hl a ha) (hm b hb)
        exact ⟨_, RangeList.mem_meets.mpr ⟨a, ha, b, hb, ⟨by omega, by omega⟩, rfl⟩, by omega, by omega⟩

example : inForce ⟨defaultData, .none⟩ none = ⟨false, false⟩ := by decide

example : Mergeable defaultData false
    [⟨⟨.Mark, 16, 1⟩, ⟨.Luke, 2, 52⟩⟩, ⟨⟨.Matt, 1, 1⟩, ⟨.Matt, 1, 5⟩⟩, ⟨⟨.Matt, 1, 6⟩, ⟨.Matt, 1, 9⟩⟩] := by
  have h1 : ∀ c ∈ [5, 9], ∀ b, Apart defaultData ⟨false, false⟩ ⟨⟨.Matt, 1, b⟩, ⟨.Matt, 1, c⟩⟩ ⟨⟨.Mark, 16, 1⟩, ⟨.Luke, 2, 52⟩⟩ := by
    intro c hc b
    refine ⟨?_, .inr ⟨rfl, by simp⟩⟩
    simp only [List.mem_cons, List.not_mem_nil, or_false] at hc
    rcases hc with rfl | rfl <;> (dsimp only; decide +kernel)
  simp only [Mergeable, List.pairwise_cons]
  refine ⟨fun r hr => ?_, fun r hr => ?_, by simp⟩
  · simp only [List.mem_cons, List.not_mem_nil, or_false] at hr
    rcases hr with rfl | rfl
    · exact .inr (.inl (h1 5 (by simp) 1))
    · exact .inr (.inl (h1 9 (by simp) 6))
  · simp only [List.mem_cons, List.not_mem_nil, or_false] at hr
    subst hr
    exact .inr (.inr (by simp))

example : ¬ Mergeable defaultData false [⟨⟨.Mark, 16, 1⟩, ⟨.Luke, 2, 52⟩⟩, ⟨⟨.Mark, 16, 5⟩, ⟨.Luke, 3, 1⟩⟩] := by
  simp only [Mergeable, List.pairwise_cons]
  rintro ⟨hh, _⟩
  rcases hh _ List.mem_cons_self with ⟨hh, _⟩ | ⟨hh, _⟩ | ⟨hh, _⟩
  · exact absurd hh (by decide +kernel)
  · exact absurd hh (by decide +kernel)
  · cases hh

/-- A list of Mark 16:1-Luke 2:51 and Luke 3:1-38 contains Luke 2:1-51 and Mark 16:20-Luke 1:1, but not Luke 2:51-3:1. With Luke 2:52
the two ranges touch, and the question is refused. -/
example : RangeList.contains dflt [[⟨⟨.Mark, 16, 1⟩, ⟨.Luke, 2, 51⟩⟩, ⟨⟨.Luke, 3, 1⟩, ⟨.Luke, 3, 38⟩⟩]] [[⟨⟨.Luke, 2, 1⟩, ⟨.Luke, 2, 51⟩⟩]] none = .ok true ∧
    RangeList.contains dflt [[⟨⟨.Mark, 16, 1⟩, ⟨.Luke, 2, 51⟩⟩, ⟨⟨.Luke, 3, 1⟩, ⟨.Luke, 3, 38⟩⟩]] [[⟨⟨.Mark, 16, 20⟩, ⟨.Luke, 1, 1⟩⟩]] none = .ok true ∧
    RangeList.contains dflt [[⟨⟨.Mark, 16, 1⟩, ⟨.Luke, 2, 51⟩⟩, ⟨⟨.Luke, 3, 1⟩, ⟨.Luke, 3, 38⟩⟩]] [[⟨⟨.Luke, 2, 51⟩, ⟨.Luke, 3, 1⟩⟩]] none = .ok false ∧
    RangeList.contains dflt [[⟨⟨.Mark, 16, 1⟩, ⟨.Luke, 2, 52⟩⟩, ⟨⟨.Luke, 3, 1⟩, ⟨.Luke, 3, 38⟩⟩]] [] none = .error .multibookRange := by
  decide +kernel

example : RangeList.union dflt [[⟨⟨.Mark, 16, 1⟩, ⟨.Luke, 2, 52⟩⟩]] [[⟨⟨.Luke, 2, 52⟩, ⟨.Luke, 2, 52⟩⟩]] none = .error .multibookRange ∧
    RangeList.union dflt [[⟨⟨.Mark, 16, 1⟩, ⟨.Luke, 2, 52⟩⟩]] [[⟨⟨.Mark, 15, 47⟩, ⟨.Mark, 15, 47⟩⟩]] none = .error .multibookRange ∧
    RangeList.union dflt [[⟨⟨.Mark, 16, 1⟩, ⟨.Luke, 24, 53⟩⟩]] [[⟨⟨.John, 1, 1⟩, ⟨.John, 1, 1⟩⟩]] none =
      .ok [[⟨⟨.Mark, 16, 1⟩, ⟨.Luke, 24, 53⟩⟩], [⟨⟨.John, 1, 1⟩, ⟨.John, 1, 1⟩⟩]] ∧
    RangeList.intersection dflt [[⟨⟨.Mark, 16, 1⟩, ⟨.Luke, 24, 53⟩⟩]] [[⟨⟨.Luke, 24, 53⟩, ⟨.John, 1, 1⟩⟩]] none =
      .ok [[⟨⟨.Luke, 24, 53⟩, ⟨.Luke, 24, 53⟩⟩]] ∧
    RangeList.intersection dflt [[⟨⟨.Mark, 16, 1⟩, ⟨.Luke, 24, 53⟩⟩]] [[⟨⟨.Mark, 16, 20⟩, ⟨.John, 1, 1⟩⟩]] none =
      .error .multibookRange := by decide +kernel

/-- Two ranges of a list that are merged beside one over two books. -/
example : RangeList.merge dflt [[⟨⟨.Mark, 16, 1⟩, ⟨.Luke, 2, 52⟩⟩, ⟨⟨.Matt, 1, 1⟩, ⟨.Matt, 1, 5⟩⟩, ⟨⟨.Matt, 1, 6⟩, ⟨.Matt, 1, 9⟩⟩]] none =
    .ok [[⟨⟨.Matt, 1, 1⟩, ⟨.Matt, 1, 9⟩⟩], [⟨⟨.Mark, 16, 1⟩, ⟨.Luke, 2, 52⟩⟩]] := by decide +kernel

end Bibleref

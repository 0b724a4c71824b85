import Verif.Props.RangeLists

/-!
# More about lists of ranges (C09, C19, C30-C33, C49, C52)
-/

namespace Bibleref
open Spec

/-! ## C30 -/

/-- C30 when no range of the union lies wholly in the intersection, there is room around the ranges of the intersection
that overlap the union (they all do) unless they end up removed, and the flags in force are among the global ones: the symmetric
difference terminates without raising and has exactly the verses of exactly one list. Missing: see `C30_counterexample`. -/
theorem C30_sym_difference_partial (e : Env) (h : e.data.WF) (flags : Option BibleFlag)
    (hm : (inForce e flags).multibook = true → e.flags.multibook = true)
    (hg : (inForce e flags).verse0 = true → e.flags.verse0 = true) (a b : RangeList)
    (ha : ∀ r ∈ a.flatten, Allowed e.data (inForce e flags) r) (hb : ∀ r ∈ b.flatten, Allowed e.data (inForce e flags) r)
    (hroom : ∀ i, RangeList.intersection e a b flags = .ok i → ∀ x ∈ i.flatten, HasRoom e.data (inForce e flags) x.start x.stop)
    (hout : ∀ u, RangeList.union e a b flags = .ok u → ∀ r ∈ u.flatten, ∃ v ∈ canon e.data (inForce e flags).verse0,
      InRange e.data r v ∧ ¬ (Covered e.data a.flatten v ∧ Covered e.data b.flatten v)) :
    ∃ n m, (∀ fuel ≥ n, RangeList.symDifference e a b flags fuel = .ok m) ∧ (∀ r ∈ m.flatten, Allowed e.data e.flags r) ∧
      Canonical e.data e.flags m.flatten ∧
      (∀ v ∈ canon e.data (inForce e flags).verse0, Covered e.data m.flatten v ↔
        ((Covered e.data a.flatten v ∧ ¬ Covered e.data b.flatten v) ∨ (Covered e.data b.flatten v ∧ ¬ Covered e.data a.flatten v))) := by
  obtain ⟨u, u1, u2, u3, u4, _⟩ := C27_union e h flags a b ha hb
  obtain ⟨i, i1, i2, i3, i4, _⟩ := C28_intersection e h flags a b ha hb
  obtain ⟨n, m, h1, h2, h3, h4⟩ := C29_difference_partial e h flags hm hg u i u2 i2 i4 (fun r _ x hx _ => hroom i i1 x hx) (by
    intro r hr x hx
    obtain ⟨v, hv, k1, k2⟩ := hout u u1 r hr
    exact ⟨v, hv, k1, fun hh => k2 ((i3 v hv).mp ⟨x, hx, hh⟩)⟩)
  refine ⟨n, m, ?_, h2, h3, ?_⟩
  · intro fuel hf
    unfold RangeList.symDifference
    rw [u1, i1]
    exact h1 fuel hf
  · intro v hv
    rw [h4 v hv, u3 v hv, i3 v hv]
    by_cases k1 : Covered e.data a.flatten v <;> by_cases k2 : Covered e.data b.flatten v <;> simp [k1, k2]

/-- The full C30 is false: the symmetric difference of a list with itself is the list. -/
theorem C30_counterexample : RangeList.symDifference dflt [[exMatt]] [[exMatt]] none 10 = .ok [[exMatt]] := by decide +kernel

example : RangeList.symDifference dflt [[exMatt]] [[⟨⟨.Matt, 6, 30⟩, ⟨.Matt, 7, 10⟩⟩]] none 10 =
    .ok [[⟨⟨.Matt, 5, 10⟩, ⟨.Matt, 6, 29⟩⟩], [⟨⟨.Matt, 7, 3⟩, ⟨.Matt, 7, 10⟩⟩]] := by decide +kernel

example : (∀ r ∈ ([[exMatt]] : RangeList).flatten, Allowed dflt.data (inForce dflt none) r) ∧
    (∀ r ∈ ([[exIn]] : RangeList).flatten, Allowed dflt.data (inForce dflt none) r) ∧
    (∀ i, RangeList.intersection dflt [[exMatt]] [[exIn]] none = .ok i → ∀ x ∈ i.flatten,
      HasRoom dflt.data (inForce dflt none) x.start x.stop) ∧
    (∀ u, RangeList.union dflt [[exMatt]] [[exIn]] none = .ok u → ∀ r ∈ u.flatten, ∃ v ∈ canon dflt.data (inForce dflt none).verse0,
      InRange dflt.data r v ∧ ¬ (Covered dflt.data ([[exMatt]] : RangeList).flatten v ∧
        Covered dflt.data ([[exIn]] : RangeList).flatten v)) := by
  have h1 : RangeList.intersection dflt [[exMatt]] [[exIn]] none = .ok [[exIn]] := by decide +kernel
  have h2 : RangeList.union dflt [[exMatt]] [[exIn]] none = .ok [[exMatt]] := by decide +kernel
  refine ⟨fun r hr => ?_, fun r hr => ?_, fun i hi x hx => ?_, fun u hu r hr => ?_⟩
  · rw [show r = exMatt from by simpa using hr]; exact exMatt_allowed _
  · rw [show r = exIn from by simpa using hr]; exact exIn_allowed _
  · rw [h1] at hi; cases hi
    rw [show x = exIn from by simpa using hx]; exact exIn_room
  · rw [h2] at hu; cases hu
    rw [show r = exMatt from by simpa using hr]
    refine ⟨exMatt.start, (exMatt_ok _).1, exMatt_not_exIn.1, ?_⟩
    rintro ⟨_, x, hx, h3⟩
    rw [show x = exIn from by simpa using hx] at h3
    exact exMatt_not_exIn.2 h3

/-! ## C31 -/

/-- C31: `contains` never raises and, for a list of allowed ranges (a range or verse being a list of one), holds exactly
when every verse of that list is covered. -/
theorem C31_contains (e : Env) (h : e.data.WF) (flags : Option BibleFlag) (l m : RangeList)
    (hl : ∀ r ∈ l.flatten, Allowed e.data (inForce e flags) r) (hm : ∀ r ∈ m.flatten, Allowed e.data (inForce e flags) r) :
    ∃ b, RangeList.contains e l m flags = .ok b ∧
      (b = true ↔ ∀ v ∈ canon e.data (inForce e flags).verse0, Covered e.data m.flatten v → Covered e.data l.flatten v) := by
  rw [← eff_eq] at *
  simp only [allowed_iff h] at *
  obtain ⟨s, h1, _, h3, h4, h5, _⟩ := RangeList.merge_spec h (flags := flags) (l := RangeList.copy l) (by
    rw [RangeList.copy_flatten]; exact hl)
  rw [RangeList.copy_flatten] at h5
  refine ⟨m.flatten.all fun b => s.flatten.any fun a => a.containsT e.data b, ?_, ?_⟩
  · unfold RangeList.contains; rw [h1]
    exact allM_ok _ _ _ fun b hb => anyM_ok _ _ _ fun a ha => BibleRange.contains_eq ((h3 a ha).toROK.alike (hm b hb).toROK)
  · simp only [List.all_eq_true, List.any_eq_true]
    constructor
    · rintro hh v hv ⟨r, hr, hin⟩
      rw [mem_canon h] at hv
      obtain ⟨p, hp, hc⟩ := hh r hr
      rw [contains_iff h (h3 p hp).toROK (hm r hr).toROK] at hc
      rw [← h5 v hv]
      have := hin.1; have := hin.2
      exact ⟨p, hp, by omega, by omega⟩
    · intro hh r hr
      obtain ⟨p, hp, hc⟩ := covered_single h (hm r hr) h3 h4 (fun v hv hin =>
        (h5 v hv).mpr (hh v ((mem_canon h).mpr hv) ⟨r, hr, hin⟩))
      exact ⟨p, hp, (contains_iff h (h3 p hp).toROK (hm r hr).toROK).mpr hc⟩

/-- C31: for ranges that exist but may cross books without `MULTIBOOK`, `contains` is still right when it says yes. -/
theorem C31_contains_sound (e : Env) (h : e.data.WF) (flags : Option BibleFlag) (l m : RangeList)
    (hl : ∀ r ∈ l.flatten, Allowed e.data (inForce e flags) r) (hm : ∀ r ∈ m.flatten, RangeOK e.data (inForce e flags).verse0 r) :
    ∃ b, RangeList.contains e l m flags = .ok b ∧
      (b = true → ∀ v ∈ canon e.data (inForce e flags).verse0, Covered e.data m.flatten v → Covered e.data l.flatten v) := by
  rw [← eff_eq] at *
  simp only [allowed_iff h, rangeOK_iff h] at *
  obtain ⟨s, h1, _, h3, h4, h5, _⟩ := RangeList.merge_spec h (flags := flags) (l := RangeList.copy l) (by
    rw [RangeList.copy_flatten]; exact hl)
  rw [RangeList.copy_flatten] at h5
  refine ⟨m.flatten.all fun b => s.flatten.any fun a => a.containsT e.data b, ?_, ?_⟩
  · unfold RangeList.contains; rw [h1]
    exact allM_ok _ _ _ fun b hb => anyM_ok _ _ _ fun a ha => BibleRange.contains_eq ((h3 a ha).toROK.alike (hm b hb))
  · simp only [List.all_eq_true, List.any_eq_true]
    rintro hh v hv ⟨r, hr, hin⟩
    rw [mem_canon h] at hv
    obtain ⟨p, hp, hc⟩ := hh r hr
    rw [contains_iff h (h3 p hp).toROK (hm r hr)] at hc
    rw [← h5 v hv]
    have := hin.1; have := hin.2
    exact ⟨p, hp, by omega, by omega⟩

/-- It is not always right when it says no: Mal 4:6 - Matt 1:1 is covered, but the two ranges are not joined. -/
theorem C31_multibook_counterexample :
    RangeList.contains dflt [[⟨⟨.Mal, 4, 5⟩, ⟨.Mal, 4, 6⟩⟩, ⟨⟨.Matt, 1, 1⟩, ⟨.Matt, 1, 3⟩⟩]] [[⟨⟨.Mal, 4, 6⟩, ⟨.Matt, 1, 1⟩⟩]] none = .ok false ∧
    RangeList.contains dflt [[⟨⟨.Mal, 4, 5⟩, ⟨.Mal, 4, 6⟩⟩, ⟨⟨.Matt, 1, 1⟩, ⟨.Matt, 1, 3⟩⟩]] [[⟨⟨.Mal, 4, 6⟩, ⟨.Matt, 1, 1⟩⟩]] (some .MULTIBOOK) =
      .ok true := by decide +kernel

/-- C31: `is_disjoint` holds exactly when no verse is covered by both lists. -/
theorem C31_is_disjoint (d : BibleData) (h : d.WF) (v0 : Bool) (l m : RangeList) (hl : ∀ r ∈ l.flatten, RangeOK d v0 r)
    (hm : ∀ r ∈ m.flatten, RangeOK d v0 r) :
    Answers (RangeList.isDisjoint d l m) (¬ ∃ v ∈ canon d v0, Covered d l.flatten v ∧ Covered d m.flatten v) := by
  have key : ∀ a ∈ l.flatten, ∀ b ∈ m.flatten, a.isDisjoint d b = .ok (a.disjointT d b) ∧
      (a.disjointT d b = true ↔ ¬ ∃ v ∈ canon d v0, InRange d a v ∧ InRange d b v) := by
    intro a ha b hb
    obtain ⟨x, h1, h2⟩ := (C20_contains_surrounds_disjoint d h v0 a b (hl a ha) (hm b hb)).2.2
    have h3 := BibleRange.isDisjoint_eq (((rangeOK_iff h).mp (hl a ha)).alike ((rangeOK_iff h).mp (hm b hb)))
    rw [h3] at h1
    cases h1
    exact ⟨h3, h2⟩
  refine ⟨l.flatten.all fun a => m.flatten.all fun b => a.disjointT d b,
    allM_ok _ _ _ fun a ha => allM_ok _ _ _ fun b hb => (key a ha b hb).1, ?_⟩
  simp only [List.all_eq_true]
  constructor
  · rintro hh ⟨v, hv, ⟨a, ha, h1⟩, b, hb, h2⟩
    exact (key a ha b hb).2.mp (hh a ha b hb) ⟨v, hv, h1, h2⟩
  · intro hh a ha b hb
    rw [(key a ha b hb).2]
    rintro ⟨v, hv, h1, h2⟩
    exact hh ⟨v, hv, ⟨a, ha, h1⟩, b, hb, h2⟩

example : RangeList.contains dflt exList [[⟨⟨.Matt, 1, 15⟩, ⟨.Matt, 2, 4⟩⟩]] none = .ok true ∧
    RangeList.contains dflt exList [[⟨⟨.Matt, 1, 15⟩, ⟨.Matt, 2, 14⟩⟩]] none = .ok false ∧
    RangeList.isDisjoint defaultData exList [[exMatt]] = .ok true ∧
    RangeList.isDisjoint defaultData exList [[exMatt, ⟨⟨.Matt, 2, 9⟩, ⟨.Matt, 2, 14⟩⟩]] = .ok false := by decide +kernel

/-! ## C32 -/

section
variable {d : BibleData} (h : d.WF)
include h

theorem minItem_spec {l : List BibleRange} (hl : ∀ r ∈ l, ROK d true r) (hne : l ≠ []) :
    ∃ m ∈ l, RangeList.minItem d l = .ok m ∧ ∀ r ∈ l, pos d m.start ≤ pos d r.start := by
  cases l with
  | nil => exact absurd rfl hne
  | cons a l =>
    have key : ∀ (l : List BibleRange) (a : BibleRange), ROK d true a → (∀ r ∈ l, ROK d true r) →
        ∃ m ∈ a :: l, l.foldlM (fun m r => do
          let smaller ← r.less d m
          return if smaller then r else m) a = Except.ok m ∧ ∀ r ∈ a :: l, pos d m.start ≤ pos d r.start := by
      intro l
      induction l with
      | nil => intro a _ _; exact ⟨a, by simp, rfl, by simp⟩
      | cons b l ih =>
        intro a ha hl
        have hb := hl b List.mem_cons_self
        have hlt := h.range_lt hb ha
        rw [List.foldlM_cons, BibleRange.less_eq (hb.alike ha)]
        simp only [pure_bind, bind, Except.bind, pure, Except.pure]
        by_cases hh : b.lt d a = true
        · rw [if_pos hh]
          rw [hlt] at hh
          obtain ⟨m, h1, h2, h3⟩ := ih b hb (fun r hr => hl r (List.mem_cons_of_mem _ hr))
          refine ⟨m, List.mem_cons_of_mem _ h1, h2, ?_⟩
          intro r hr
          rcases List.mem_cons.mp hr with rfl | hr
          · have := h3 b List.mem_cons_self; omega
          · exact h3 r hr
        · rw [if_neg hh]
          rw [hlt] at hh
          obtain ⟨m, h1, h2, h3⟩ := ih a ha (fun r hr => hl r (List.mem_cons_of_mem _ hr))
          refine ⟨m, ?_, h2, ?_⟩
          · rcases List.mem_cons.mp h1 with rfl | h1
            · exact List.mem_cons_self
            · exact List.mem_cons_of_mem _ (List.mem_cons_of_mem _ h1)
          · intro r hr
            rcases List.mem_cons.mp hr with rfl | hr
            · exact h3 _ List.mem_cons_self
            · rcases List.mem_cons.mp hr with rfl | hr
              · have := h3 a List.mem_cons_self; omega
              · exact h3 r (List.mem_cons_of_mem _ hr)
    obtain ⟨m, h1, h2, h3⟩ := key l a (hl a List.mem_cons_self) (fun r hr => hl r (List.mem_cons_of_mem _ hr))
    exact ⟨m, h1, by rw [RangeList.minItem, h2], h3⟩

theorem maxItem_spec {l : List BibleRange} (hl : ∀ r ∈ l, ROK d true r) (hne : l ≠ []) :
    ∃ m ∈ l, RangeList.maxItem d l = .ok m ∧ ∀ r ∈ l, pos d r.start < pos d m.start ∨
      (pos d r.start = pos d m.start ∧ pos d r.stop ≤ pos d m.stop) := by
  cases l with
  | nil => exact absurd rfl hne
  | cons a l =>
    have key : ∀ (l : List BibleRange) (a : BibleRange), ROK d true a → (∀ r ∈ l, ROK d true r) →
        ∃ m ∈ a :: l, l.foldlM (fun m r => do
          let greater ← m.less d r
          return if greater then r else m) a = Except.ok m ∧ ∀ r ∈ a :: l, pos d r.start < pos d m.start ∨
          (pos d r.start = pos d m.start ∧ pos d r.stop ≤ pos d m.stop) := by
      intro l
      induction l with
      | nil => intro a _ _; exact ⟨a, by simp, rfl, by simp⟩
      | cons b l ih =>
        intro a ha hl
        have hb := hl b List.mem_cons_self
        have hlt := h.range_lt ha hb
        rw [List.foldlM_cons, BibleRange.less_eq (ha.alike hb)]
        simp only [pure_bind, bind, Except.bind, pure, Except.pure]
        by_cases hh : a.lt d b = true
        · rw [if_pos hh]
          rw [hlt] at hh
          obtain ⟨m, h1, h2, h3⟩ := ih b hb (fun r hr => hl r (List.mem_cons_of_mem _ hr))
          refine ⟨m, List.mem_cons_of_mem _ h1, h2, ?_⟩
          intro r hr
          rcases List.mem_cons.mp hr with rfl | hr
          · have := h3 b List.mem_cons_self; omega
          · exact h3 r hr
        · rw [if_neg hh]
          rw [hlt] at hh
          obtain ⟨m, h1, h2, h3⟩ := ih a ha (fun r hr => hl r (List.mem_cons_of_mem _ hr))
          refine ⟨m, ?_, h2, ?_⟩
          · rcases List.mem_cons.mp h1 with rfl | h1
            · exact List.mem_cons_self
            · exact List.mem_cons_of_mem _ (List.mem_cons_of_mem _ h1)
          · intro r hr
            rcases List.mem_cons.mp hr with rfl | hr
            · exact h3 _ List.mem_cons_self
            · rcases List.mem_cons.mp hr with rfl | hr
              · have := h3 a List.mem_cons_self; omega
              · exact h3 r (List.mem_cons_of_mem _ hr)
    obtain ⟨m, h1, h2, h3⟩ := key l a (hl a List.mem_cons_self) (fun r hr => hl r (List.mem_cons_of_mem _ hr))
    exact ⟨m, h1, by rw [RangeList.maxItem, h2], h3⟩

end

/-- The range that `range`, `chap_range` and `book_range` of a list start from. -/
theorem list_range_spec {e : Env} (h : e.data.WF) {l : RangeList} (hl : ∀ r ∈ l.flatten, ROK e.data true r) (hne : l.flatten ≠ []) :
    ∃ lo ∈ l.flatten, ∃ hi ∈ l.flatten, RangeList.minItem e.data l.flatten = .ok lo ∧ RangeList.maxItem e.data l.flatten = .ok hi ∧
      ROK e.data true ⟨lo.start, hi.stop⟩ ∧ RangeList.range e l = .ok ⟨lo.start, hi.stop⟩ ∧
      (∀ r ∈ l.flatten, pos e.data lo.start ≤ pos e.data r.start) ∧
      (∀ r ∈ l.flatten, pos e.data r.start < pos e.data hi.start ∨
        (pos e.data r.start = pos e.data hi.start ∧ pos e.data r.stop ≤ pos e.data hi.stop)) := by
  obtain ⟨lo, h1, h2, h3⟩ := minItem_spec h hl hne
  obtain ⟨hi, g1, g2, g3⟩ := maxItem_spec h hl hne
  have hle : pos e.data lo.start ≤ pos e.data hi.stop := by have := h3 hi g1; have := (hl hi g1).le; omega
  refine ⟨lo, h1, hi, g1, h2, g2, ⟨(hl lo h1).s, (hl hi g1).t, hle⟩, ?_, h3, g3⟩
  unfold RangeList.range
  rw [h2, g2]
  exact new_range_ok h (hl lo h1).s (hl hi g1).t hle (flags := some .ALL) (.inl rfl)

/-- C32: for a list whose ranges end in the order in which they start, `range` is the smallest range containing all of
them. Missing: lists in which an earlier range ends later (`C32_counterexample`). -/
theorem C32_range_partial (e : Env) (h : e.data.WF) (l : RangeList) (hl : ∀ r ∈ l.flatten, RangeOK e.data true r)
    (hne : l.flatten ≠ []) (hord : ∀ p ∈ l.flatten, ∀ q ∈ l.flatten, pos e.data p.start < pos e.data q.start →
      pos e.data p.stop ≤ pos e.data q.stop) :
    ∃ r, RangeList.range e l = .ok r ∧ RangeOK e.data true r ∧
      (∀ q ∈ l.flatten, ∀ v, InRange e.data q v → InRange e.data r v) ∧
      (∀ x, RangeOK e.data true x → (∀ q ∈ l.flatten, ∀ v ∈ canon e.data true, InRange e.data q v → InRange e.data x v) →
        ∀ v ∈ canon e.data true, InRange e.data r v → InRange e.data x v) := by
  simp only [rangeOK_iff h] at *
  obtain ⟨lo, h1, hi, h2, _, _, h3, h4, h5, h6⟩ := list_range_spec h hl hne
  refine ⟨_, h4, h3, ?_, ?_⟩
  · intro q hq v hv
    have hs := h5 q hq
    have ht : pos e.data q.stop ≤ pos e.data hi.stop := by
      rcases h6 q hq with hh | hh
      · exact hord q hq hi h2 hh
      · exact hh.2
    have := hv.1; have := hv.2
    exact ⟨by simp only; omega, by simp only; omega⟩
  · intro x _ hx2 v _ hin
    have hlo := hl lo h1
    have hhi := hl hi h2
    have k1 := (hx2 lo h1 lo.start ((mem_canon h).mpr hlo.s) ⟨Nat.le_refl _, hlo.le⟩).1
    have k2 := (hx2 hi h2 hi.stop ((mem_canon h).mpr hhi.t) ⟨hhi.le, Nat.le_refl _⟩).2
    have := hin.1; have := hin.2
    simp only at *
    exact ⟨by omega, by omega⟩

/-- C32: `chap_range` and `book_range` of a list are those of its `range` (and so, by C18, the whole chapters or books
touched by it). -/
theorem C32_chap_book_range_partial (e : Env) (h : e.data.WF) (flags : Option BibleFlag) (l : RangeList)
    (hl : ∀ r ∈ l.flatten, RangeOK e.data true r) (r : BibleRange) (hr : RangeList.range e l = .ok r) :
    RangeList.chapRange e l flags = r.chapRange e flags ∧ RangeList.bookRange e l flags = r.bookRange e flags := by
  simp only [rangeOK_iff h] at hl
  have hne : l.flatten ≠ [] := by
    intro hh
    unfold RangeList.range at hr
    rw [hh] at hr
    cases hr
  obtain ⟨lo, h1, hi, h2, k1, k2, h3, h4, h5, h6⟩ := list_range_spec h hl hne
  rw [hr] at h4; cases h4
  unfold RangeList.chapRange RangeList.bookRange BibleRange.chapRange BibleRange.bookRange
  rw [k1, k2]
  exact ⟨rfl, rfl⟩

/-- The full C32 is false: the range of Matt 1-10 and Matt 2 does not have Matt 5:1; and an empty list raises. -/
theorem C32_counterexample :
    RangeList.range dflt [[⟨⟨.Matt, 1, 1⟩, ⟨.Matt, 10, 42⟩⟩, ⟨⟨.Matt, 2, 1⟩, ⟨.Matt, 2, 23⟩⟩]] = .ok ⟨⟨.Matt, 1, 1⟩, ⟨.Matt, 2, 23⟩⟩ ∧
    RangeList.chapRange dflt [[⟨⟨.Matt, 1, 1⟩, ⟨.Matt, 10, 42⟩⟩, ⟨⟨.Matt, 2, 1⟩, ⟨.Matt, 2, 23⟩⟩]] none = .ok ⟨⟨.Matt, 1, 1⟩, ⟨.Matt, 2, 23⟩⟩ ∧
    RangeList.bookRange dflt [[⟨⟨.Mal, 1, 1⟩, ⟨.Mark, 1, 1⟩⟩, ⟨⟨.Matt, 2, 1⟩, ⟨.Matt, 2, 23⟩⟩]] none = .ok ⟨⟨.Mal, 1, 1⟩, ⟨.Matt, 28, 20⟩⟩ ∧
    RangeList.range dflt [] = .error .valueError := by decide +kernel

example : RangeList.range dflt [[exMatt, exMulti]] = .ok ⟨exMulti.start, exMatt.stop⟩ ∧
    RangeList.bookRange dflt [[exMatt, exMulti]] none = .ok ⟨⟨.Mal, 1, 1⟩, ⟨.Matt, 28, 20⟩⟩ := by decide +kernel
example : ∀ p ∈ ([[exMatt, exMulti]] : RangeList).flatten, ∀ q ∈ ([[exMatt, exMulti]] : RangeList).flatten,
    pos defaultData p.start < pos defaultData q.start → pos defaultData p.stop ≤ pos defaultData q.stop := by
  have hw := defaultData_wf
  have h1 := (rangeOK_iff hw).mp (exMatt_ok true)
  have h2 := (rangeOK_iff hw).mp (exMulti_ok true)
  have k1 : exMulti.stop.lt defaultData exMatt.start = true := by decide +kernel
  rw [hw.lt_pos h2.t h1.s] at k1
  have := h1.le; have := h2.le
  simp only [List.flatten_cons, List.flatten_nil, List.append_nil, List.mem_cons, List.not_mem_nil, or_false]
  rintro p (rfl | rfl) q (rfl | rfl) <;> omega

/-! ## C33 -/

/-- C33: the verse count of a list is the sum of the numbers of verses of its ranges (verse 0s counting for a range as in
C15). -/
theorem C33_verse_count (e : Env) (h : e.data.WF) (l : RangeList) (hl : ∀ r ∈ l.flatten, RangeOK e.data true r) :
    RangeList.verseCount e l = .ok ((l.flatten.map fun r =>
      ((versesOf e.data (e.flags.verse0 || r.start.verse == 0 || r.stop.verse == 0) r).length : Int)).sum) := by
  unfold RangeList.verseCount
  rw [mapM_ok (fun r hr => C15_verse_count e h r (hl r hr) _ rfl)]
  rfl

/-- C33: the chapter and book counts of a list are the sums of the numbers of chapters and books touched by its ranges. -/
theorem C33_chap_book_count (e : Env) (h : e.data.WF) (l : RangeList) (hl : ∀ r ∈ l.flatten, RangeOK e.data true r) :
    ∃ c b : BibleRange → Nat,
      RangeList.chapCount e l false = .ok ((l.flatten.map fun r => (c r : Int)).sum) ∧
      RangeList.bookCount e l false = .ok ((l.flatten.map fun r => (b r : Int)).sum) ∧
      ∀ r ∈ l.flatten, ∀ v0, v0 = (e.flags.verse0 || r.start.verse == 0 || r.stop.verse == 0) →
        HasCard (fun k : BibleBook × Int => ∃ v ∈ versesOf e.data v0 r, (v.book, v.chap) = k) (c r) ∧
        HasCard (fun k : BibleBook => ∃ v ∈ versesOf e.data v0 r, v.book = k) (b r) := by
  have hch : ∀ r : BibleRange, ∃ cb : Nat × Nat, r ∈ l.flatten → r.chapCount e false = .ok (cb.1 : Int) ∧ r.bookCount e false = .ok (cb.2 : Int) ∧
      ∀ v0, v0 = (e.flags.verse0 || r.start.verse == 0 || r.stop.verse == 0) →
        HasCard (fun k : BibleBook × Int => ∃ v ∈ versesOf e.data v0 r, (v.book, v.chap) = k) cb.1 ∧
        HasCard (fun k : BibleBook => ∃ v ∈ versesOf e.data v0 r, v.book = k) cb.2 := by
    intro r
    by_cases hr : r ∈ l.flatten
    · obtain ⟨⟨n, h1, h2⟩, ⟨m, h3, h4⟩⟩ := C16_touched e h r (hl r hr) _ rfl
      exact ⟨(n, m), fun _ => ⟨h1, h3, by rintro v0 rfl; exact ⟨h2, h4⟩⟩⟩
    · exact ⟨(0, 0), fun hh => absurd hh hr⟩
  obtain ⟨f, hf⟩ := Classical.axiomOfChoice hch
  refine ⟨fun r => (f r).1, fun r => (f r).2, ?_, ?_, fun r hr => (hf r hr).2.2⟩
  · unfold RangeList.chapCount
    rw [mapM_ok (fun r hr => (hf r hr).1)]; rfl
  · unfold RangeList.bookCount
    rw [mapM_ok (fun r hr => (hf r hr).2.1)]; rfl

/-- C33: with `whole=True`, the sums of the numbers of chapters and books lying entirely in the ranges, for ranges allowed
by the global flags (as in C16). -/
theorem C33_whole_count_partial (e : Env) (h : e.data.WF) (l : RangeList) (hl : ∀ r ∈ l.flatten, RangeOK e.data e.flags.verse0 r) :
    ∃ c b : BibleRange → Nat,
      RangeList.chapCount e l true = .ok ((l.flatten.map fun r => (c r : Int)).sum) ∧
      RangeList.bookCount e l true = .ok ((l.flatten.map fun r => (b r : Int)).sum) ∧
      ∀ r ∈ l.flatten,
        HasCard (fun k : BibleBook × Int => (∃ v ∈ canon e.data e.flags.verse0, (v.book, v.chap) = k) ∧
          ∀ v ∈ canon e.data e.flags.verse0, (v.book, v.chap) = k → InRange e.data r v) (c r) ∧
        HasCard (fun k : BibleBook => (∃ v ∈ canon e.data e.flags.verse0, v.book = k) ∧
          ∀ v ∈ canon e.data e.flags.verse0, v.book = k → InRange e.data r v) (b r) := by
  have hch : ∀ r : BibleRange, ∃ cb : Nat × Nat, r ∈ l.flatten → r.chapCount e true = .ok (cb.1 : Int) ∧ r.bookCount e true = .ok (cb.2 : Int) ∧
        HasCard (fun k : BibleBook × Int => (∃ v ∈ canon e.data e.flags.verse0, (v.book, v.chap) = k) ∧
          ∀ v ∈ canon e.data e.flags.verse0, (v.book, v.chap) = k → InRange e.data r v) cb.1 ∧
        HasCard (fun k : BibleBook => (∃ v ∈ canon e.data e.flags.verse0, v.book = k) ∧
          ∀ v ∈ canon e.data e.flags.verse0, v.book = k → InRange e.data r v) cb.2 := by
    intro r
    by_cases hr : r ∈ l.flatten
    · obtain ⟨⟨n, h1, h2⟩, ⟨m, h3, h4⟩⟩ := C16_whole_partial e h r (hl r hr)
      exact ⟨(n, m), fun _ => ⟨h1, h3, h2, h4⟩⟩
    · exact ⟨(0, 0), fun hh => absurd hh hr⟩
  obtain ⟨f, hf⟩ := Classical.axiomOfChoice hch
  refine ⟨fun r => (f r).1, fun r => (f r).2, ?_, ?_, fun r hr => (hf r hr).2.2⟩
  · unfold RangeList.chapCount
    rw [mapM_ok (fun r hr => (hf r hr).1)]; rfl
  · unfold RangeList.bookCount
    rw [mapM_ok (fun r hr => (hf r hr).2.1)]; rfl

theorem sum_card {d : BibleData} {f : BibleFlag} {l : List BibleRange} (h : d.WF) (hl : ∀ r ∈ l, AOK d f r)
    (hg : Neighbours (Gap d f) l) :
    HasCard (fun v => v ∈ canon d f.verse0 ∧ Covered d l v) ((l.map fun r => (versesOf d f.verse0 r).length).sum) := by
  refine ⟨l.flatMap (versesOf d f.verse0), ?_, ?_, ?_⟩
  · induction l with
    | nil => simp
    | cons p l ih =>
      rw [List.flatMap_cons, List.nodup_append]
      refine ⟨(h.nodup_canon f.verse0).filter _, ih (fun r hr => hl r (List.mem_cons_of_mem _ hr)) (neighbours_cons.mp hg).2, ?_⟩
      intro v hv w hw hvw
      subst hvw
      obtain ⟨q, hq, hvq⟩ := List.mem_flatMap.mp hw
      have h1 := gap_later hg (fun r hr => (hl r hr).toROK) q hq
      simp only [versesOf, List.mem_filter, decide_eq_true_eq] at hv hvq
      have := hv.2.2; have := hvq.2.1
      omega
  · intro v
    simp only [List.mem_flatMap, versesOf, List.mem_filter, decide_eq_true_eq, Covered]
    constructor
    · rintro ⟨r, hr, h1, h2⟩; exact ⟨h1, r, hr, h2⟩
    · rintro ⟨h1, r, hr, h2⟩; exact ⟨r, hr, h1, h2⟩
  · rw [List.length_flatMap]

/-- C33: the verse count of a merged list is the number of different verses the list covers. -/
theorem C33_merged_verse_count (e : Env) (h : e.data.WF) (l m : RangeList) (hl : ∀ r ∈ l.flatten, Allowed e.data e.flags r)
    (hm : RangeList.merge e l none = .ok m) :
    ∃ n : Nat, RangeList.verseCount e m = .ok n ∧ HasCard (fun v => v ∈ canon e.data e.flags.verse0 ∧ Covered e.data l.flatten v) n := by
  obtain ⟨m', h1, h2, h3, h4, _⟩ := C26_merge e h none l hl
  rw [hm] at h1; cases h1
  have h2 : ∀ r ∈ m.flatten, Allowed e.data e.flags r := h2
  have h3 : ∀ v ∈ canon e.data e.flags.verse0, (Covered e.data m.flatten v ↔ Covered e.data l.flatten v) := h3
  have h4 : Canonical e.data e.flags m.flatten := h4
  simp only [allowed_iff h] at *
  have hok : ∀ r ∈ m.flatten, RangeOK e.data true r := fun r hr => (rangeOK_iff h).mpr ⟨(h2 r hr).s.mono, (h2 r hr).t.mono, (h2 r hr).le⟩
  refine ⟨(m.flatten.map fun r => (versesOf e.data e.flags.verse0 r).length).sum, ?_, ?_⟩
  · rw [C33_verse_count e h m hok]
    congr 1
    have : ∀ r ∈ m.flatten, ((versesOf e.data (e.flags.verse0 || r.start.verse == 0 || r.stop.verse == 0) r).length : Int) =
        ((versesOf e.data e.flags.verse0 r).length : Nat) := by
      intro r hr
      rw [(h2 r hr).s.or_self, (h2 r hr).t.or_self]
    rw [List.map_congr_left this]
    generalize m.flatten = k
    induction k with
    | nil => rfl
    | cons a k ih => simp only [List.map_cons, List.sum_cons, ih, Int.natCast_add]
  · obtain ⟨L, k1, k2, k3⟩ := sum_card h h2 ((gaps_iff_canonical h h2).mpr h4)
    refine ⟨L, k1, fun v => ?_, k3⟩
    rw [k2 v]
    refine and_congr_right (fun hv => h3 v hv)

example : RangeList.verseCount dflt exList = .ok 41 ∧ RangeList.chapCount dflt exList false = .ok 4 ∧
    RangeList.chapCount dflt exList true = .ok 0 ∧ RangeList.bookCount dflt exList false = .ok 4 := by decide +kernel

/-! ## C49 -/

/-- C49, the part about the list objects: the updating methods leave in the object the list that the other methods return,
for `&` and `^` with all ranges in one group. -/
theorem C49_updates_partial (e : Env) (flags : Option BibleFlag) (a b : RangeList) (ha : ∀ g ∈ a, g ≠ []) (fuel : Nat) :
    RangeList.unionUpdate e a b flags = RangeList.union e a b flags ∧
    RangeList.differenceUpdate e a b flags fuel = RangeList.difference e a b flags fuel ∧
    (∀ i, RangeList.intersection e a b flags = .ok i → ∃ i', RangeList.intersectionUpdate e a b flags = .ok i' ∧
      i'.flatten = i.flatten ∧ i'.length ≤ 1) ∧
    (∀ s, RangeList.symDifference e a b flags fuel = .ok s → ∃ s', RangeList.symDifferenceUpdate e a b flags fuel = .ok s' ∧
      s'.flatten = s.flatten ∧ s'.length ≤ 1) := by
  have hone : ∀ l : List BibleRange, (Groups.extend [] l).flatten = l ∧ (Groups.extend [] l).length ≤ 1 := by
    intro l
    rw [Groups.extend_nil]
    by_cases hl : l = []
    · simp [hl]
    · simp [hl]
  refine ⟨?_, ?_, ?_, ?_⟩
  · rw [RangeList.union, RangeList.copy_eq ha]
  · rw [RangeList.difference, RangeList.copy_eq ha]
  · intro i hi
    refine ⟨Groups.extend [] i.flatten, ?_, hone _⟩
    unfold RangeList.intersectionUpdate; rw [hi]; rfl
  · intro s hs
    refine ⟨Groups.extend [] s.flatten, ?_, hone _⟩
    unfold RangeList.symDifferenceUpdate; rw [hs]; rfl

/-- The full C49 is false for every pair of lists: after `a |= b` the variable holds `None`. -/
theorem C49_counterexample (e : Env) (a b : RangeList) (fuel : Nat) :
    RangeList.ior e a b = (RangeList.unionUpdate e a b none).map (fun _ => none) ∧
    RangeList.iand e a b = (RangeList.intersectionUpdate e a b none).map (fun _ => none) ∧
    RangeList.isub e a b fuel = (RangeList.differenceUpdate e a b none fuel).map (fun _ => none) ∧
    RangeList.ixor e a b fuel = (RangeList.symDifferenceUpdate e a b none fuel).map (fun _ => none) := by
  unfold RangeList.ior RangeList.iand RangeList.isub RangeList.ixor
  refine ⟨?_, ?_, ?_, ?_⟩
  · cases RangeList.unionUpdate e a b none <;> rfl
  · cases RangeList.intersectionUpdate e a b none <;> rfl
  · cases RangeList.differenceUpdate e a b none fuel <;> rfl
  · cases RangeList.symDifferenceUpdate e a b none fuel <;> rfl

example : RangeList.ior dflt exList [[exMatt]] = .ok none ∧ RangeList.intersectionUpdate dflt exList exList none =
    .ok [[⟨⟨.Matt, 1, 1⟩, ⟨.Matt, 2, 10⟩⟩, ⟨⟨.Mark, 1, 1⟩, ⟨.Mark, 1, 3⟩⟩]] := by decide +kernel

/-! ## C09 -/

/-- C09: the conversions of a list replace every range by its conversion and keep order and groups. -/
theorem C09_list_conversions (e : Env) (h : e.data.WF) (l : RangeList) (hl : ∀ r ∈ l.flatten, RangeOK e.data true r) :
    (∃ f : BibleRange → BibleRange, RangeList.verse0to1 e l = .ok (l.map fun g => g.map f) ∧
      ∀ r ∈ l.flatten, r.verse0to1 e = .ok (f r) ∧ RangeOK e.data true (f r)) ∧
    (∃ f : BibleRange → BibleRange, RangeList.verse1to0 e l = .ok (l.map fun g => g.map f) ∧
      ∀ r ∈ l.flatten, r.verse1to0 e = .ok (f r) ∧ RangeOK e.data true (f r)) := by
  have key : ∀ conv : BibleRange → Except PyErr BibleRange, (∀ r ∈ l.flatten, ∃ r', conv r = .ok r' ∧ RangeOK e.data true r') →
      ∃ f : BibleRange → BibleRange, l.mapM (fun g => g.mapM conv) = .ok (l.map fun g => g.map f) ∧
        ∀ r ∈ l.flatten, conv r = .ok (f r) ∧ RangeOK e.data true (f r) := by
    intro conv hc
    have hch : ∀ r : BibleRange, ∃ r', r ∈ l.flatten → conv r = .ok r' ∧ RangeOK e.data true r' := by
      intro r
      by_cases hr : r ∈ l.flatten
      · obtain ⟨r', h1⟩ := hc r hr; exact ⟨r', fun _ => h1⟩
      · exact ⟨r, fun hh => absurd hh hr⟩
    obtain ⟨f, hf⟩ := Classical.axiomOfChoice hch
    refine ⟨f, ?_, hf⟩
    apply mapM_ok
    intro g hg
    apply mapM_ok
    intro r hr
    exact (hf r (List.mem_flatten.mpr ⟨g, hg, hr⟩)).1
  refine ⟨key _ ?_, key _ ?_⟩
  · intro r hr
    obtain ⟨⟨s, t, _, _, h1, h2⟩, _⟩ := C09_range_conversions e h r (hl r hr)
    exact ⟨_, h1, h2⟩
  · intro r hr
    obtain ⟨_, ⟨s, t, _, _, h1, h2⟩⟩ := C09_range_conversions e h r (hl r hr)
    exact ⟨_, h1, h2⟩

example : RangeList.verse0to1 dflt [[exPsa], [exMatt]] = .ok [[⟨⟨.Psa, 3, 1⟩, ⟨.Psa, 4, 1⟩⟩], [exMatt]] := by decide +kernel

/-! ## C19 -/

/-- C19: `split` returns the pieces in a list: in one group, or grouped as `regroup` groups them. -/
theorem C19_split_groups (e : Env) (h : e.data.WF) (r : BibleRange) (byBook byChap : Bool) (num : Option Int)
    (flags : Option BibleFlag) (fuel : Nat) (pieces : List BibleRange)
    (hp : r.splitRaw e byBook byChap num flags fuel = .ok pieces) (hok : ∀ x ∈ pieces, RangeOK e.data true x) (hne : pieces ≠ []) :
    r.split e byBook byChap num false flags fuel = .ok [pieces] ∧
    ∃ m, r.split e byBook byChap num true flags fuel = .ok m ∧ m.flatten = pieces ∧ (∀ g ∈ m, g ≠ []) := by
  constructor
  · unfold BibleRange.split
    rw [hp]
    have : RangeList.ofRanges pieces = [pieces] := by
      have := Groups.extend_nil pieces
      rw [if_neg hne] at this
      exact this
    simp only [bind, Except.bind, pure, Except.pure, this]
    rfl
  · obtain ⟨m, h1, h2, h3⟩ := RangeList.regroup_ok h (flags := none) (l := pieces) (fun hh => hh)
      (fun x hx => (rangeOK_iff h).mp (hok x hx))
    refine ⟨m, ?_, h2, h3⟩
    unfold BibleRange.split
    rw [hp]
    exact h1

example : exMatt.split dflt false true none true none 100 = .ok [[⟨⟨.Matt, 5, 10⟩, ⟨.Matt, 5, 48⟩⟩],
    [⟨⟨.Matt, 6, 1⟩, ⟨.Matt, 6, 34⟩⟩], [⟨⟨.Matt, 7, 1⟩, ⟨.Matt, 7, 2⟩⟩]] := by decide +kernel

end Bibleref

import Verif.Lemmas.SetOps
import Verif.Props.Ranges

/-!
# Set operations on ranges (C20-C25)

Statements use the vocabulary of `Verif/Spec.lean` and the modelled methods only. `v0` says whether verse 0s are among
the verses considered; for operations that take flags it is what the flags in force say.
-/

namespace Bibleref
open Spec

/-! ## C20 -/

/-- C20: `contains`, `surrounds` and `is_disjoint` in terms of the verses of the ranges. -/
theorem C20_contains_surrounds_disjoint (d : BibleData) (h : d.WF) (v0 : Bool) (a b : BibleRange) (ha : RangeOK d v0 a)
    (hb : RangeOK d v0 b) :
    Answers (a.contains d b) (∀ v ∈ canon d v0, InRange d b v → InRange d a v) ∧
    Answers (a.surrounds d b) (∀ v ∈ canon d v0, InRange d b v → InRange d a v ∧ v ≠ a.start ∧ v ≠ a.stop) ∧
    Answers (a.isDisjoint d b) (¬ ∃ v ∈ canon d v0, InRange d a v ∧ InRange d b v) := by
  have ha' := (rangeOK_iff h).mp ha
  have hb' := (rangeOK_iff h).mp hb
  have hla := ha.3
  have hlb := hb.3
  refine ⟨⟨_, contains_ok h ha' hb', ?_⟩, ⟨_, surrounds_ok h ha' hb', ?_⟩, ⟨_, disjoint_ok h ha' hb', ?_⟩⟩
  all_goals
    rw [decide_eq_true_iff]
    simp only [InRange]
    constructor
  · intro h1 v _ h2; omega
  · intro h1
    have h2 := h1 _ hb.1 ⟨Nat.le_refl _, hlb⟩
    have h3 := h1 _ hb.2 ⟨hlb, Nat.le_refl _⟩
    omega
  · intro h1 v hv h2
    refine ⟨by omega, ?_, ?_⟩
    · rintro rfl; omega
    · rintro rfl; omega
  · intro h1
    have h2 := h1 _ hb.1 ⟨Nat.le_refl _, hlb⟩
    have h3 := h1 _ hb.2 ⟨hlb, Nat.le_refl _⟩
    have h4 := mt (h.pos_inj hb'.s ha'.s).mp h2.2.1
    have h5 := mt (h.pos_inj hb'.t ha'.t).mp h3.2.2
    omega
  · rintro h1 ⟨v, _, h2, h3⟩; omega
  · intro h1
    apply Classical.byContradiction
    intro h2
    apply h1
    by_cases hs : pos d a.start ≤ pos d b.start
    · exact ⟨b.start, hb.1, ⟨hs, by omega⟩, ⟨Nat.le_refl _, hlb⟩⟩
    · exact ⟨a.start, ha.1, ⟨Nat.le_refl _, hla⟩, ⟨by omega, by omega⟩⟩

/-- C20: `contains` is a partial order and `is_disjoint` is symmetric. -/
theorem C20_containment_order (d : BibleData) (h : d.WF) (v0 : Bool) (a b c : BibleRange) (ha : RangeOK d v0 a) (hb : RangeOK d v0 b)
    (hc : RangeOK d v0 c) :
    a.contains d a = .ok true ∧ (a.contains d b = .ok true → b.contains d c = .ok true → a.contains d c = .ok true) ∧
    (a.contains d b = .ok true → b.contains d a = .ok true → a = b) ∧ a.isDisjoint d b = b.isDisjoint d a := by
  have ha' := (rangeOK_iff h).mp ha
  have hb' := (rangeOK_iff h).mp hb
  have hc' := (rangeOK_iff h).mp hc
  rw [contains_ok h ha' ha', contains_ok h ha' hb', contains_ok h hb' hc', contains_ok h ha' hc', contains_ok h hb' ha',
    disjoint_ok h ha' hb', disjoint_ok h hb' ha']
  simp only [Except.ok.injEq, decide_eq_true_iff]
  refine ⟨by omega, by omega, ?_, ?_⟩
  · intro h1 h2
    exact BibleRange.ext_pos h ha' hb' (by omega) (by omega)
  · rw [decide_eq_decide, or_comm]

/-- Matt 5:20-6:3, used in the examples. -/
abbrev exIn : BibleRange := ⟨⟨.Matt, 5, 20⟩, ⟨.Matt, 6, 3⟩⟩
theorem exIn_ok (v0 : Bool) : RangeOK defaultData v0 exIn := by
  cases v0 <;> exact defaultData_rangeOK (by decide +kernel) (by decide +kernel) (by decide +kernel)
/-- Matt 7:3-9, used in the examples. -/
abbrev exNext : BibleRange := ⟨⟨.Matt, 7, 3⟩, ⟨.Matt, 7, 9⟩⟩
theorem exNext_ok (v0 : Bool) : RangeOK defaultData v0 exNext := by
  cases v0 <;> exact defaultData_rangeOK (by decide +kernel) (by decide +kernel) (by decide +kernel)

example : exMatt.contains defaultData exIn = .ok true ∧ exMatt.surrounds defaultData exIn = .ok true ∧
    exMatt.isDisjoint defaultData exNext = .ok true ∧ exMatt.isDisjoint defaultData exIn = .ok false := by decide +kernel
example : RangeOK defaultData true exMatt ∧ RangeOK defaultData true exIn ∧ RangeOK defaultData true exNext :=
  ⟨exMatt_ok _, exIn_ok _, exNext_ok _⟩

/-! ## C21 -/

/-- C21: `is_adjacent` never raises, is symmetric, and holds exactly when the ranges share no verse, no verse allowed by
the flags lies between them, and they meet inside one book unless `MULTIBOOK` is in force. -/
theorem C21_is_adjacent (e : Env) (h : e.data.WF) (flags : Option BibleFlag) (v0 : Bool) (hv0 : v0 = (inForce e flags).verse0)
    (a b : BibleRange) (ha : RangeOK e.data v0 a) (hb : RangeOK e.data v0 b) :
    ∃ r, a.isAdjacent e b flags = .ok r ∧ b.isAdjacent e a flags = .ok r ∧
      (r = true ↔ (¬ ∃ v ∈ canon e.data v0, InRange e.data a v ∧ InRange e.data b v) ∧
        (¬ ∃ v ∈ canon e.data v0, (pos e.data a.stop < pos e.data v ∧ pos e.data v < pos e.data b.start) ∨
          (pos e.data b.stop < pos e.data v ∧ pos e.data v < pos e.data a.start)) ∧
        ((inForce e flags).multibook = true ∨ (pos e.data a.stop < pos e.data b.start ∧ a.stop.book = b.start.book) ∨
          (pos e.data b.stop < pos e.data a.start ∧ b.stop.book = a.start.book))) := by
  rw [← eff_eq] at hv0 ⊢
  subst hv0
  have ha' := (rangeOK_iff h).mp ha
  have hb' := (rangeOK_iff h).mp hb
  have hla := ha.3
  have hlb := hb.3
  have hdis := (C20_contains_surrounds_disjoint e.data h _ a b ha hb).2.2
  rw [disjoint_ok h ha' hb'] at hdis
  obtain ⟨_, ⟨⟩, hdis⟩ := hdis
  rw [decide_eq_true_iff] at hdis
  refine ⟨_, isAdjacent_spec h ha' hb', ?_, ?_⟩
  · rw [isAdjacent_spec h hb' ha']; congr 1; rw [decide_eq_decide, or_comm]
  · rw [decide_eq_true_iff, ← hdis,
      adj_iff h ha' hb', adj_iff h hb' ha']
    constructor
    · rintro (⟨h1, h2, h3⟩ | ⟨h1, h2, h3⟩)
      · refine ⟨.inl h1, ?_, h3.imp id (fun hh => .inl ⟨h1, hh⟩)⟩
        rintro ⟨v, hv, hh | hh⟩
        · exact h2 ⟨v, hv, hh⟩
        · omega
      · refine ⟨.inr h1, ?_, h3.imp id (fun hh => .inr ⟨h1, hh⟩)⟩
        rintro ⟨v, hv, hh | hh⟩
        · omega
        · exact h2 ⟨v, hv, hh⟩
    · rintro ⟨h1 | h1, h2, h3⟩
      · left
        refine ⟨h1, fun ⟨v, hv, hh⟩ => h2 ⟨v, hv, .inl hh⟩, ?_⟩
        rcases h3 with h3 | h3 | h3
        · exact .inl h3
        · exact .inr h3.2
        · omega
      · right
        refine ⟨h1, fun ⟨v, hv, hh⟩ => h2 ⟨v, hv, .inr hh⟩, ?_⟩
        rcases h3 with h3 | h3 | h3
        · exact .inl h3
        · omega
        · exact .inr h3.2

example : exMatt.isAdjacent dflt exNext none = .ok true ∧ exNext.isAdjacent dflt exMatt none = .ok true ∧
    exMatt.isAdjacent dflt exIn none = .ok false ∧
    BibleRange.isAdjacent dflt ⟨⟨.Mal, 4, 5⟩, ⟨.Mal, 4, 6⟩⟩ ⟨⟨.Matt, 1, 1⟩, ⟨.Matt, 1, 2⟩⟩ none = .ok false ∧
    BibleRange.isAdjacent dflt ⟨⟨.Mal, 4, 5⟩, ⟨.Mal, 4, 6⟩⟩ ⟨⟨.Matt, 1, 1⟩, ⟨.Matt, 1, 2⟩⟩ (some .MULTIBOOK) = .ok true := by
  decide +kernel

/-! ## C22 -/

theorem hull_comm {d : BibleData} (h : d.WF) {v0 : Bool} {a b : BibleRange} (ha : ROK d v0 a) (hb : ROK d v0 b) :
    hull d a b = hull d b a := by
  obtain ⟨h1, h2, _⟩ := hull_pos h ha hb
  obtain ⟨h3, h4, _⟩ := hull_pos h hb ha
  exact BibleRange.ext_pos h (hull_ok h ha hb) (hull_ok h hb ha) (by omega) (by omega)

theorem joins_comm {d : BibleData} {f : BibleFlag} {a b : BibleRange} : Joins d f a b ↔ Joins d f b a := by
  unfold Joins
  rw [or_comm (a := Adj d f a b), and_comm]

theorem joins_iff_or {d : BibleData} (h : d.WF) {f : BibleFlag} {a b : BibleRange} (ha : ROK d f.verse0 a) (hb : ROK d f.verse0 b) :
    Joins d f a b ↔ a.isDisjoint d b = .ok false ∨ (Adj d f a b ∨ Adj d f b a) := by
  rw [Joins, BibleRange.isDisjoint_false (ha.alike hb), ← Bool.not_eq_true, isDisjoint_iff h ha hb]
  constructor
  · rintro (hh | hh)
    · left; omega
    · exact .inr hh
  · rintro (hh | hh)
    · left; omega
    · exact .inr hh

/-- Which verses the hull of two joining ranges has. -/
theorem inRange_hull {d : BibleData} (h : d.WF) {f : BibleFlag} {a b : BibleRange} (ha : ROK d f.verse0 a) (hb : ROK d f.verse0 b)
    (hj : Joins d f a b) {v : BibleVerse} (hv : v ∈ canon d f.verse0) :
    InRange d (hull d a b) v ↔ InRange d a v ∨ InRange d b v := by
  obtain ⟨h1, h2, _⟩ := hull_pos h ha hb
  have := ha.le; have := hb.le
  rw [InRange, InRange, InRange, h1, h2]
  rcases hj with hj | hj | hj
  · omega
  · rw [adj_iff h ha hb] at hj
    have : ¬ (pos d a.stop < pos d v ∧ pos d v < pos d b.start) := fun hh => hj.2.1 ⟨v, hv, hh⟩
    omega
  · rw [adj_iff h hb ha] at hj
    have : ¬ (pos d b.stop < pos d v ∧ pos d v < pos d a.start) := fun hh => hj.2.1 ⟨v, hv, hh⟩
    omega

/-- C22: the union never raises, covers exactly the verses in either range, and consists of one range if they overlap or
are adjacent and of the two ranges in reading order otherwise. It does not depend on the order of the operands. -/
theorem C22_union (e : Env) (h : e.data.WF) (flags : Option BibleFlag) (a b : BibleRange)
    (ha : Allowed e.data (inForce e flags) a) (hb : Allowed e.data (inForce e flags) b) :
    ∃ l, a.union e b flags = .ok l ∧ b.union e a flags = .ok l ∧ (∀ x ∈ l, Allowed e.data (inForce e flags) x) ∧
      (∀ v ∈ canon e.data (inForce e flags).verse0, Covered e.data l v ↔ InRange e.data a v ∨ InRange e.data b v) ∧
      (if a.isDisjoint e.data b = .ok false ∨ a.isAdjacent e b flags = .ok true then l.length = 1
        else (l = [a, b] ∨ l = [b, a]) ∧ Neighbours (fun p q => pos e.data p.stop < pos e.data q.start) l) := by
  rw [← eff_eq] at *
  simp only [allowed_iff h] at *
  have hadj := isAdjacent_spec h (flags := flags) ha.toROK hb.toROK
  have hcond : (a.isDisjoint e.data b = .ok false ∨ a.isAdjacent e b flags = .ok true) ↔ Joins e.data (e.eff flags) a b := by
    rw [joins_iff_or h ha.toROK hb.toROK, hadj]
    simp
  refine ⟨_, union_spec h ha hb, ?_, ?_⟩
  · rw [union_spec h hb ha, hull_comm h hb.toROK ha.toROK]
    congr 1
    by_cases hj : Joins e.data (e.eff flags) a b
    · rw [if_pos hj, if_pos (joins_comm.mp hj)]
    · rw [if_neg hj, if_neg (fun hh => hj (joins_comm.mp hh))]
      rw [Joins, not_or] at hj
      have := ha.le; have := hb.le
      by_cases h1 : pos e.data a.stop < pos e.data b.start
      · rw [if_pos h1, if_neg (by omega)]
      · rw [if_neg h1, if_pos (by omega)]
  · simp only [hcond]
    by_cases hj : Joins e.data (e.eff flags) a b
    · simp only [if_pos hj]
      refine ⟨?_, ?_, rfl⟩
      · intro x hx
        rw [List.mem_singleton] at hx; subst hx
        exact hull_aok h ha hb hj
      · intro v hv
        rw [← inRange_hull h ha.toROK hb.toROK hj hv, Covered]
        simp
    · simp only [if_neg hj]
      rw [Joins, not_or] at hj
      have := ha.le; have := hb.le
      by_cases h1 : pos e.data a.stop < pos e.data b.start
      · simp only [if_pos h1]
        refine ⟨?_, ?_, .inl trivial, h1, trivial⟩
        · intro x hx
          rcases List.mem_cons.mp hx with rfl | hx
          · exact ha
          · rw [List.mem_singleton] at hx; subst hx; exact hb
        · intro v _; simp [Covered]
      · simp only [if_neg h1]
        refine ⟨?_, ?_, .inr trivial, by simp only; omega, trivial⟩
        · intro x hx
          rcases List.mem_cons.mp hx with rfl | hx
          · exact hb
          · rw [List.mem_singleton] at hx; subst hx; exact ha
        · intro v _; simp [Covered, or_comm]

theorem exMatt_allowed (f : BibleFlag) : Allowed defaultData f exMatt := ⟨exMatt_ok _, .inr rfl⟩
theorem exIn_allowed (f : BibleFlag) : Allowed defaultData f exIn := ⟨exIn_ok _, .inr rfl⟩
theorem exNext_allowed (f : BibleFlag) : Allowed defaultData f exNext := ⟨exNext_ok _, .inr rfl⟩

example : exNext.union dflt exMatt none = .ok [⟨⟨.Matt, 5, 10⟩, ⟨.Matt, 7, 9⟩⟩] ∧ exNext.union dflt exIn none = .ok [exIn, exNext] ∧
    exMatt.union dflt exMulti (some .MULTIBOOK) = .ok [exMulti, exMatt] := by decide +kernel
example : Allowed dflt.data (inForce dflt none) exMatt ∧ Allowed dflt.data (inForce dflt none) exNext ∧
    Allowed dflt.data (inForce dflt (some .MULTIBOOK)) exMulti := ⟨exMatt_allowed _, exNext_allowed _, exMulti_ok _, .inl rfl⟩

/-! ## C23 -/

theorem meet_comm {d : BibleData} (h : d.WF) {v0 : Bool} {a b : BibleRange} (ha : ROK d v0 a) (hb : ROK d v0 b)
    (ho : pos d a.start ≤ pos d b.stop ∧ pos d b.start ≤ pos d a.stop) : meet d a b = meet d b a := by
  obtain ⟨h1, h2, h3, h4⟩ := meet_pos h ha hb
  obtain ⟨g1, g2, g3, g4⟩ := meet_pos h hb ha
  have := ha.le; have := hb.le
  exact BibleRange.ext_pos h ⟨h3, h4, by omega⟩ ⟨g3, g4, by omega⟩ (by omega) (by omega)

/-- C23: the intersection never raises, is empty exactly when the ranges are disjoint, and otherwise is one range covering
exactly the verses in both. It does not depend on the order of the operands. -/
theorem C23_intersection (e : Env) (h : e.data.WF) (flags : Option BibleFlag) (a b : BibleRange)
    (ha : Allowed e.data (inForce e flags) a) (hb : Allowed e.data (inForce e flags) b) :
    ∃ l, a.intersection e b flags = .ok l ∧ b.intersection e a flags = .ok l ∧ (∀ x ∈ l, Allowed e.data (inForce e flags) x) ∧
      (∀ v ∈ canon e.data (inForce e flags).verse0, Covered e.data l v ↔ InRange e.data a v ∧ InRange e.data b v) ∧
      l.length = if a.isDisjoint e.data b = .ok true then 0 else 1 := by
  rw [← eff_eq] at *
  simp only [allowed_iff h] at *
  have hdis := (BibleRange.isDisjoint_true (ha.toROK.alike hb.toROK)).trans (isDisjoint_iff h ha.toROK hb.toROK)
  have hla := ha.le
  have hlb := hb.le
  refine ⟨_, intersection_spec h ha hb, ?_, ?_⟩
  · rw [intersection_spec h hb ha]
    congr 1
    by_cases ho : pos e.data a.start ≤ pos e.data b.stop ∧ pos e.data b.start ≤ pos e.data a.stop
    · rw [if_pos ho, if_pos ho.symm, meet_comm h ha.toROK hb.toROK ho]
    · rw [if_neg ho, if_neg (fun hh => ho hh.symm)]
  · by_cases ho : pos e.data a.start ≤ pos e.data b.stop ∧ pos e.data b.start ≤ pos e.data a.stop
    · simp only [if_pos ho]
      rw [if_neg (by rw [hdis]; omega)]
      refine ⟨?_, ?_, rfl⟩
      · intro x hx
        rw [List.mem_singleton] at hx; subst hx
        exact meet_aok h ha hb ho
      · intro v _
        obtain ⟨h1, h2, _⟩ := meet_pos h ha.toROK hb.toROK
        simp only [Covered, List.mem_singleton, exists_eq_left, InRange, h1, h2]
        omega
    · simp only [if_neg ho]
      rw [if_pos (by rw [hdis]; omega)]
      refine ⟨by simp, ?_, rfl⟩
      intro v _
      simp only [Covered, List.not_mem_nil, false_and, exists_false, InRange, false_iff]
      omega

example : exMatt.intersection dflt exIn none = .ok [exIn] ∧ exMatt.intersection dflt exNext none = .ok [] ∧
    BibleRange.intersection dflt exMatt ⟨⟨.Matt, 7, 1⟩, ⟨.Matt, 8, 1⟩⟩ none = .ok [⟨⟨.Matt, 7, 1⟩, ⟨.Matt, 7, 2⟩⟩] := by decide +kernel

/-! ## C24 -/

theorem hasRoom_neighbours {d : BibleData} (h : d.WF) {f : BibleFlag} {s t : BibleVerse} (hs : Valid d f.verse0 s)
    (ht : Valid d f.verse0 t) (hr : HasRoom d f s t) :
    ∃ p q, (canon d f.verse0)[ix d f.verse0 s - 1]? = some p ∧ 1 ≤ ix d f.verse0 s ∧
      (canon d f.verse0)[ix d f.verse0 t + 1]? = some q ∧ (f.multibook = true ∨ (p.book = s.book ∧ q.book = t.book)) := by
  obtain ⟨p0, hp0, q0, hq0, h1, h2, h3⟩ := hr
  rw [mem_canon h] at hp0 hq0
  rw [pos_lt_ix h hp0 hs] at h1
  rw [pos_lt_ix h ht hq0] at h2
  have hl1 := (List.getElem?_eq_some_iff.mp (ix_get h hs)).1
  have hl2 := (List.getElem?_eq_some_iff.mp (ix_get h hq0)).1
  have g1 := List.getElem?_eq_getElem (show ix d f.verse0 s - 1 < (canon d f.verse0).length by omega)
  have g2 := List.getElem?_eq_getElem (show ix d f.verse0 t + 1 < (canon d f.verse0).length by omega)
  refine ⟨_, _, g1, by omega, g2, ?_⟩
  rcases h3 with h3 | ⟨h3, h4⟩
  · exact .inl h3
  · right
    constructor
    · rw [book_between h (ix_get h hp0) g1 (ix_get h hs) (by omega) (by omega) h3, h3]
    · exact book_between h (ix_get h ht) g2 (ix_get h hq0) (by omega) (by omega) h4.symm

/-- C24 with room around `b`: the difference does not raise, is at most two ranges in order, and covers exactly the verses
in `a` that are not in `b`. Missing: when `b` begins at the first or ends at the last verse of the Bible (without
`MULTIBOOK`: of its book) and something of `a` remains, the code raises (`C24_raises`, `C24_counterexample`); and
`MULTIBOOK` given to the call but not globally is not honoured. -/
theorem C24_difference_partial (e : Env) (h : e.data.WF) (flags : Option BibleFlag) (a b : BibleRange)
    (ha : Allowed e.data (inForce e flags) a) (hb : Allowed e.data (inForce e flags) b)
    (hm : (inForce e flags).multibook = true → e.flags.multibook = true)
    (hroom : (∃ v ∈ canon e.data (inForce e flags).verse0, InRange e.data a v ∧ InRange e.data b v) →
      (∃ v ∈ canon e.data (inForce e flags).verse0, InRange e.data a v ∧ ¬ InRange e.data b v) →
      HasRoom e.data (inForce e flags) b.start b.stop) :
    ∃ l, a.difference e b flags = .ok l ∧ (∀ x ∈ l, Allowed e.data (inForce e flags) x) ∧ l.length ≤ 2 ∧
      Neighbours (fun p q => pos e.data p.stop < pos e.data q.start) l ∧
      (∀ v ∈ canon e.data (inForce e flags).verse0, Covered e.data l v ↔ InRange e.data a v ∧ ¬ InRange e.data b v) := by
  have c20 := C20_contains_surrounds_disjoint e.data h _ a b ha.1 hb.1
  have c20' := C20_contains_surrounds_disjoint e.data h _ b a hb.1 ha.1
  rw [← eff_eq] at *
  simp only [allowed_iff h] at *
  have hla := ha.le
  have hlb := hb.le
  have hdis := isDisjoint_iff h ha.toROK hb.toROK
  have hcon := contains_iff h hb.toROK ha.toROK
  have hal := ha.toROK.alike hb.toROK
  rw [BibleRange.isDisjoint_eq hal, BibleRange.surrounds_eq hal, BibleRange.contains_eq hal] at c20
  rw [BibleRange.contains_eq hal.symm] at c20'
  obtain ⟨_, ⟨⟩, c20⟩ := c20.2.2
  obtain ⟨_, ⟨⟩, c20'⟩ := c20'.1
  by_cases hd : a.disjointT e.data b = true
  · refine ⟨[a], by rw [BibleRange.difference_eq hal, if_pos hd]; rfl, ?_, by simp, trivial, ?_⟩
    · intro x hx; rw [List.mem_singleton] at hx; subst hx; exact ha
    · intro v _
      rw [hdis] at hd
      simp only [Covered, List.mem_singleton, exists_eq_left, InRange]
      omega
  by_cases hc : b.containsT e.data a = true
  · refine ⟨[], by rw [BibleRange.difference_eq hal, if_neg hd, if_pos hc]; rfl, by simp, by simp, trivial, ?_⟩
    intro v _
    rw [hcon] at hc
    simp only [Covered, List.not_mem_nil, false_and, exists_false, InRange, false_iff]
    omega
  have hroom' := hroom (by rw [c20] at hd; exact Classical.not_not.mp hd) (by
    rw [c20'] at hc
    apply Classical.byContradiction
    intro hh
    apply hc
    intro v hv hin
    apply Classical.byContradiction
    intro hnb
    exact hh ⟨v, hv, hin, hnb⟩)
  obtain ⟨p, q, h1, h2, h3, h4⟩ := hasRoom_neighbours h hb.s hb.t hroom'
  have ho : pos e.data a.start ≤ pos e.data b.stop ∧ pos e.data b.start ≤ pos e.data a.stop := by rw [hdis] at hd; omega
  rw [hcon] at hc
  have hpv := valid_of_get h h1
  have hqv := valid_of_get h h3
  have ep := ix_of_get h h1
  have eq := ix_of_get h h3
  -- membership in the pieces, in terms of positions
  have hps : ∀ v ∈ canon e.data (e.eff flags).verse0, (pos e.data v ≤ pos e.data p ↔ pos e.data v < pos e.data b.start) := by
    intro v hv
    rw [mem_canon h] at hv
    rw [pos_le_ix h hv hpv, pos_lt_ix h hv hb.s]; omega
  have hqs : ∀ v ∈ canon e.data (e.eff flags).verse0, (pos e.data q ≤ pos e.data v ↔ pos e.data b.stop < pos e.data v) := by
    intro v hv
    rw [mem_canon h] at hv
    rw [pos_le_ix h hqv hv, pos_lt_ix h hb.t hv]; omega
  have hbooks : (e.eff flags).multibook = true ∨ (a.start.book = p.book ∧ q.book = a.stop.book) := by
    rcases joins_book h ha hb (.inl ho) with hh | ⟨g1, g2, g3⟩
    · exact .inl hh
    · rcases h4 with hh | hh
      · exact .inl hh
      · exact .inr ⟨by rw [hh.1, g1], by rw [hh.2, g2]⟩
  have lowOK : pos e.data a.start < pos e.data b.start → AOK e.data (e.eff flags) ⟨a.start, p⟩ := fun hh =>
    ⟨⟨ha.s, hpv, (hps _ ((mem_canon h).mpr ha.s)).mpr hh⟩, hbooks.imp id (·.1)⟩
  have uppOK : pos e.data b.stop < pos e.data a.stop → AOK e.data (e.eff flags) ⟨q, a.stop⟩ := fun hh =>
    ⟨⟨hqv, ha.t, (hqs _ ((mem_canon h).mpr ha.t)).mpr hh⟩, hbooks.imp id (·.2)⟩
  refine ⟨_, difference_spec h ha hb ho hc h1 h2 h3 hm h4, ?_⟩
  by_cases g1 : pos e.data a.start < pos e.data b.start ∧ pos e.data b.stop < pos e.data a.stop
  · rw [if_pos g1]
    refine ⟨?_, by simp, ⟨?_, trivial⟩, ?_⟩
    · intro x hx
      rcases List.mem_cons.mp hx with rfl | hx
      · exact lowOK g1.1
      · rw [List.mem_singleton] at hx; subst hx; exact uppOK g1.2
    · simp only; rw [pos_lt_ix h hpv hqv]
      have := (pos_le_ix h hb.s hb.t).mp hlb
      omega
    · intro v hv
      have := hps v hv; have := hqs v hv
      simp only [Covered, List.mem_cons, List.not_mem_nil, or_false, exists_eq_or_imp, exists_eq_left, InRange]
      omega
  · rw [if_neg g1]
    by_cases g2 : pos e.data a.start < pos e.data b.start
    · rw [if_pos g2]
      refine ⟨?_, by simp, trivial, ?_⟩
      · intro x hx; rw [List.mem_singleton] at hx; subst hx; exact lowOK g2
      · intro v hv
        have := hps v hv
        simp only [Covered, List.mem_singleton, exists_eq_left, InRange]
        omega
    · rw [if_neg g2]
      refine ⟨?_, by simp, trivial, ?_⟩
      · intro x hx; rw [List.mem_singleton] at hx; subst hx; exact uppOK (by omega)
      · intro v hv
        have := hqs v hv
        simp only [Covered, List.mem_singleton, exists_eq_left, InRange]
        omega

/-- The full C24 is false: if something of `a` is in `b` and something is not, and there is no verse before `b` (in its
book, unless `MULTIBOOK` is in force), the code raises. -/
theorem C24_raises (e : Env) (h : e.data.WF) (flags : Option BibleFlag) (a b : BibleRange)
    (ha : Allowed e.data (inForce e flags) a) (hb : Allowed e.data (inForce e flags) b)
    (h1 : ∃ v ∈ canon e.data (inForce e flags).verse0, InRange e.data a v ∧ InRange e.data b v)
    (h2 : ∃ v ∈ canon e.data (inForce e flags).verse0, InRange e.data a v ∧ ¬ InRange e.data b v)
    (hno : ¬ ∃ p ∈ canon e.data (inForce e flags).verse0, pos e.data p < pos e.data b.start ∧
      ((inForce e flags).multibook = true ∨ p.book = b.start.book)) :
    a.difference e b flags = .error .attributeError ∨ a.difference e b flags = .error .typeError := by
  have c20 := (C20_contains_surrounds_disjoint e.data h _ a b ha.1 hb.1).2.2
  have c20' := (C20_contains_surrounds_disjoint e.data h _ b a hb.1 ha.1).1
  rw [← eff_eq] at *
  simp only [allowed_iff h] at *
  have hal := ha.toROK.alike hb.toROK
  rw [BibleRange.isDisjoint_eq hal] at c20
  rw [BibleRange.contains_eq hal.symm] at c20'
  obtain ⟨_, ⟨⟩, c20⟩ := c20
  obtain ⟨_, ⟨⟩, c20'⟩ := c20'
  have hd : ¬ a.disjointT e.data b = true := by rw [c20]; exact fun hh => hh h1
  have hc : ¬ b.containsT e.data a = true := by
    rw [c20']; obtain ⟨v, hv, x, y⟩ := h2; exact fun hh => y (hh v hv x)
  have hsub := sub_one_canon h (v := b.start) (flags := flags) hb.s.or_self.symm (ix_get h hb.s)
  have hnone : (if 1 ≤ ix e.data (e.eff flags).verse0 b.start then
      (canon e.data (e.eff flags).verse0)[ix e.data (e.eff flags).verse0 b.start - 1]? else none).filter
        (fun w => (e.eff flags).multibook || decide (w.book = b.start.book)) = none := by
    rw [Option.filter_eq_none_iff]
    intro p hp hb'
    split at hp
    · rename_i hle
      apply hno
      refine ⟨p, List.mem_of_getElem? hp, ?_, ?_⟩
      · rw [pos_lt_ix h (valid_of_get h hp) hb.s, ix_of_get h hp]; omega
      · simpa using hb'
    · cases hp
  rw [hnone] at hsub
  rw [BibleRange.difference_eq hal, if_neg hd, if_neg hc]
  simp only [hsub, bind, Except.bind, BibleRange.new]
  by_cases hg : (e.eff none).multibook = false
  · rw [if_pos hg]; exact .inl rfl
  · rw [if_neg hg]; exact .inr rfl

/-- Matt 1:1-10 minus Matt 1:1-5 raises `AttributeError`; and Ps 3:0-8 minus Ps 3:1-8 is not Ps 3:0 when `VERSE_0` is not
set. -/
theorem C24_counterexample :
    BibleRange.difference dflt ⟨⟨.Matt, 1, 1⟩, ⟨.Matt, 1, 10⟩⟩ ⟨⟨.Matt, 1, 1⟩, ⟨.Matt, 1, 5⟩⟩ none = .error .attributeError ∧
    BibleRange.difference dflt ⟨⟨.Gen, 1, 1⟩, ⟨.Rev, 1, 10⟩⟩ ⟨⟨.Gen, 1, 5⟩, ⟨.Exod, 1, 5⟩⟩ (some .MULTIBOOK) = .error .multibookRange ∧
    BibleRange.difference dflt ⟨⟨.Psa, 3, 0⟩, ⟨.Psa, 3, 8⟩⟩ ⟨⟨.Psa, 3, 1⟩, ⟨.Psa, 3, 8⟩⟩ none =
      .ok [⟨⟨.Psa, 2, 12⟩, ⟨.Psa, 3, 0⟩⟩] := by decide +kernel

theorem exIn_room : HasRoom dflt.data (inForce dflt none) exIn.start exIn.stop :=
  ⟨exMatt.start, (exMatt_ok _).1, exMatt.stop, (exMatt_ok _).2,
    (defaultData_wf.lt_pos (v0 := true) (w0 := true) (by decide +kernel) (by decide +kernel)).mp (by decide +kernel),
    (defaultData_wf.lt_pos (v0 := true) (w0 := true) (by decide +kernel) (by decide +kernel)).mp (by decide +kernel), .inr ⟨rfl, rfl⟩⟩

example : exMatt.difference dflt exIn none = .ok [⟨⟨.Matt, 5, 10⟩, ⟨.Matt, 5, 19⟩⟩, ⟨⟨.Matt, 6, 4⟩, ⟨.Matt, 7, 2⟩⟩] := by
  decide +kernel
example : Allowed dflt.data (inForce dflt none) exMatt ∧ Allowed dflt.data (inForce dflt none) exIn ∧
    HasRoom dflt.data (inForce dflt none) exIn.start exIn.stop := ⟨exMatt_allowed _, exIn_allowed _, exIn_room⟩

/-! ## C25 -/

/-- C25: the symmetric difference does not depend on the order of the operands. -/
theorem C25_commutative (e : Env) (h : e.data.WF) (flags : Option BibleFlag) (a b : BibleRange)
    (ha : Allowed e.data (inForce e flags) a) (hb : Allowed e.data (inForce e flags) b) :
    a.symDifference e b flags = b.symDifference e a flags := by
  obtain ⟨u, h1, h2, _⟩ := C22_union e h flags a b ha hb
  obtain ⟨i, h3, h4, _⟩ := C23_intersection e h flags a b ha hb
  unfold BibleRange.symDifference
  rw [h1, h2, h3, h4]
  by_cases hab : a = b
  · rw [if_pos hab, if_pos hab.symm]
  · rw [if_neg hab, if_neg (Ne.symm hab)]

/-- C25 when the flags in force are the global ones and there is room around the common part: the symmetric difference
covers exactly the verses in exactly one of the ranges. Missing: as for C24, on which the code builds it. -/
theorem C25_sym_difference_partial (e : Env) (h : e.data.WF) (flags : Option BibleFlag) (hf : inForce e flags = e.flags)
    (a b : BibleRange) (ha : Allowed e.data e.flags a) (hb : Allowed e.data e.flags b)
    (hroom : (∃ v ∈ canon e.data e.flags.verse0, InRange e.data a v ∧ InRange e.data b v) → a ≠ b →
      ∀ s t, (s = a.start ∨ s = b.start) → pos e.data a.start ≤ pos e.data s → pos e.data b.start ≤ pos e.data s →
        (t = a.stop ∨ t = b.stop) → pos e.data t ≤ pos e.data a.stop → pos e.data t ≤ pos e.data b.stop →
        HasRoom e.data e.flags s t) :
    ∃ l, a.symDifference e b flags = .ok l ∧ (∀ x ∈ l, Allowed e.data e.flags x) ∧ l.length ≤ 2 ∧
      Neighbours (fun p q => pos e.data p.stop < pos e.data q.start) l ∧
      (∀ v ∈ canon e.data e.flags.verse0, Covered e.data l v ↔
        (InRange e.data a v ∧ ¬ InRange e.data b v) ∨ (InRange e.data b v ∧ ¬ InRange e.data a v)) := by
  have c20 := (C20_contains_surrounds_disjoint e.data h _ a b ha.1 hb.1).2.2
  obtain ⟨u, hu, _, hu1, hu2, hu3⟩ := C22_union e h flags a b (hf ▸ ha) (hf ▸ hb)
  obtain ⟨i, hi, _, hi1, hi2, hi3⟩ := C23_intersection e h flags a b (hf ▸ ha) (hf ▸ hb)
  rw [hf] at hu1 hu2 hi1 hi2
  have ha' := (allowed_iff h).mp ha
  have hb' := (allowed_iff h).mp hb
  by_cases hab : a = b
  · subst hab
    refine ⟨[], by unfold BibleRange.symDifference; rw [if_pos rfl]; rfl, by simp, by simp, trivial, ?_⟩
    intro v _; simp [Covered]
  have hsd : a.symDifference e b flags = if u.length > 1 ∨ i.length = 0 then .ok u
      else match u.head?, i.head? with
        | some u0, some i0 => u0.difference e i0 none
        | _, _ => .error .indexError := by
    unfold BibleRange.symDifference
    rw [if_neg hab, hu, hi]; rfl
  rw [hsd]
  have hal := ha'.toROK.alike hb'.toROK
  rw [BibleRange.isDisjoint_eq hal] at c20 hu3 hi3
  simp only [Except.ok.injEq] at hu3 hi3
  obtain ⟨_, ⟨⟩, c20⟩ := c20
  by_cases hd : a.disjointT e.data b = true
  · have hlen : i.length = 0 := by rw [hi3, if_pos hd]
    rw [if_pos (.inr hlen)]
    refine ⟨u, rfl, hu1, ?_, ?_, ?_⟩
    · split at hu3
      · omega
      · rcases hu3.1 with hh | hh <;> rw [hh] <;> simp
    · split at hu3
      · obtain ⟨x, rfl⟩ := List.length_eq_one_iff.mp hu3
        trivial
      · exact hu3.2
    · intro v hv
      rw [hu2 v hv]
      have hdd := (isDisjoint_iff h ha'.toROK hb'.toROK).mp hd
      simp only [InRange]; omega
  · have hjoin : a.disjointT e.data b = false := by simpa using hd
    rw [if_pos (.inl hjoin)] at hu3
    rw [if_neg hd] at hi3
    rw [if_neg (by omega)]
    -- the two one-element lists
    have ho : pos e.data a.start ≤ pos e.data b.stop ∧ pos e.data b.start ≤ pos e.data a.stop := by
      rw [isDisjoint_iff h ha'.toROK hb'.toROK] at hd; omega
    have he : e.eff flags = e.flags := by rw [eff_eq]; exact hf
    have hu' := union_spec h (flags := flags) (he ▸ ha') (he ▸ hb')
    have hi' := intersection_spec h (flags := flags) (he ▸ ha') (he ▸ hb')
    rw [if_pos (.inl ho), hu] at hu'
    rw [if_pos ho, hi] at hi'
    cases hu'
    cases hi'
    simp only [List.head?_cons]
    have hH : AOK e.data e.flags (hull e.data a b) := hull_aok h ha' hb' (.inl ho)
    have hM : AOK e.data e.flags (meet e.data a b) := meet_aok h ha' hb' ho
    obtain ⟨p1, p2, _⟩ := hull_pos h ha'.toROK hb'.toROK
    obtain ⟨q1, q2, _⟩ := meet_pos h ha'.toROK hb'.toROK
    have hla := ha'.le
    have hlb := hb'.le
    obtain ⟨l, r1, r2, r3, r4, r5⟩ := C24_difference_partial e h none (hull e.data a b) (meet e.data a b)
      ((allowed_iff h).mpr hH) ((allowed_iff h).mpr hM) id (fun _ _ => by
        apply hroom (by rw [c20] at hd; exact Classical.not_not.mp hd) hab
        · simp only [meet]
          rcases maxVerse_cases h ha'.s hb'.s with ⟨g, _⟩ | ⟨g, _⟩ <;> simp [g]
        · omega
        · omega
        · simp only [meet]
          rcases minVerse_cases h ha'.t hb'.t with ⟨g, _⟩ | ⟨g, _⟩ <;> simp [g]
        · omega
        · omega)
    refine ⟨l, r1, r2, r3, r4, ?_⟩
    intro v hv
    rw [r5 v hv]
    simp only [InRange]
    omega

/-- As for C24: no verse before the common part, or `MULTIBOOK` only given to the call. -/
theorem C25_counterexample :
    BibleRange.symDifference dflt ⟨⟨.Matt, 1, 1⟩, ⟨.Matt, 1, 10⟩⟩ ⟨⟨.Matt, 1, 1⟩, ⟨.Matt, 1, 5⟩⟩ none = .error .attributeError ∧
    BibleRange.symDifference dflt exMulti ⟨⟨.Mal, 4, 1⟩, ⟨.Mal, 4, 6⟩⟩ (some .MULTIBOOK) = .error .attributeError := by decide +kernel

example : exMatt.symDifference dflt exIn none = .ok [⟨⟨.Matt, 5, 10⟩, ⟨.Matt, 5, 19⟩⟩, ⟨⟨.Matt, 6, 4⟩, ⟨.Matt, 7, 2⟩⟩] ∧
    inForce dflt none = dflt.flags := by decide +kernel

end Bibleref

import Verif.Props.RangeLists2

/-!
# Counts of set operations, splitting and merging (C77, C78)
-/

namespace Bibleref
open Spec

open Classical in
/-- How many elements have the property. -/
noncomputable def cnt {α : Type} (X : List α) (P : α → Prop) : Nat := X.countP fun v => decide (P v)

open Classical in
theorem cnt_cons {α : Type} (x : α) (X : List α) (P : α → Prop) : cnt (x :: X) P = cnt X P + if P x then 1 else 0 := by
  unfold cnt
  rw [List.countP_cons]
  simp only [decide_eq_true_eq]

open Classical in
theorem hasCard_cnt {α : Type} {X : List α} (hX : X.Nodup) {P : α → Prop} {n : Nat} (h : HasCard (fun v => v ∈ X ∧ P v) n) :
    n = cnt X P := by
  obtain ⟨l, h1, h2, rfl⟩ := h
  unfold cnt
  rw [List.countP_eq_length_filter]
  refine List.Perm.length_eq ((List.perm_ext_iff_of_nodup h1 (hX.filter _)).2 fun v => ?_)
  rw [h2, List.mem_filter, decide_eq_true_iff]

theorem cnt_union {α : Type} (X : List α) (P Q : α → Prop) :
    cnt X (fun v => P v ∨ Q v) + cnt X (fun v => P v ∧ Q v) = cnt X P + cnt X Q := by
  induction X with
  | nil => rfl
  | cons x X ih =>
    simp only [cnt_cons]
    by_cases hP : P x <;> by_cases hQ : Q x <;> simp only [hP, hQ, or_self, or_true, or_false, and_self, and_true, and_false, if_true, if_false] <;> omega

theorem cnt_diff {α : Type} (X : List α) (P Q : α → Prop) : cnt X (fun v => P v ∧ ¬ Q v) + cnt X (fun v => P v ∧ Q v) = cnt X P := by
  induction X with
  | nil => rfl
  | cons x X ih =>
    simp only [cnt_cons]
    by_cases hP : P x <;> by_cases hQ : Q x <;> simp only [hP, hQ, and_self, and_true, and_false, not_true_eq_false, not_false_eq_true, if_true, if_false] <;> omega

theorem cnt_zero {α : Type} (X : List α) (P : α → Prop) : cnt X P = 0 ↔ ∀ v ∈ X, ¬ P v := by
  unfold cnt
  rw [List.countP_eq_zero]; simp

theorem cnt_same {α : Type} {X : List α} {P Q : α → Prop} (h : ∀ v ∈ X, P v ↔ Q v) : cnt X P = cnt X Q :=
  List.countP_congr fun v hv => by simp [h v hv]

/-- The verse count of a list in canonical form. -/
theorem count_canonical {e : Env} (h : e.data.WF) {f : BibleFlag} (hz : f.verse0 = e.flags.verse0) {m : RangeList}
    (hm : ∀ r ∈ m.flatten, Allowed e.data f r) (hc : Canonical e.data f m.flatten) :
    RangeList.verseCount e m = .ok (cnt (canon e.data e.flags.verse0) (Covered e.data m.flatten) : Nat) := by
  simp only [allowed_iff h] at hm
  have hok : ∀ r ∈ m.flatten, RangeOK e.data true r := fun r hr => (rangeOK_iff h).mpr ⟨(hm r hr).s.mono, (hm r hr).t.mono, (hm r hr).le⟩
  have hs := sum_card h hm ((gaps_iff_canonical h hm).mpr hc)
  rw [← hz, ← hasCard_cnt (h.nodup_canon _) hs, C33_verse_count e h m hok]
  congr 1
  have : ∀ r ∈ m.flatten, ((versesOf e.data (e.flags.verse0 || r.start.verse == 0 || r.stop.verse == 0) r).length : Int) =
      ((versesOf e.data f.verse0 r).length : Nat) := by
    intro r hr
    rw [← hz, (hm r hr).s.or_self, (hm r hr).t.or_self]
  rw [List.map_congr_left this]
  generalize m.flatten = k
  induction k with
  | nil => rfl
  | cons a k ih => simp only [List.map_cons, List.sum_cons, ih, Int.natCast_add]

/-- **C77.** The verse counts of the union and of the intersection of two lists add up to those of the lists (merged, so that no verse
is counted twice). The lists are disjoint just if nothing is lost in the union, and one contains the other just if nothing is
added to it. -/
theorem C77_union (e : Env) (h : e.data.WF) (flags : Option BibleFlag) (hz : (inForce e flags).verse0 = e.flags.verse0) (a b : RangeList)
    (ha : ∀ r ∈ a.flatten, Allowed e.data (inForce e flags) r) (hb : ∀ r ∈ b.flatten, Allowed e.data (inForce e flags) r) :
    ∃ a' b' u i, RangeList.merge e a flags = .ok a' ∧ RangeList.merge e b flags = .ok b' ∧ RangeList.union e a b flags = .ok u ∧
      RangeList.intersection e a b flags = .ok i ∧
      ∃ na nb nu ni : Nat, a'.verseCount e = .ok na ∧ b'.verseCount e = .ok nb ∧ u.verseCount e = .ok nu ∧ i.verseCount e = .ok ni ∧
        nu + ni = na + nb ∧ Answers (RangeList.isDisjoint e.data a b) (nu = na + nb) ∧
        Answers (RangeList.contains e a b flags) (nu = na) ∧ Answers (RangeList.contains e b a flags) (nu = nb) := by
  obtain ⟨a', a1, a2, a3, a4, _⟩ := C26_merge e h flags a ha
  obtain ⟨b', b1, b2, b3, b4, _⟩ := C26_merge e h flags b hb
  obtain ⟨u, u1, u2, u3, u4, _⟩ := C27_union e h flags a b ha hb
  obtain ⟨i, i1, i2, i3, i4, _⟩ := C28_intersection e h flags a b ha hb
  refine ⟨a', b', u, i, a1, b1, u1, i1, _, _, _, _, count_canonical h hz a2 a4, count_canonical h hz b2 b4,
    count_canonical h hz u2 u4, count_canonical h hz i2 i4, ?_⟩
  rw [hz] at a3 b3 u3 i3
  rw [cnt_same a3, cnt_same b3, cnt_same u3, cnt_same i3]
  have key := cnt_union (canon e.data e.flags.verse0) (Covered e.data a.flatten) (Covered e.data b.flatten)
  have ka := cnt_diff (canon e.data e.flags.verse0) (Covered e.data a.flatten) (Covered e.data b.flatten)
  have kb := cnt_diff (canon e.data e.flags.verse0) (Covered e.data b.flatten) (Covered e.data a.flatten)
  have hs : ∀ v, Covered e.data b.flatten v ∧ Covered e.data a.flatten v ↔ Covered e.data a.flatten v ∧ Covered e.data b.flatten v :=
    fun v => And.comm
  simp only [hs] at kb
  have hr : ∀ {l : RangeList}, (∀ r ∈ l.flatten, Allowed e.data (inForce e flags) r) → ∀ r ∈ l.flatten, RangeOK e.data e.flags.verse0 r := by
    intro l hl r hr
    have := (allowed_iff h).1 (hl r hr)
    rw [← hz]
    exact (rangeOK_iff h).2 this.toROK
  refine ⟨key, ?_, ?_, ?_⟩
  · obtain ⟨x, hx, hx'⟩ := C31_is_disjoint e.data h e.flags.verse0 a b (hr ha) (hr hb)
    refine ⟨x, hx, hx'.trans ?_⟩
    rw [show (¬ ∃ v ∈ canon e.data e.flags.verse0, Covered e.data a.flatten v ∧ Covered e.data b.flatten v) ↔
      ∀ v ∈ canon e.data e.flags.verse0, ¬ (Covered e.data a.flatten v ∧ Covered e.data b.flatten v) by simp, ← cnt_zero]
    omega
  · obtain ⟨x, hx, hx'⟩ := C31_contains e h flags a b ha hb
    rw [hz] at hx'
    refine ⟨x, hx, hx'.trans ?_⟩
    rw [show (∀ v ∈ canon e.data e.flags.verse0, Covered e.data b.flatten v → Covered e.data a.flatten v) ↔
      ∀ v ∈ canon e.data e.flags.verse0, ¬ (Covered e.data b.flatten v ∧ ¬ Covered e.data a.flatten v) by
        simp, ← cnt_zero]
    omega
  · obtain ⟨x, hx, hx'⟩ := C31_contains e h flags b a hb ha
    rw [hz] at hx'
    refine ⟨x, hx, hx'.trans ?_⟩
    rw [show (∀ v ∈ canon e.data e.flags.verse0, Covered e.data a.flatten v → Covered e.data b.flatten v) ↔
      ∀ v ∈ canon e.data e.flags.verse0, ¬ (Covered e.data a.flatten v ∧ ¬ Covered e.data b.flatten v) by
        simp, ← cnt_zero]
    omega

example : RangeList.union dflt [[exMatt]] [[⟨⟨.Matt, 7, 1⟩, ⟨.Matt, 7, 10⟩⟩]] none = .ok [[⟨⟨.Matt, 5, 10⟩, ⟨.Matt, 7, 10⟩⟩]] ∧
    RangeList.intersection dflt [[exMatt]] [[⟨⟨.Matt, 7, 1⟩, ⟨.Matt, 7, 10⟩⟩]] none = .ok [[⟨⟨.Matt, 7, 1⟩, ⟨.Matt, 7, 2⟩⟩]] ∧
    RangeList.verseCount dflt [[⟨⟨.Matt, 5, 10⟩, ⟨.Matt, 7, 10⟩⟩]] = .ok 83 ∧ RangeList.verseCount dflt [[exMatt]] = .ok 75 ∧
    RangeList.verseCount dflt [[⟨⟨.Matt, 7, 1⟩, ⟨.Matt, 7, 10⟩⟩]] = .ok 10 ∧
    RangeList.verseCount dflt [[⟨⟨.Matt, 7, 1⟩, ⟨.Matt, 7, 2⟩⟩]] = .ok 2 := by decide +kernel

/-- **C77.** If one list contains the other and the merged lists have equally many verses, the merged lists are the same. -/
theorem C77_equal (e : Env) (h : e.data.WF) (flags : Option BibleFlag) (hz : (inForce e flags).verse0 = e.flags.verse0) (a b a' b' : RangeList)
    (ha : ∀ r ∈ a.flatten, Allowed e.data (inForce e flags) r) (hb : ∀ r ∈ b.flatten, Allowed e.data (inForce e flags) r)
    (ma : RangeList.merge e a flags = .ok a') (mb : RangeList.merge e b flags = .ok b') (n : Int)
    (na : a'.verseCount e = .ok n) (nb : b'.verseCount e = .ok n) (hc : RangeList.contains e a b flags = .ok true) : a' = b' := by
  obtain ⟨a1, b1, u, i, h1, h2, h3, h4, na', nb', nu, ni, k1, k2, k3, k4, k5, _, ⟨x, x1, x2⟩, ⟨y, y1, y2⟩⟩ := C77_union e h flags hz a b ha hb
  rw [ma] at h1; cases h1
  rw [mb] at h2; cases h2
  rw [na] at k1; rw [nb] at k2
  cases k1
  rw [Except.ok.injEq, Int.natCast_inj] at k2
  subst k2
  rw [hc] at x1; cases x1
  have := x2.1 rfl
  have hy := y2.2 this
  subst hy
  obtain ⟨z, z1, z2⟩ := C31_contains e h flags a b ha hb
  obtain ⟨w, w1, w2⟩ := C31_contains e h flags b a hb ha
  rw [hc] at z1; cases z1
  rw [y1] at w1; cases w1
  have := (C26_merge_eq e h flags a b ha hb).2 fun v hv => ⟨w2.1 rfl v hv, z2.1 rfl v hv⟩
  rw [ma, mb] at this
  exact Except.ok.inj this

/-- **C77** (difference): where `difference` answers rightly (the conditions are those of `C29_difference_partial`), its verse count and
that of the intersection add up to that of the list taken from. -/
theorem C77_difference_partial (e : Env) (h : e.data.WF) (flags : Option BibleFlag)
    (hm : (inForce e flags).multibook = true → e.flags.multibook = true) (hz : (inForce e flags).verse0 = e.flags.verse0) (a b : RangeList)
    (ha : ∀ r ∈ a.flatten, Allowed e.data (inForce e flags) r) (hb : ∀ r ∈ b.flatten, Allowed e.data (inForce e flags) r)
    (cb : Canonical e.data (inForce e flags) b.flatten)
    (hroom : ∀ r ∈ a.flatten, ∀ x ∈ b.flatten, (∃ v ∈ canon e.data (inForce e flags).verse0, InRange e.data r v ∧ InRange e.data x v) →
      HasRoom e.data (inForce e flags) x.start x.stop)
    (hout : ∀ r ∈ a.flatten, ∀ x ∈ b.flatten, ∃ v ∈ canon e.data (inForce e flags).verse0, InRange e.data r v ∧ ¬ InRange e.data x v) :
    ∃ n m a' i, (∀ fuel ≥ n, RangeList.difference e a b flags fuel = .ok m) ∧ RangeList.merge e a flags = .ok a' ∧
      RangeList.intersection e a b flags = .ok i ∧
      ∃ nm na ni : Nat, m.verseCount e = .ok nm ∧ a'.verseCount e = .ok na ∧ i.verseCount e = .ok ni ∧ nm + ni = na := by
  obtain ⟨n, m, m1, m2, m3, m4⟩ := C29_difference_partial e h flags hm (fun hh => by rw [← hz]; exact hh) a b ha hb cb hroom hout
  obtain ⟨a', a1, a2, a3, a4, _⟩ := C26_merge e h flags a ha
  obtain ⟨i, i1, i2, i3, i4, _⟩ := C28_intersection e h flags a b ha hb
  refine ⟨n, m, a', i, m1, a1, i1, _, _, _, count_canonical h rfl m2 m3, count_canonical h hz a2 a4, count_canonical h hz i2 i4, ?_⟩
  rw [hz] at a3 i3 m4
  rw [cnt_same a3, cnt_same i3, cnt_same m4]
  exact cnt_diff _ _ _

theorem sum_flatMap_length {α β : Type} (f : α → List β) (l : List α) :
    (l.map fun x => ((f x).length : Int)).sum = ((l.flatMap f).length : Nat) := by
  induction l with
  | nil => rfl
  | cons a l ih => simp only [List.map_cons, List.sum_cons, ih, List.flatMap_cons, List.length_append, Int.natCast_add]

/-- **C77** (splitting): the verse counts of the pieces of a range allowed by the global flags add up to that of the range. Missing is a range
with verse 0s that the global flags do not allow: see `C77_split_counterexample`. -/
theorem C77_split_partial (e : Env) (h : e.data.WF) (r : BibleRange) (hr : RangeOK e.data e.flags.verse0 r) (byBook byChap : Bool)
    (num : Option Int) (hn : ∀ n, num = some n → 1 ≤ n) (flags : Option BibleFlag) (hz : (inForce e flags).verse0 = e.flags.verse0)
    (byRange : Bool) (fuel : Nat) (hfuel : e.data.totalVerses < fuel) :
    ∃ m n, r.split e byBook byChap num byRange flags fuel = .ok m ∧ m.verseCount e = .ok n ∧ r.verseCount e = .ok n := by
  have hr' := (rangeOK_iff h).mp hr
  have hv : e.flags.verse0 = ((inForce e flags).verse0 || r.start.verse == 0 || r.stop.verse == 0) := by
    rw [hz, hr'.s.or_self, hr'.t.or_self]
  have hrt : RangeOK e.data true r := (rangeOK_iff h).mpr ⟨hr'.s.mono, hr'.t.mono, hr'.le⟩
  obtain ⟨l, l1, l2, l3, l4, _⟩ := C19_split e h r hrt byBook byChap num hn flags _ hv fuel hfuel
  have hlt : ∀ x ∈ l, RangeOK e.data true x := fun x hx => by
    have := (rangeOK_iff h).mp (l3 x hx)
    exact (rangeOK_iff h).mpr ⟨this.s.mono, this.t.mono, this.le⟩
  have hcount : ∀ m : RangeList, m.flatten = l → m.verseCount e = .ok (versesOf e.data e.flags.verse0 r).length := by
    intro m hm
    rw [C33_verse_count e h m (by rw [hm]; exact hlt), hm, ← l4, ← sum_flatMap_length]
    congr 2
    refine List.map_congr_left fun x hx => ?_
    have := (rangeOK_iff h).mp (l3 x hx)
    rw [this.s.or_self, this.t.or_self]
  have hrc := C15_verse_count e h r hrt _ rfl
  obtain ⟨g1, m, g2, g3, _⟩ := C19_split_groups e h r byBook byChap num flags fuel l l1 hlt l2
  rw [hr'.s.or_self, hr'.t.or_self] at hrc
  cases byRange
  · exact ⟨_, _, g1, hcount _ (by simp), hrc⟩
  · exact ⟨_, _, g2, hcount _ g3, hrc⟩

example : exMatt.split dflt false true none true none 100 = .ok [[⟨⟨.Matt, 5, 10⟩, ⟨.Matt, 5, 48⟩⟩],
    [⟨⟨.Matt, 6, 1⟩, ⟨.Matt, 6, 34⟩⟩], [⟨⟨.Matt, 7, 1⟩, ⟨.Matt, 7, 2⟩⟩]] ∧
    RangeList.verseCount dflt [[⟨⟨.Matt, 5, 10⟩, ⟨.Matt, 5, 48⟩⟩],
    [⟨⟨.Matt, 6, 1⟩, ⟨.Matt, 6, 34⟩⟩], [⟨⟨.Matt, 7, 1⟩, ⟨.Matt, 7, 2⟩⟩]] = .ok 75 ∧ exMatt.verseCount dflt = .ok 75 := by decide +kernel

/-- C77: a verse can be lost in the counts of the pieces: with the flags of the library as it starts, a range that begins with a verse 0 is
counted with all its verse 0s, but a piece that neither begins nor ends with a verse 0 without them. -/
theorem C77_split_counterexample : ∃ m, (⟨⟨.Psa, 3, 0⟩, ⟨.Psa, 4, 3⟩⟩ : BibleRange).split dflt false false (some 6) false none 200 = .ok m ∧
    m.verseCount dflt = .ok 12 ∧ (⟨⟨.Psa, 3, 0⟩, ⟨.Psa, 4, 3⟩⟩ : BibleRange).verseCount dflt = .ok 13 :=
  ⟨[[⟨⟨.Psa, 3, 0⟩, ⟨.Psa, 3, 5⟩⟩, ⟨⟨.Psa, 3, 6⟩, ⟨.Psa, 4, 2⟩⟩, ⟨⟨.Psa, 4, 3⟩, ⟨.Psa, 4, 3⟩⟩]], by decide +kernel, by decide +kernel, by decide +kernel⟩

/-- A range that stays by itself when merged. -/
theorem merge_single {e : Env} (h : e.data.WF) {flags : Option BibleFlag} {r : BibleRange} (hr : Allowed e.data (inForce e flags) r) :
    RangeList.merge e [[r]] flags = .ok [[r]] := by
  have hall : ∀ x ∈ ([[r]] : RangeList).flatten, Allowed e.data (inForce e flags) x := by simpa using hr
  obtain ⟨m, m1, m2, m3, m4, m5⟩ := C26_merge e h flags [[r]] hall
  have := C26_canonical_unique e.data h _ _ _ m2 hall m4
    ((gaps_iff_canonical h (fun x hx => (allowed_iff h).1 (hall x hx))).mp (by simp [Neighbours])) m3
  rw [m1]
  match m, this, m5 with
  | [g], hh, _ => simp at hh; rw [hh]
  | g :: g' :: t, hh, m5 =>
    have a := m5 g (by simp)
    have b := m5 g' (by simp)
    have := congrArg List.length hh
    have := List.length_pos_iff.2 a
    have := List.length_pos_iff.2 b
    simp at *
    omega

/-- **C78.** Merging the pieces into which a range has been split, by whatever splitting, gives the range back. -/
theorem C78_split_merge (e : Env) (h : e.data.WF) (r : BibleRange) (flags : Option BibleFlag) (hr : Allowed e.data (inForce e flags) r)
    (byBook byChap : Bool) (num : Option Int) (hn : ∀ n, num = some n → 1 ≤ n) (byRange : Bool) (fuel : Nat) (hfuel : e.data.totalVerses < fuel) :
    ∃ m, r.split e byBook byChap num byRange flags fuel = .ok m ∧ RangeList.merge e m flags = .ok [[r]] := by
  have hr' := (rangeOK_iff h).mp hr.ok
  have hv : (inForce e flags).verse0 = ((inForce e flags).verse0 || r.start.verse == 0 || r.stop.verse == 0) := by
    rw [hr'.s.or_self, hr'.t.or_self]
  have hrt : RangeOK e.data true r := (rangeOK_iff h).mpr ⟨hr'.s.mono, hr'.t.mono, hr'.le⟩
  obtain ⟨l, l1, l2, l3, l4, _⟩ := C19_split e h r hrt byBook byChap num hn flags _ hv fuel hfuel
  have hlt : ∀ x ∈ l, RangeOK e.data true x := fun x hx => by
    have := (rangeOK_iff h).mp (l3 x hx)
    exact (rangeOK_iff h).mpr ⟨this.s.mono, this.t.mono, this.le⟩
  have hin : ∀ v, v ∈ canon e.data (inForce e flags).verse0 → (Covered e.data l v ↔ InRange e.data r v) := by
    intro v hv
    have := congrArg (v ∈ ·) l4
    simp only [List.mem_flatMap, versesOf, List.mem_filter, decide_eq_true_eq, eq_iff_iff] at this
    constructor
    · rintro ⟨x, hx, hi⟩
      exact (this.1 ⟨x, hx, hv, hi⟩).2
    · intro hi
      obtain ⟨x, hx, _, hi⟩ := this.2 ⟨hv, hi⟩
      exact ⟨x, hx, hi⟩
  have hal : ∀ x ∈ l, Allowed e.data (inForce e flags) x := by
    intro x hx
    refine ⟨l3 x hx, hr.one_book.imp_right fun hb => ?_⟩
    have hx' := l3 x hx
    have s1 := (hin _ hx'.start_mem).1 ⟨x, hx, Nat.le_refl _, hx'.ordered⟩
    have s2 := (hin _ hx'.stop_mem).1 ⟨x, hx, hx'.ordered, Nat.le_refl _⟩
    have hs := (mem_canon h).1 hx'.start_mem
    have ht := (mem_canon h).1 hx'.stop_mem
    have a := book_between h (ix_get h hr'.s) (ix_get h hs) (ix_get h hr'.t) ((pos_le_ix h hr'.s hs).1 s1.1) ((pos_le_ix h hs hr'.t).1 s1.2) hb
    have b := book_between h (ix_get h hr'.s) (ix_get h ht) (ix_get h hr'.t) ((pos_le_ix h hr'.s ht).1 s2.1) ((pos_le_ix h ht hr'.t).1 s2.2) hb
    rw [a, b]
  have key : ∀ m : RangeList, m.flatten = l → RangeList.merge e m flags = .ok [[r]] := by
    intro m hm
    rw [← merge_single h hr]
    refine (C26_merge_eq e h flags m [[r]] (by rw [hm]; exact hal) (by simpa using hr)).2 fun v hv => ?_
    rw [hm, hin v hv]
    simp [Covered]
  obtain ⟨g1, m, g2, g3, _⟩ := C19_split_groups e h r byBook byChap num flags fuel l l1 hlt l2
  cases byRange
  · exact ⟨_, g1, key _ (by simp)⟩
  · exact ⟨_, g2, key _ g3⟩

example : exMatt.split dflt false true none true none 100 = .ok [[⟨⟨.Matt, 5, 10⟩, ⟨.Matt, 5, 48⟩⟩],
    [⟨⟨.Matt, 6, 1⟩, ⟨.Matt, 6, 34⟩⟩], [⟨⟨.Matt, 7, 1⟩, ⟨.Matt, 7, 2⟩⟩]] ∧
    RangeList.merge dflt [[⟨⟨.Matt, 5, 10⟩, ⟨.Matt, 5, 48⟩⟩],
    [⟨⟨.Matt, 6, 1⟩, ⟨.Matt, 6, 34⟩⟩], [⟨⟨.Matt, 7, 1⟩, ⟨.Matt, 7, 2⟩⟩]] none = .ok [[exMatt]] := by decide +kernel

end Bibleref

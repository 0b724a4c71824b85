import Verif.Lemmas.ListOps

set_option linter.unusedSimpArgs false

/-!
# `difference_update` and `merge` come to an end
-/

namespace Bibleref
open Spec

section
variable {e : Env} (h : e.data.WF) {flags : Option BibleFlag}
include h

/-! ## `merge` of arbitrary ranges -/

theorem union_any {a b : BibleRange} (ha : ROK e.data true a) (hb : ROK e.data true b) :
    a.union e b flags = .error .multibookRange ∨ a.union e b flags = .ok [hull e.data a b] ∨ ∃ x y, a.union e b flags = .ok [x, y] := by
  have hnew : BibleRange.new e (some (BibleRange.minVerse e.data a.start b.start)) (some (BibleRange.maxVerse e.data a.stop b.stop)) flags =
      .error .multibookRange ∨
      BibleRange.new e (some (BibleRange.minVerse e.data a.start b.start)) (some (BibleRange.maxVerse e.data a.stop b.stop)) flags =
      .ok (hull e.data a b) := by
    have hh := hull_ok h ha hb
    rw [new_comparable (s := BibleRange.minVerse e.data a.start b.start) (t := BibleRange.maxVerse e.data a.stop b.stop)
      (comparable_listed (d := e.data) hh.s hh.t)]
    split
    · exact .inl rfl
    · rw [if_neg]
      · exact .inr rfl
      · have := hh.le
        rw [show BibleRange.maxVerse e.data a.stop b.stop = (hull e.data a b).stop from rfl,
          show BibleRange.minVerse e.data a.start b.start = (hull e.data a b).start from rfl, h.lt_pos hh.t hh.s]
        omega
  have hadj : ∃ o, a.isAdjacent e b flags = .ok o := by
    have hlow : ∃ l u, BibleRange.lowerHigher e.data a b = (l, u) ∧ Valid e.data true l.stop := by
      unfold BibleRange.lowerHigher
      split
      · exact ⟨_, _, rfl, ha.t⟩
      · exact ⟨_, _, rfl, hb.t⟩
    obtain ⟨l, u, hlu, hl⟩ := hlow
    have := add_canon h (v := l.stop) (flags := flags) rfl (ix_get h hl.honour) 1
    rw [show (((1 : Nat) : Int)) = 1 from rfl] at this
    rw [BibleRange.isAdjacent_eq (ha.alike hb), hlu]
    simp only [this, bind, Except.bind]
    exact ⟨_, rfl⟩
  obtain ⟨o, ho⟩ := hadj
  rw [BibleRange.union_eq (ha.alike hb)]
  by_cases hd : a.disjointT e.data b = true
  · rw [if_pos hd]
    simp only [ho, bind, Except.bind, pure, Except.pure]
    cases o with
    | false =>
      simp only [Bool.not_false, if_true]
      exact .inr (.inr ⟨_, _, rfl⟩)
    | true =>
      simp only [Bool.not_true, Bool.false_eq_true, if_false]
      rcases hnew with hn | hn <;> rw [hn]
      · exact .inl rfl
      · exact .inr (.inl rfl)
  · rw [if_neg hd]
    simp only [bind, Except.bind, pure, Except.pure, Bool.false_eq_true, if_false]
    rcases hnew with hn | hn <;> rw [hn]
    · exact .inl rfl
    · exact .inr (.inl rfl)

theorem mergeLoop_any {cur : BibleRange} {rest : List BibleRange} (hcur : ROK e.data true cur) (hok : ∀ r ∈ rest, ROK e.data true r) :
    RangeList.mergeLoop e flags cur rest = .error .multibookRange ∨
    ∃ l, RangeList.mergeLoop e flags cur rest = .ok l ∧ ∀ r ∈ l, ROK e.data true r := by
  induction rest generalizing cur with
  | nil => exact .inr ⟨[cur], rfl, by simpa using hcur⟩
  | cons b rest ih =>
    have hb := hok b List.mem_cons_self
    have hok' : ∀ r ∈ rest, ROK e.data true r := fun r hr => hok r (List.mem_cons_of_mem _ hr)
    rw [RangeList.mergeLoop]
    rcases union_any h (flags := flags) hcur hb with hu | hu | ⟨x, y, hu⟩
    · rw [hu]; exact .inl rfl
    · rw [hu]
      simp only [bind, Except.bind]
      exact ih (hull_ok h hcur hb) hok'
    · rw [hu]
      simp only [bind, Except.bind]
      rcases ih hb hok' with hl | ⟨l, hl, hl'⟩
      · rw [hl]; exact .inl rfl
      · rw [hl]
        refine .inr ⟨cur :: l, rfl, fun r hr => ?_⟩
        rcases List.mem_cons.mp hr with rfl | hr
        · exact hcur
        · exact hl' r hr

/-- Merging either succeeds or raises `MultibookRangeNotAllowedError`. -/
theorem merge_any {l : RangeList} (hl : ∀ r ∈ l.flatten, ROK e.data true r) :
    RangeList.merge e l flags = .error .multibookRange ∨ ∃ m, RangeList.merge e l flags = .ok m := by
  have hperm := RangeList.sortT_perm (d := e.data) l.flatten
  unfold RangeList.merge
  rw [RangeList.mergeItems_eq fun a ha b hb => (hl a ha).alike (hl b hb)]
  have hok : ∀ r ∈ RangeList.sortT e.data l.flatten, ROK e.data true r := fun r hr => hl r (hperm.mem_iff.mp hr)
  generalize RangeList.sortT e.data l.flatten = s at hok
  cases s with
  | nil =>
    simp only [bind, Except.bind]
    exact .inr ⟨_, rfl⟩
  | cons a s =>
    simp only
    rcases mergeLoop_any h (flags := flags) (hok a List.mem_cons_self) (fun r hr => hok r (List.mem_cons_of_mem _ hr)) with hm | ⟨m, hm, hm'⟩
    · rw [hm]; exact .inl rfl
    · rw [hm]
      simp only [bind, Except.bind]
      obtain ⟨x, hx⟩ := RangeList.regroup_ok h (flags := none) (fun hh => hh) hm'
      exact .inr ⟨x, hx.1⟩

/-! ## The pieces of a difference -/

theorem new_cases {s t : BibleVerse} (hs : Valid e.data true s) (ht : Valid e.data true t) (fl : Option BibleFlag) :
    BibleRange.new e (some s) (some t) fl = .error .multibookRange ∨
    ∃ x, BibleRange.new e (some s) (some t) fl = .ok x ∧ (pos e.data s ≤ pos e.data t → x = ⟨s, t⟩) := by
  rw [new_comparable (comparable_listed hs ht)]
  split
  · exact .inl rfl
  · right
    split
    · rename_i hlt
      exact ⟨_, rfl, fun hh => by rw [h.lt_pos ht hs] at hlt; omega⟩
    · exact ⟨_, rfl, fun _ => rfl⟩

/-- Either an exception, or pieces that are allowed and have no more verses than the range. -/
theorem difference_total {a b : BibleRange} (ha : AOK e.data (e.eff flags) a) (hb : AOK e.data (e.eff flags) b) :
    (∃ x, a.difference e b flags = .error x ∧ x ≠ .diverges) ∨
    ∃ l, a.difference e b flags = .ok l ∧ (∀ x ∈ l, AOK e.data (e.eff flags) x) ∧
      RangeList.total e.data (e.eff flags).verse0 l ≤ RangeList.size e.data (e.eff flags).verse0 a ∧ (a = b → l = []) := by
  have hla := ha.le
  have hlb := hb.le
  have hdis := isDisjoint_iff h ha.toROK hb.toROK
  have hcon := contains_iff h hb.toROK ha.toROK
  have hal := ha.toROK.alike hb.toROK
  by_cases hd : a.disjointT e.data b = true
  · refine .inr ⟨[a], by rw [BibleRange.difference_eq hal, if_pos hd]; rfl, by simpa using ha, by simp [RangeList.total], fun hab => ?_⟩
    subst hab
    rw [hdis] at hd
    omega
  by_cases hc : b.containsT e.data a = true
  · exact .inr ⟨[], by rw [BibleRange.difference_eq hal, if_neg hd, if_pos hc]; rfl, by simp, by simp [RangeList.total], fun _ => rfl⟩
  have hne : a ≠ b := fun hab => by subst hab; rw [hcon] at hc; omega
  have hd' := hd
  have hc' := hc
  rw [hdis] at hd'
  rw [hcon] at hc'
  have ho : pos e.data a.start ≤ pos e.data b.stop ∧ pos e.data b.start ≤ pos e.data a.stop := by omega
  have hsur := surrounds_iff h ha.toROK hb.toROK
  have hlt := h.range_lt ha.toROK hb.toROK
  have hsub := sub_one_canon h (v := b.start) (flags := flags) hb.s.or_self.symm (ix_get h hb.s)
  have hadd := add_canon h (v := b.stop) (flags := flags) hb.t.or_self.symm (ix_get h hb.t) 1
  rw [show (((1 : Nat) : Int)) = 1 from rfl] at hadd
  have hnone : ∀ (s t : Option BibleVerse), s = none ∨ t = none → ∃ x, BibleRange.new e s t none = .error x ∧ x ≠ .diverges := by
    intro s t hst
    unfold BibleRange.new
    simp only
    rcases hst with rfl | rfl
    · simp only; split <;> exact ⟨_, rfl, by simp⟩
    · cases s <;> simp only <;> split <;> exact ⟨_, rfl, by simp⟩
  rw [BibleRange.difference_eq hal, if_neg hd, if_neg hc]
  simp only [hsub, hadd, bind, Except.bind]
  -- the verse before
  cases hP : (if 1 ≤ ix e.data (e.eff flags).verse0 b.start then (canon e.data (e.eff flags).verse0)[ix e.data (e.eff flags).verse0 b.start - 1]? else none).filter
      (fun w => (e.eff flags).multibook || decide (w.book = b.start.book)) with
  | none =>
    obtain ⟨x, hx, hx'⟩ := hnone (some a.start) none (.inr rfl)
    rw [hx]
    exact .inl ⟨x, rfl, hx'⟩
  | some p =>
  rw [Option.filter_eq_some_iff] at hP
  obtain ⟨hP, hPb⟩ := hP
  have hp1 : 1 ≤ ix e.data (e.eff flags).verse0 b.start := by
    by_cases hh : 1 ≤ ix e.data (e.eff flags).verse0 b.start
    · exact hh
    · rw [if_neg hh] at hP; cases hP
  rw [if_pos hp1] at hP
  have hpv := valid_of_get h hP
  have ep := ix_of_get h hP
  rcases new_cases h ha.s.mono hpv.mono none with hlow | ⟨low, hlow, hlow2⟩
  · rw [hlow]; exact .inl ⟨_, rfl, by simp⟩
  rw [hlow]
  simp only
  cases hQ : ((canon e.data (e.eff flags).verse0)[ix e.data (e.eff flags).verse0 b.stop + 1]?).filter
      (fun w => (e.eff flags).multibook || decide (w.book = b.stop.book)) with
  | none =>
    obtain ⟨x, hx, hx'⟩ := hnone none (some a.stop) (.inl rfl)
    rw [hx]
    exact .inl ⟨x, rfl, hx'⟩
  | some q =>
  rw [Option.filter_eq_some_iff] at hQ
  obtain ⟨hQ, hQb⟩ := hQ
  have hqv := valid_of_get h hQ
  have eq := ix_of_get h hQ
  rcases new_cases h hqv.mono ha.t.mono none with hupp | ⟨upp, hupp, hupp2⟩
  · rw [hupp]; exact .inl ⟨_, rfl, by simp⟩
  rw [hupp]
  simp only
  have hbooks : (e.eff flags).multibook = true ∨ (a.start.book = p.book ∧ q.book = a.stop.book) := by
    rcases joins_book h ha hb (.inl ho) with hh | ⟨g1, g2, g3⟩
    · exact .inl hh
    · by_cases hm : (e.eff flags).multibook = true
      · exact .inl hm
      · simp [hm] at hPb hQb
        exact .inr ⟨by rw [hPb, g1], by rw [hQb, g2]⟩
  have i1 := (pos_lt_ix h ha.s hb.s)
  have i2 := (pos_lt_ix h hb.t ha.t)
  have i3 := (pos_le_ix h hb.s hb.t).mp hlb
  have i4 := (pos_le_ix h ha.s ha.t).mp hla
  have i5 := (pos_le_ix h ha.s hb.t).mp ho.1
  have i6 := (pos_le_ix h hb.s ha.t).mp ho.2
  have p1 : pos e.data a.start < pos e.data b.start → pos e.data a.start ≤ pos e.data p := by
    rw [i1, pos_le_ix h ha.s hpv]; omega
  have p2 : pos e.data b.stop < pos e.data a.stop → pos e.data q ≤ pos e.data a.stop := by
    rw [i2, pos_le_ix h hqv ha.t]; omega
  have lowOK : pos e.data a.start < pos e.data b.start → AOK e.data (e.eff flags) ⟨a.start, p⟩ := fun hh =>
    ⟨⟨ha.s, hpv, p1 hh⟩, hbooks.imp id (·.1)⟩
  have uppOK : pos e.data b.stop < pos e.data a.stop → AOK e.data (e.eff flags) ⟨q, a.stop⟩ := fun hh =>
    ⟨⟨hqv, ha.t, p2 hh⟩, hbooks.imp id (·.2)⟩
  right
  by_cases h1 : pos e.data a.start < pos e.data b.start ∧ pos e.data b.stop < pos e.data a.stop
  · refine ⟨[⟨a.start, p⟩, ⟨q, a.stop⟩], ?_, ?_, ?_, fun hab => absurd hab hne⟩
    · rw [if_pos (hsur.mpr h1), hlow2 (p1 h1.1), hupp2 (p2 h1.2)]; rfl
    · intro x hx
      rcases List.mem_cons.mp hx with rfl | hx
      · exact lowOK h1.1
      · rw [List.mem_singleton] at hx; subst hx; exact uppOK h1.2
    · simp only [RangeList.total, RangeList.size, List.map_cons, List.map_nil, List.sum_cons, List.sum_nil]
      rw [i1, i2] at h1
      omega
  · by_cases h2 : pos e.data a.start < pos e.data b.start
    · refine ⟨[⟨a.start, p⟩], ?_, ?_, ?_, fun hab => absurd hab hne⟩
      · rw [if_neg (by rw [hsur]; exact h1), if_pos (by rw [hlt]; exact .inl h2), hlow2 (p1 h2)]; rfl
      · simpa using lowOK h2
      · simp only [RangeList.total, RangeList.size, List.map_cons, List.map_nil, List.sum_cons, List.sum_nil]
        rw [i1] at h2
        omega
    · have h3 : pos e.data b.stop < pos e.data a.stop := by omega
      refine ⟨[⟨q, a.stop⟩], ?_, ?_, ?_, fun hab => absurd hab hne⟩
      · rw [if_neg (by rw [hsur]; exact h1), if_neg (by rw [hlt]; omega), hupp2 (p2 h3)]; rfl
      · simpa using uppOK h3
      · simp only [RangeList.total, RangeList.size, List.map_cons, List.map_nil, List.sum_cons, List.sum_nil]
        rw [i2] at h3
        omega

/-! ## The loops of `difference_update` -/

open RangeList

theorem size_pos {r : BibleRange} (hr : AOK e.data (e.eff flags) r) : 1 ≤ size e.data (e.eff flags).verse0 r := by
  have := (pos_le_ix h hr.s hr.t).mp hr.le
  simp only [size]; omega

omit h in
theorem total_append (v0 : Bool) (l m : List BibleRange) : total e.data v0 (l ++ m) = total e.data v0 l + total e.data v0 m := by
  simp [total]

omit h in
theorem total_cons (v0 : Bool) (r : BibleRange) (l : List BibleRange) : total e.data v0 (r :: l) = size e.data v0 r + total e.data v0 l := by
  simp [total]

theorem length_le_total {l : List BibleRange} (hl : ∀ r ∈ l, AOK e.data (e.eff flags) r) : l.length ≤ total e.data (e.eff flags).verse0 l := by
  induction l with
  | nil => exact Nat.zero_le _
  | cons a l ih =>
    have h1 := size_pos h (hl a List.mem_cons_self)
    have h2 := ih fun r hr => hl r (List.mem_cons_of_mem _ hr)
    rw [total_cons, List.length_cons]
    omega

theorem diffInner_total {bs : List BibleRange} (hbs : ∀ x ∈ bs, AOK e.data (e.eff flags) x) {p : BibleRange} (hp : AOK e.data (e.eff flags) p)
    (rest : List BibleRange) :
    (∃ x, diffInner e flags p rest bs = .error x ∧ x ≠ .diverges) ∨
    ∃ cur extra, diffInner e flags p rest bs = .ok (cur, extra ++ rest) ∧ (∀ x ∈ cur :: extra, AOK e.data (e.eff flags) x) ∧
      total e.data (e.eff flags).verse0 (cur :: extra) ≤ size e.data (e.eff flags).verse0 p := by
  induction bs generalizing p rest with
  | nil => exact .inr ⟨p, [], rfl, by simpa using hp, by simp [total]⟩
  | cons b bs ih =>
    have ih' := fun {p} (hp : AOK e.data (e.eff flags) p) rest => ih (p := p) (fun x hx => hbs x (List.mem_cons_of_mem _ hx)) hp rest
    rw [diffInner]
    rcases difference_total h (flags := flags) hp (hbs b List.mem_cons_self) with ⟨x, hx, hx'⟩ | ⟨l, hl, hok, htot, _⟩
    · rw [hx]; exact .inl ⟨x, rfl, hx'⟩
    · rw [hl]
      simp only [bind, Except.bind]
      cases l with
      | nil => exact ih' hp rest
      | cons y ys =>
        rw [total_cons] at htot
        rcases ih' (hok y List.mem_cons_self) (ys ++ rest) with hh | ⟨cur, extra, g1, g2, g3⟩
        · exact .inl hh
        · refine .inr ⟨cur, extra ++ ys, by simpa using g1, fun x hx => ?_, ?_⟩
          · simp only [List.mem_cons, List.mem_append] at hx
            rcases hx with hx | hx | hx
            · exact g2 x (by simp [hx])
            · exact g2 x (by simp [hx])
            · exact hok x (by simp [hx])
          · rw [total_cons] at g3 ⊢
            rw [total_append]
            omega

/-- With fuel for every verse the loop ends, either with an exception or with no more verses than before. -/
theorem diffOuter_total {B : List BibleRange} (hB : ∀ x ∈ B, AOK e.data (e.eff flags) x) {l : List BibleRange}
    (hl : ∀ r ∈ l, AOK e.data (e.eff flags) r) {fuel : Nat} (hf : total e.data (e.eff flags).verse0 l ≤ fuel) :
    (∃ x, diffOuter e flags B fuel l = .error x ∧ x ≠ .diverges) ∨
    ∃ R, diffOuter e flags B fuel l = .ok R ∧ (∀ r ∈ R, AOK e.data (e.eff flags) r) ∧
      total e.data (e.eff flags).verse0 R ≤ total e.data (e.eff flags).verse0 l := by
  induction fuel generalizing l with
  | zero =>
    cases l with
    | nil => exact .inr ⟨[], rfl, by simp, Nat.le_refl _⟩
    | cons a l =>
      have := size_pos h (hl a List.mem_cons_self)
      rw [total_cons] at hf
      omega
  | succ fuel ih =>
    cases l with
    | nil => exact .inr ⟨[], rfl, by simp, Nat.le_refl _⟩
    | cons a l =>
      rw [diffOuter]
      rcases diffInner_total h (flags := flags) hB (hl a List.mem_cons_self) l with ⟨x, hx, hx'⟩ | ⟨cur, extra, g1, g2, g3⟩
      · rw [hx]; exact .inl ⟨x, rfl, hx'⟩
      · rw [g1]
        simp only [bind, Except.bind]
        have hc := size_pos h (g2 cur List.mem_cons_self)
        rw [total_cons] at g3 hf
        rcases ih (l := extra ++ l) (fun r hr => by
          rcases List.mem_append.mp hr with hr | hr
          · exact g2 r (List.mem_cons_of_mem _ hr)
          · exact hl r (List.mem_cons_of_mem _ hr)) (by rw [total_append]; omega) with ⟨x, hx, hx'⟩ | ⟨R, k1, k2, k3⟩
        · rw [hx]; exact .inl ⟨x, rfl, hx'⟩
        · rw [k1]
          refine .inr ⟨cur :: R, rfl, fun r hr => ?_, ?_⟩
          · rcases List.mem_cons.mp hr with rfl | hr
            · exact g2 _ List.mem_cons_self
            · exact k2 r hr
          · rw [total_append] at k3
            rw [total_cons, total_cons]
            omega

theorem differenceUpdate_ends {a b : RangeList} (ha : ∀ r ∈ a.flatten, AOK e.data (e.eff flags) r)
    (hb : ∀ r ∈ b.flatten, AOK e.data (e.eff flags) r) {fuel : Nat} (hf : total e.data (e.eff flags).verse0 a.flatten ≤ fuel) :
    RangeList.differenceUpdate e a b flags fuel ≠ .error .diverges := by
  unfold RangeList.differenceUpdate
  rcases diffOuter_total h hb ha hf with ⟨x, hx, hx'⟩ | ⟨R, k1, k2, k3⟩
  · rw [hx]
    intro hh
    simp only [bind, Except.bind, Except.error.injEq] at hh
    exact hx' hh
  · rw [k1]
    simp only [bind, Except.bind]
    rcases merge_any h (l := RangeList.ofRanges R) (flags := none) (fun r hr => by
      rw [RangeList.ofRanges_flatten] at hr
      exact ⟨(k2 r hr).s.mono, (k2 r hr).t.mono, (k2 r hr).le⟩) with hm | ⟨m, hm⟩
    · rw [hm]; simp
    · rw [hm]; simp

end
end Bibleref

import Verif.Props.WithoutMultibook
import Verif.Props.RangeLists2

/-! Merging ranges over several books when `MULTIBOOK` is not set. -/

namespace Bibleref
open Spec

/-- The range lies in one book. -/
abbrev InBook (r : BibleRange) : Prop := r.start.book = r.stop.book

section
variable {d : BibleData} (h : d.WF) {f : BibleFlag}
include h

/-- A range in a range of one book lies in one book. -/
theorem inBook_mono {v0} {a b : BibleRange} (ha : ROK d v0 a) (hb : ROK d v0 b) (hs : pos d a.start ≤ pos d b.start)
    (ht : pos d b.stop ≤ pos d a.stop) (hi : InBook a) : InBook b := by
  have h1 := book_le_of_pos h ha.s hb.s hs
  have h2 := book_le_of_pos h hb.t ha.t ht
  have h3 := book_le_of_pos h hb.s hb.t hb.le
  rw [InBook] at hi
  rw [← hi] at h2
  exact h.bidx_inj.mp (by omega)

theorem joins_later {a b : BibleRange} (ha : ROK d f.verse0 a) (hb : ROK d f.verse0 b) (hs : pos d a.start ≤ pos d b.start) :
    Joins d f a b ↔ pos d b.start ≤ pos d a.stop ∨ Adj d f a b := by
  have := hb.le
  unfold Joins
  constructor
  · rintro (hh | hh | hh)
    · exact .inl hh.2
    · exact .inr hh
    · have := adj_pos h hb ha hh
      omega
  · rintro (hh | hh)
    · exact .inl ⟨by omega, hh⟩
    · exact .inr (.inl hh)

omit h in
theorem joins_symm {a b : BibleRange} : Joins d f a b ↔ Joins d f b a := by
  unfold Joins
  rw [or_comm (a := Adj d f a b), and_comm]

theorem hull_stop {v0} {a b : BibleRange} (ha : ROK d v0 a) (hb : ROK d v0 b) :
    ((hull d a b).stop = a.stop ∧ pos d b.stop ≤ pos d a.stop) ∨ ((hull d a b).stop = b.stop ∧ pos d a.stop ≤ pos d b.stop) := by
  simp only [hull]
  rcases maxVerse_cases h ha.t hb.t with ⟨h3, h4⟩ | ⟨h3, h4⟩
  · exact .inl ⟨h3, by omega⟩
  · exact .inr ⟨h3, by omega⟩

/-- What joins a hull joins one of its parts. -/
theorem joins_hull {a b r : BibleRange} (ha : ROK d f.verse0 a) (hb : ROK d f.verse0 b) (hr : ROK d f.verse0 r)
    (h1 : pos d a.start ≤ pos d b.start) (h2 : pos d b.start ≤ pos d r.start) :
    Joins d f (hull d a b) r ↔ Joins d f a r ∨ Joins d f b r := by
  have hh := hull_ok h ha hb
  have hp := (hull_pos h ha hb).1
  rw [joins_later h hh hr (by omega), joins_later h ha hr (by omega), joins_later h hb hr h2]
  rcases hull_stop h ha hb with ⟨g1, g2⟩ | ⟨g1, g2⟩
  · have e1 : Adj d f (hull d a b) r ↔ Adj d f a r := by unfold Adj; rw [g1]
    rw [g1, e1]
    constructor
    · exact .inl
    · rintro (hh | hh | hh)
      · exact hh
      · exact .inl (by omega)
      · by_cases h3 : pos d a.stop = pos d b.stop
        · have := (h.pos_inj ha.t hb.t).mp h3
          right
          unfold Adj at *
          rw [this]
          exact hh
        · left
          have i1 := hh.1
          have i2 := (pos_lt_ix h hb.t ha.t).mp (by omega)
          exact (pos_le_ix h hr.s ha.t).mpr (by omega)
  · have e1 : Adj d f (hull d a b) r ↔ Adj d f b r := by unfold Adj; rw [g1]
    rw [g1, e1]
    constructor
    · exact .inr
    · rintro ((hh | hh) | hh)
      · exact .inl (by omega)
      · by_cases h3 : pos d a.stop = pos d b.stop
        · have := (h.pos_inj ha.t hb.t).mp h3
          right
          unfold Adj at *
          rw [← this]
          exact hh
        · left
          have i1 := hh.1
          have i2 := (pos_lt_ix h ha.t hb.t).mp (by omega)
          exact (pos_le_ix h hr.s hb.t).mpr (by omega)
      · exact hh

/-- What does not join its successor joins nothing later. -/
theorem not_joins_later {a b r : BibleRange} (ha : ROK d f.verse0 a) (hb : ROK d f.verse0 b) (hr : ROK d f.verse0 r)
    (hj : ¬ Joins d f a b) (h1 : pos d a.start ≤ pos d b.start) (h2 : pos d b.start ≤ pos d r.start) : ¬ Joins d f a r := by
  rw [joins_later h ha hb h1, not_or] at hj
  rw [joins_later h ha hr (by omega), not_or]
  refine ⟨by omega, fun hh => hj.2 ?_⟩
  have i1 := hh.1
  have i2 := (pos_lt_ix h ha.t hb.s).mp (by omega)
  have i3 := (pos_le_ix h hb.s hr.s).mp h2
  have i4 : b.start = r.start := (h.pos_inj hb.s hr.s).mp (Nat.le_antisymm h2 ((pos_le_ix h hr.s hb.s).mpr (by omega)))
  unfold Adj at *
  rw [i4]
  exact hh

end

/-- Two ranges that can be merged, or need not be. -/
def MayMerge (d : BibleData) (f : BibleFlag) (a b : BibleRange) : Prop := Joins d f a b → InBook a ∧ InBook b

theorem mayMerge_symm {d : BibleData} {f : BibleFlag} {a b : BibleRange} (hh : MayMerge d f a b) : MayMerge d f b a :=
  fun hj => (hh (joins_symm.mp hj)).symm

theorem union_without {e : Env} (h : e.data.WF) {flags : Option BibleFlag} (hm : (e.eff flags).multibook = false) {a b : BibleRange}
    (ha : ROK e.data (e.eff flags).verse0 a) (hb : ROK e.data (e.eff flags).verse0 b) :
    a.union e b flags = if Joins e.data (e.eff flags) a b then
        (if InBook (hull e.data a b) then .ok [hull e.data a b] else .error .multibookRange)
      else .ok (if pos e.data a.stop < pos e.data b.start then [a, b] else [b, a]) := by
  have hla := ha.le
  have hlb := hb.le
  have hdis := isDisjoint_iff h ha hb
  have hadj := isAdjacent_spec h (flags := flags) ha hb
  rw [BibleRange.union_eq (ha.alike hb)]
  by_cases hj : Joins e.data (e.eff flags) a b
  · rw [if_pos hj]
    have hapart : (if a.disjointT e.data b = true then do
        let adj ← a.isAdjacent e b flags
        pure (!adj) else pure false : Except PyErr Bool) = .ok false := by
      by_cases hd : a.disjointT e.data b = true
      · rw [if_pos hd, hadj]
        rw [hdis] at hd
        have : Adj e.data (e.eff flags) a b ∨ Adj e.data (e.eff flags) b a := by
          rcases hj with hj | hj
          · omega
          · exact hj
        simp [bind, Except.bind, pure, Except.pure, this]
      · rw [if_neg hd]; rfl
    rw [hapart]
    have hok := hull_ok h ha hb
    have hnew := new_without h hok.s hok.t hok.le (flags := flags) hm
    simp only [hull] at hnew
    simp only [bind, Except.bind, Bool.false_eq_true, if_false, hnew, hull, InBook]
    by_cases hbk : (BibleRange.minVerse e.data a.start b.start).book = (BibleRange.maxVerse e.data a.stop b.stop).book
    · simp only [hbk, if_true]; rfl
    · simp only [hbk, if_false]
  · rw [if_neg hj]
    have hj' := hj
    rw [Joins, not_or] at hj'
    have hd : a.disjointT e.data b = true := by rw [hdis]; omega
    rw [if_pos hd, hadj]
    simp only [bind, Except.bind, pure, Except.pure, decide_eq_false hj'.2]
    rw [hdis] at hd
    rcases lowerHigher_cases h ha hb with ⟨h1, h2⟩ | ⟨h1, h2⟩ <;> simp only [h1, Bool.not_false, if_true]
    · rw [if_pos (by omega)]
    · rw [if_neg (by omega)]

namespace RangeList
variable {e : Env} (h : e.data.WF) {flags : Option BibleFlag} (hm : (e.eff flags).multibook = false)
include h hm

/-- What the loop of `merge` does to a sorted list without `MULTIBOOK`. -/
theorem mergeLoop_without {cur : BibleRange} {rest : List BibleRange} (hcur : ROK e.data (e.eff flags).verse0 cur)
    (hok : ∀ r ∈ rest, ROK e.data (e.eff flags).verse0 r) (hle : ∀ r ∈ rest, pos e.data cur.start ≤ pos e.data r.start)
    (hs : rest.Pairwise (fun a b => pos e.data a.start ≤ pos e.data b.start)) :
    ((cur :: rest).Pairwise (MayMerge e.data (e.eff flags)) ∧
      ∃ l, mergeLoop e flags cur rest = .ok l ∧ (∀ r ∈ l, ROK e.data (e.eff flags).verse0 r) ∧
        Neighbours (Gap e.data (e.eff flags)) l ∧
        (∀ v, Valid e.data (e.eff flags).verse0 v → (Covered e.data l v ↔ Covered e.data (cur :: rest) v)) ∧
        (∃ p l', l = p :: l' ∧ p.start = cur.start) ∧ ∀ r, ¬ InBook r → (r ∈ l ↔ r ∈ cur :: rest)) ∨
    (¬ (cur :: rest).Pairwise (MayMerge e.data (e.eff flags)) ∧ mergeLoop e flags cur rest = .error .multibookRange) := by
  induction rest generalizing cur with
  | nil =>
    exact .inl ⟨by simp, [cur], rfl, by simpa using hcur, trivial, fun _ _ => Iff.rfl, ⟨cur, [], rfl, rfl⟩, fun _ _ => Iff.rfl⟩
  | cons next rest ih =>
    have hn := hok next List.mem_cons_self
    have hu := union_without h hm hcur hn
    have hln := hle next List.mem_cons_self
    obtain ⟨hs1, hs2⟩ := List.pairwise_cons.mp hs
    have hok' : ∀ r ∈ rest, ROK e.data (e.eff flags).verse0 r := fun r hr => hok r (List.mem_cons_of_mem _ hr)
    have hle' : ∀ r ∈ rest, pos e.data cur.start ≤ pos e.data r.start := fun r hr => hle r (List.mem_cons_of_mem _ hr)
    by_cases hj : Joins e.data (e.eff flags) cur next
    · rw [if_pos hj] at hu
      have hhull := hull_ok h hcur hn
      have hpp := hull_pos h hcur hn
      have hst : (hull e.data cur next).start = cur.start := (h.pos_inj hhull.s hcur.s).mp (by omega)
      by_cases hib : InBook (hull e.data cur next)
      · rw [if_pos hib] at hu
        have hb1 : InBook cur := inBook_mono h hhull hcur (by omega) (by omega) hib
        have hb2 : InBook next := inBook_mono h hhull hn (by omega) (by omega) hib
        have hgood : (cur :: next :: rest).Pairwise (MayMerge e.data (e.eff flags)) ↔
            (hull e.data cur next :: rest).Pairwise (MayMerge e.data (e.eff flags)) := by
          rw [List.pairwise_cons, List.pairwise_cons, List.pairwise_cons]
          constructor
          · rintro ⟨g1, g2, g3⟩
            refine ⟨fun r hr hjr => ⟨hib, ?_⟩, g3⟩
            rcases (joins_hull h hcur hn (hok' r hr) hln (hs1 r hr)).mp hjr with hjr | hjr
            · exact (g1 r (List.mem_cons_of_mem _ hr) hjr).2
            · exact (g2 r hr hjr).2
          · rintro ⟨g1, g3⟩
            refine ⟨fun r hr => ?_, fun r hr hjr => ⟨hb2, ?_⟩, g3⟩
            · rcases List.mem_cons.mp hr with rfl | hr
              · exact fun _ => ⟨hb1, hb2⟩
              · exact fun hjr => ⟨hb1, (g1 r hr ((joins_hull h hcur hn (hok' r hr) hln (hs1 r hr)).mpr (.inl hjr))).2⟩
            · exact (g1 r hr ((joins_hull h hcur hn (hok' r hr) hln (hs1 r hr)).mpr (.inr hjr))).2
        rcases ih hhull hok' (by rw [hst]; exact hle') hs2 with ⟨h0, l, h1, h2, h3, h4, ⟨p, l', h5, h6⟩, h7⟩ | ⟨h0, h1⟩
        · refine .inl ⟨hgood.mpr h0, l, ?_, h2, h3, ?_, ⟨p, l', h5, h6.trans hst⟩, ?_⟩
          · simp only [mergeLoop, hu, bind, Except.bind]; exact h1
          · intro v hv
            rw [h4 v hv, covered_cons, covered_cons, covered_cons, inRange_hull h hcur hn hj ((mem_canon h).mpr hv), or_assoc]
          · intro r hr
            rw [h7 r hr, List.mem_cons, List.mem_cons, List.mem_cons]
            have n0 : r ≠ hull e.data cur next := fun hh => hr (hh ▸ hib)
            have n1 : r ≠ cur := fun hh => hr (hh ▸ hb1)
            have n2 : r ≠ next := fun hh => hr (hh ▸ hb2)
            simp [n0, n1, n2]
        · refine .inr ⟨fun hh => h0 (hgood.mp hh), ?_⟩
          simp only [mergeLoop, hu, bind, Except.bind]; exact h1
      · rw [if_neg hib] at hu
        refine .inr ⟨fun hh => hib ?_, ?_⟩
        · obtain ⟨b1, b2⟩ := (List.pairwise_cons.mp hh).1 next List.mem_cons_self hj
          exact (hull_aok h ⟨hcur, .inr b1⟩ ⟨hn, .inr b2⟩ hj).b.resolve_left (by rw [hm]; simp)
        · simp only [mergeLoop, hu, bind, Except.bind]
    · rw [if_neg hj] at hu
      have hjj := hj
      rw [Joins, not_or, not_or] at hjj
      have := hcur.le
      have := hn.le
      have hlt : pos e.data cur.stop < pos e.data next.start := by omega
      rw [if_pos hlt] at hu
      have hgood : (cur :: next :: rest).Pairwise (MayMerge e.data (e.eff flags)) ↔
          (next :: rest).Pairwise (MayMerge e.data (e.eff flags)) := by
        rw [List.pairwise_cons]
        refine ⟨fun hh => hh.2, fun hh => ⟨fun r hr hjr => absurd hjr ?_, hh⟩⟩
        rcases List.mem_cons.mp hr with rfl | hr
        · exact hj
        · exact not_joins_later h hcur hn (hok' r hr) hj hln (hs1 r hr)
      rcases ih hn hok' hs1 hs2 with ⟨h0, l, h1, h2, h3, h4, ⟨p, l', h5, h6⟩, h7⟩ | ⟨h0, h1⟩
      · refine .inl ⟨hgood.mpr h0, cur :: l, ?_, ?_, ?_, ?_, ⟨cur, l, rfl, rfl⟩, ?_⟩
        · simp only [mergeLoop, hu, h1, bind, Except.bind]; rfl
        · intro r hr
          rcases List.mem_cons.mp hr with rfl | hr
          · exact hcur
          · exact h2 r hr
        · rw [neighbours_cons]
          refine ⟨?_, h3⟩
          subst h5
          intro b hb
          cases hb
          refine ⟨by rw [h6]; exact hlt, ?_⟩
          rw [Adj, h6]
          exact hjj.2.1
        · intro v hv
          rw [covered_cons, covered_cons, h4 v hv]
        · intro r hr
          rw [List.mem_cons, h7 r hr, List.mem_cons (a := r) (b := cur)]
      · refine .inr ⟨fun hh => h0 (hgood.mp hh), ?_⟩
        simp only [mergeLoop, hu, h1, bind, Except.bind]

/-- `merge` without `MULTIBOOK`. -/
theorem merge_without {l : RangeList} (hok : ∀ r ∈ l.flatten, ROK e.data (e.eff flags).verse0 r) :
    (l.flatten.Pairwise (MayMerge e.data (e.eff flags)) ∧
      ∃ m, merge e l flags = .ok m ∧ Groups.NE m ∧ (∀ r ∈ m.flatten, ROK e.data (e.eff flags).verse0 r) ∧
        Neighbours (Gap e.data (e.eff flags)) m.flatten ∧
        (∀ v, Valid e.data (e.eff flags).verse0 v → (Covered e.data m.flatten v ↔ Covered e.data l.flatten v)) ∧
        ∀ r, ¬ InBook r → (r ∈ m.flatten ↔ r ∈ l.flatten)) ∨
    (¬ l.flatten.Pairwise (MayMerge e.data (e.eff flags)) ∧ merge e l flags = .error .multibookRange) := by
  have hperm := sortT_perm (d := e.data) l.flatten
  have hsort := sortT_sorted h l.flatten
  have hok' : ∀ r ∈ sortT e.data l.flatten, ROK e.data (e.eff flags).verse0 r := fun r hr => hok r (hperm.mem_iff.mp hr)
  have hpw := hperm.pairwise_iff (R := MayMerge e.data (e.eff flags)) mayMerge_symm
  have hmi := mergeItems_eq (e := e) (flags := flags) fun a ha b hb => (hok a ha).alike (hok b hb)
  generalize sortT e.data l.flatten = s at hperm hsort hok' hpw hmi
  have hc : ∀ v, Covered e.data s v ↔ Covered e.data l.flatten v := fun v => by
    simp only [Covered, hperm.mem_iff]
  rw [← hpw]
  have fin : ∀ m, mergeItems e flags l.flatten = .ok m → (∀ r ∈ m, ROK e.data (e.eff flags).verse0 r) →
      ∃ g, merge e l flags = .ok g ∧ g.flatten = m ∧ Groups.NE g := by
    intro m h1 h2
    obtain ⟨g, g1, g2, g3⟩ := regroup_ok h (flags := none) (fun hh => hh) (l := m)
      (fun r hr => ⟨(h2 r hr).s.mono, (h2 r hr).t.mono, (h2 r hr).le⟩)
    refine ⟨g, ?_, g2, g3⟩
    simp only [merge, h1, bind, Except.bind]; exact g1
  cases s with
  | nil =>
    obtain ⟨g, g1, g2, g3⟩ := fin [] hmi (by simp)
    refine .inl ⟨by simp, g, g1, g3, ?_⟩
    rw [g2]
    exact ⟨by simp, trivial, fun v _ => hc v, fun r _ => hperm.mem_iff⟩
  | cons a rest =>
    obtain ⟨hs1, hs2⟩ := List.pairwise_cons.mp hsort
    have ha := hok' a List.mem_cons_self
    have key : ∀ {x y}, ROK e.data (e.eff flags).verse0 x → ROK e.data (e.eff flags).verse0 y → x.le e.data y = true →
        pos e.data x.start ≤ pos e.data y.start := fun hx hy hxy => by
      rw [h.range_le hx hy] at hxy; omega
    have hr' : ∀ r ∈ rest, ROK e.data (e.eff flags).verse0 r := fun r hr => hok' r (List.mem_cons_of_mem _ hr)
    rcases mergeLoop_without h hm ha hr' (fun r hr => key ha (hr' r hr) (hs1 r hr))
      (hs2.imp_of_mem (fun hx hy hxy => key (hr' _ hx) (hr' _ hy) hxy)) with ⟨h0, m, h1, h2, h3, h4, _, h6⟩ | ⟨h0, h1⟩
    · obtain ⟨g, g1, g2, g3⟩ := fin m (hmi.trans h1) h2
      refine .inl ⟨h0, g, g1, g3, ?_⟩
      rw [g2]
      exact ⟨h2, h3, fun v hv => (h4 v hv).trans (hc v), fun r hr => (h6 r hr).trans hperm.mem_iff⟩
    · refine .inr ⟨h0, ?_⟩
      simp only [merge, hmi, h1, bind, Except.bind]

end RangeList
end Bibleref

import Verif.Lemmas.Regroup
import Verif.Props.RangeOps

/-! Sorting and merging of lists of ranges. -/

namespace Bibleref
open Spec

section
variable {d : BibleData} (h : d.WF)
include h

theorem vle_total (v w : BibleVerse) : v.le d w = true ∨ w.le d v = true := by
  rw [h.le_iff, h.le_iff, ← h.bidx_inj, ← h.bidx_inj]; omega

theorem vle_trans {u v w : BibleVerse} (h1 : u.le d v = true) (h2 : v.le d w = true) : u.le d w = true := by
  rw [h.le_iff, ← h.bidx_inj] at *; omega

theorem vlt_iff_not_le (v w : BibleVerse) : v.lt d w = true ↔ ¬ w.le d v = true := by
  rw [h.lt_iff, h.le_iff, ← h.bidx_inj, ← h.bidx_inj]; omega

theorem vle_antisymm {v w : BibleVerse} (h1 : v.le d w = true) (h2 : w.le d v = true) : v = w := by
  rw [h.le_iff, ← h.bidx_inj] at *
  have hb : v.book = w.book := h.bidx_inj.mp (by omega)
  have hc : v.chap = w.chap := by omega
  have hv : v.verse = w.verse := by omega
  cases v; cases w; simp_all

theorem vle_refl (v : BibleVerse) : v.le d v = true := by
  rw [h.le_iff, ← h.bidx_inj]; omega

theorem rle_iff (a b : BibleRange) : a.le d b = true ↔ a.start.le d b.start = true ∧
    (b.start.le d a.start = true → a.stop.le d b.stop = true) := by
  unfold BibleRange.le
  by_cases h1 : a.start = b.start
  · rw [if_neg (not_not_intro h1), h1]
    by_cases h2 : a.stop = b.stop
    · rw [if_neg (not_not_intro h2), h2]; simp [vle_refl h]
    · rw [if_pos h2]; simp [vle_refl h]
  · rw [if_pos h1]
    constructor
    · exact fun hh => ⟨hh, fun h2 => absurd (vle_antisymm h hh h2) h1⟩
    · exact fun hh => hh.1

theorem rle_total (a b : BibleRange) : (a.le d b || b.le d a) = true := by
  rw [Bool.or_eq_true, rle_iff h, rle_iff h]
  rcases vle_total h a.start b.start with h1 | h1 <;> rcases vle_total h a.stop b.stop with h2 | h2
  · exact .inl ⟨h1, fun _ => h2⟩
  · by_cases h3 : b.start.le d a.start = true
    · exact .inr ⟨h3, fun _ => h2⟩
    · exact .inl ⟨h1, fun hh => absurd hh h3⟩
  · by_cases h3 : a.start.le d b.start = true
    · exact .inl ⟨h3, fun _ => h2⟩
    · exact .inr ⟨h1, fun hh => absurd hh h3⟩
  · exact .inr ⟨h1, fun _ => h2⟩

theorem rle_trans {a b c : BibleRange} (h1 : a.le d b = true) (h2 : b.le d c = true) : a.le d c = true := by
  rw [rle_iff h] at *
  refine ⟨vle_trans h h1.1 h2.1, fun h3 => ?_⟩
  exact vle_trans h (h1.2 (vle_trans h h2.1 h3)) (h2.2 (vle_trans h h3 h1.1))

theorem sortT_sorted (l : List BibleRange) : (RangeList.sortT d l).Pairwise (fun a b => a.le d b = true) := by
  exact List.pairwise_mergeSort (le := fun a b => a.le d b) (fun _ _ _ h1 h2 => rle_trans h h1 h2) (fun a b => rle_total h a b) l

end

/-- `p` lies before `q` and they cannot be joined. -/
def Gap (d : BibleData) (f : BibleFlag) (p q : BibleRange) : Prop := pos d p.stop < pos d q.start ∧ ¬ Adj d f p q

theorem neighbours_cons {α} {R : α → α → Prop} {a : α} {l : List α} :
    Neighbours R (a :: l) ↔ (∀ b ∈ l.head?, R a b) ∧ Neighbours R l := by
  cases l <;> simp [Neighbours]

section
variable {d : BibleData} (h : d.WF) {f : BibleFlag}
include h

omit h in
/-- In a list with gaps everything after the head comes later. -/
theorem gap_later {p : BibleRange} {l : List BibleRange} (hl : Neighbours (Gap d f) (p :: l)) (hok : ∀ r ∈ p :: l, ROK d f.verse0 r) :
    ∀ q ∈ l, pos d p.stop < pos d q.start := by
  induction l generalizing p with
  | nil => intro q hq; cases hq
  | cons x l ih =>
    intro q hq
    have h1 := hl.1.1
    rcases List.mem_cons.mp hq with rfl | hq
    · exact h1
    · have h2 := ih hl.2 (fun r hr => hok r (List.mem_cons_of_mem _ hr)) q hq
      have h3 := (hok x (by simp)).le
      omega

omit h in
theorem covered_cons {p : BibleRange} {l : List BibleRange} {v : BibleVerse} :
    Covered d (p :: l) v ↔ InRange d p v ∨ Covered d l v := by simp [Covered]

/-- If `x` reaches from inside `p` beyond its end, the verse after `p` is in `x`. -/
theorem next_in {p x : BibleRange} (hp : ROK d f.verse0 p) (hx : AOK d f x) (h1 : pos d x.start ≤ pos d p.stop)
    (h2 : pos d p.stop < pos d x.stop) :
    ∃ w, Valid d f.verse0 w ∧ ix d f.verse0 w = ix d f.verse0 p.stop + 1 ∧ InRange d x w ∧ (f.multibook = true ∨ w.book = p.stop.book) := by
  have h1' := (pos_le_ix h hx.s hp.t).mp h1
  have h2' := (pos_lt_ix h hp.t hx.t).mp h2
  have hlen := (List.getElem?_eq_some_iff.mp (ix_get h hx.t)).1
  have hg := List.getElem?_eq_getElem (show ix d f.verse0 p.stop + 1 < (canon d f.verse0).length by omega)
  generalize (canon d f.verse0)[ix d f.verse0 p.stop + 1] = w at hg
  have hv := valid_of_get h hg
  have ev := ix_of_get h hg
  refine ⟨w, hv, ev, ⟨?_, ?_⟩, ?_⟩
  · rw [pos_le_ix h hx.s hv]; omega
  · rw [pos_le_ix h hv hx.t]; omega
  · refine hx.b.imp id (fun hb => ?_)
    have g1 := book_between h (ix_get h hx.s) hg (ix_get h hx.t) (by omega) (by omega) hb
    have g2 := book_between h (ix_get h hx.s) (ix_get h hp.t) (ix_get h hx.t) (by omega) (by omega) hb
    rw [g1, g2]

/-- A range all of whose verses are covered by a list with gaps lies in one range of the list. -/
theorem covered_single_rok {x : BibleRange} (hx : AOK d f x) {l : List BibleRange} (hok : ∀ r ∈ l, ROK d f.verse0 r)
    (hgap : Neighbours (Gap d f) l) (hcov : ∀ v, Valid d f.verse0 v → InRange d x v → Covered d l v) :
    ∃ p ∈ l, pos d p.start ≤ pos d x.start ∧ pos d x.stop ≤ pos d p.stop := by
  induction l with
  | nil =>
    obtain ⟨r, hr, _⟩ := hcov x.start hx.s ⟨Nat.le_refl _, hx.le⟩
    cases hr
  | cons p l ih =>
    have hp := hok p List.mem_cons_self
    have hlater := gap_later hgap hok
    by_cases h1 : pos d x.start ≤ pos d p.stop
    · refine ⟨p, List.mem_cons_self, ?_, ?_⟩
      · rcases (covered_cons).mp (hcov x.start hx.s ⟨Nat.le_refl _, hx.le⟩) with hh | ⟨q, hq, hh⟩
        · exact hh.1
        · have := hlater q hq
          have := hh.1
          omega
      · apply Classical.byContradiction
        intro h2
        obtain ⟨w, hw, ew, hin, hb⟩ := next_in h hp hx h1 (by omega)
        have hpw : pos d p.stop < pos d w := by rw [pos_lt_ix h hp.t hw]; omega
        rcases (covered_cons).mp (hcov w hw hin) with hh | ⟨q, hq, hh⟩
        · have := hh.2; omega
        · -- q must be the next range, adjacent to p
          cases l with
          | nil => cases hq
          | cons q0 l =>
            have hg := hgap.1
            have hq0 := hok q0 (by simp)
            have hqok := hok q (List.mem_cons_of_mem _ hq)
            have h5 : pos d q0.start ≤ pos d q.start := by
              rcases List.mem_cons.mp hq with rfl | hq'
              · exact Nat.le_refl _
              · have := gap_later hgap.2 (fun r hr => hok r (List.mem_cons_of_mem _ hr)) q hq'
                have := hq0.le
                omega
            have h6 := hh.1
            have h7 := hg.1
            have h8 : pos d q0.start = pos d w := by
              rw [pos_lt_ix h hp.t hq0.s] at h7
              have h9 : pos d q0.start ≤ pos d w := by omega
              have h10 := (pos_le_ix h hq0.s hw).mp h9
              have : ix d f.verse0 q0.start = ix d f.verse0 w := by omega
              rw [(ix_inj h hq0.s hw).mp this]
            have h9 := (h.pos_inj hq0.s hw).mp h8
            apply hg.2
            rw [Adj, h9]
            exact ⟨ew.symm, hb.imp id Eq.symm⟩
    · have hcov' : ∀ v, Valid d f.verse0 v → InRange d x v → Covered d l v := by
        intro v hv hin
        rcases (covered_cons).mp (hcov v hv hin) with hh | hh
        · have := hh.2; have := hin.1; omega
        · exact hh
      obtain ⟨q, hq, hh⟩ := ih (fun r hr => hok r (List.mem_cons_of_mem _ hr)) (neighbours_cons.mp hgap).2 hcov'
      exact ⟨q, List.mem_cons_of_mem _ hq, hh⟩

theorem covered_single {x : BibleRange} (hx : AOK d f x) {l : List BibleRange} (hok : ∀ r ∈ l, AOK d f r)
    (hgap : Neighbours (Gap d f) l) (hcov : ∀ v, Valid d f.verse0 v → InRange d x v → Covered d l v) :
    ∃ p ∈ l, pos d p.start ≤ pos d x.start ∧ pos d x.stop ≤ pos d p.stop :=
  covered_single_rok h hx (fun r hr => (hok r hr).toROK) hgap hcov

/-- Lists with gaps that cover the same verses are equal. -/
theorem gap_unique {l m : List BibleRange} (hl : ∀ r ∈ l, AOK d f r) (hm : ∀ r ∈ m, AOK d f r)
    (gl : Neighbours (Gap d f) l) (gm : Neighbours (Gap d f) m)
    (hcov : ∀ v, Valid d f.verse0 v → (Covered d l v ↔ Covered d m v)) : l = m := by
  induction l generalizing m with
  | nil =>
    cases m with
    | nil => rfl
    | cons q m =>
      have hq := hm q List.mem_cons_self
      obtain ⟨r, hr, _⟩ := (hcov q.start hq.s).mpr ⟨q, List.mem_cons_self, Nat.le_refl _, hq.le⟩
      cases hr
  | cons p l ih =>
    cases m with
    | nil =>
      have hp := hl p List.mem_cons_self
      obtain ⟨r, hr, _⟩ := (hcov p.start hp.s).mp ⟨p, List.mem_cons_self, Nat.le_refl _, hp.le⟩
      cases hr
    | cons q m =>
      have hp := hl p List.mem_cons_self
      have hq := hm q List.mem_cons_self
      have lp := gap_later gl (fun r hr => (hl r hr).toROK)
      have lq := gap_later gm (fun r hr => (hm r hr).toROK)
      have hple := hp.le
      have hqle := hq.le
      obtain ⟨q', hq', a1, a2⟩ := covered_single h hp hm gm (fun v hv hin => (hcov v hv).mp ⟨p, List.mem_cons_self, hin⟩)
      obtain ⟨p', hp', b1, b2⟩ := covered_single h hq hl gl (fun v hv hin => (hcov v hv).mpr ⟨q, List.mem_cons_self, hin⟩)
      have e1 : q' = q := by
        rcases List.mem_cons.mp hq' with hh | hh
        · exact hh
        · have := lq q' hh
          rcases List.mem_cons.mp hp' with rfl | hh'
          · omega
          · have := lp p' hh'; omega
      subst e1
      have e2 : p' = p := by
        rcases List.mem_cons.mp hp' with hh | hh
        · exact hh
        · have := lp p' hh; omega
      subst e2
      have e3 : p' = q' := BibleRange.ext_pos h hp.toROK hq.toROK (by omega) (by omega)
      subst e3
      congr 1
      refine ih (fun r hr => hl r (List.mem_cons_of_mem _ hr)) (fun r hr => hm r (List.mem_cons_of_mem _ hr))
        (neighbours_cons.mp gl).2 (neighbours_cons.mp gm).2 (fun v hv => ?_)
      have := hcov v hv
      rw [covered_cons, covered_cons] at this
      constructor
      · rintro ⟨r, hr, hin⟩
        rcases this.mp (.inr ⟨r, hr, hin⟩) with hh | hh
        · have := lp r hr; have := hh.2; have := hin.1; omega
        · exact hh
      · rintro ⟨r, hr, hin⟩
        rcases this.mpr (.inr ⟨r, hr, hin⟩) with hh | hh
        · have := lq r hr; have := hh.2; have := hin.1; omega
        · exact hh

end

namespace RangeList
variable {e : Env} (h : e.data.WF) {flags : Option BibleFlag}
include h

/-- What the loop of `merge` does to a sorted list. -/
theorem mergeLoop_spec {cur : BibleRange} {rest : List BibleRange} (hcur : AOK e.data (e.eff flags) cur)
    (hok : ∀ r ∈ rest, AOK e.data (e.eff flags) r) (hle : ∀ r ∈ rest, pos e.data cur.start ≤ pos e.data r.start)
    (hs : rest.Pairwise (fun a b => pos e.data a.start ≤ pos e.data b.start)) :
    ∃ l, mergeLoop e flags cur rest = .ok l ∧ (∀ r ∈ l, AOK e.data (e.eff flags) r) ∧ Neighbours (Gap e.data (e.eff flags)) l ∧
      (∀ v, Valid e.data (e.eff flags).verse0 v → (Covered e.data l v ↔ Covered e.data (cur :: rest) v)) ∧
      (∃ p l', l = p :: l' ∧ p.start = cur.start) ∧ l.length ≤ rest.length + 1 := by
  induction rest generalizing cur with
  | nil =>
    exact ⟨[cur], rfl, by simpa using hcur, trivial, fun _ _ => Iff.rfl, ⟨cur, [], rfl, rfl⟩, by simp⟩
  | cons next rest ih =>
    have hn := hok next List.mem_cons_self
    have hu := union_spec h hcur hn
    have hln := hle next List.mem_cons_self
    obtain ⟨hs1, hs2⟩ := List.pairwise_cons.mp hs
    have hok' : ∀ r ∈ rest, AOK e.data (e.eff flags) r := fun r hr => hok r (List.mem_cons_of_mem _ hr)
    have hle' : ∀ r ∈ rest, pos e.data cur.start ≤ pos e.data r.start := fun r hr => hle r (List.mem_cons_of_mem _ hr)
    by_cases hj : Joins e.data (e.eff flags) cur next
    · rw [if_pos hj] at hu
      have hhull := hull_aok h hcur hn hj
      have hst : (hull e.data cur next).start = cur.start := by
        have := (hull_pos h hcur.toROK hn.toROK).1
        exact (h.pos_inj hhull.s hcur.s).mp (by omega)
      obtain ⟨l, h1, h2, h3, h4, ⟨p, l', h5, h6⟩, h7⟩ := ih hhull hok' (by rw [hst]; exact hle') hs2
      refine ⟨l, ?_, h2, h3, ?_, ⟨p, l', h5, h6.trans hst⟩, by simp; omega⟩
      · simp only [mergeLoop, hu, bind, Except.bind]; exact h1
      · intro v hv
        rw [h4 v hv, covered_cons, covered_cons, covered_cons, inRange_hull h hcur.toROK hn.toROK hj ((mem_canon h).mpr hv), or_assoc]
    · rw [if_neg hj] at hu
      have hjj := hj
      rw [Joins, not_or, not_or] at hjj
      have := hcur.le
      have := hn.le
      have hlt : pos e.data cur.stop < pos e.data next.start := by omega
      rw [if_pos hlt] at hu
      obtain ⟨l, h1, h2, h3, h4, ⟨p, l', h5, h6⟩, h7⟩ := ih hn hok' hs1 hs2
      refine ⟨cur :: l, ?_, ?_, ?_, ?_, ⟨cur, l, rfl, rfl⟩, by simp; omega⟩
      · simp only [mergeLoop, hu, h1, bind, Except.bind]; rfl
      · intro r hr
        rcases List.mem_cons.mp hr with rfl | hr
        · exact hcur
        · exact h2 r hr
      · rw [neighbours_cons]
        refine ⟨?_, h3⟩
        subst h5
        intro b hb
        cases hb
        refine ⟨by rw [h6]; exact hlt, ?_⟩
        rw [Adj, h6]
        exact hjj.2.1
      · intro v hv
        rw [covered_cons, covered_cons, h4 v hv]

theorem mergeItems_spec {l : List BibleRange} (hok : ∀ r ∈ l, AOK e.data (e.eff flags) r) :
    ∃ m, mergeItems e flags l = .ok m ∧ (∀ r ∈ m, AOK e.data (e.eff flags) r) ∧ Neighbours (Gap e.data (e.eff flags)) m ∧
      (∀ v, Valid e.data (e.eff flags).verse0 v → (Covered e.data m v ↔ Covered e.data l v)) ∧ m.length ≤ l.length := by
  have hperm := sortT_perm (d := e.data) l
  have hsort := sortT_sorted h l
  have hok' : ∀ r ∈ sortT e.data l, AOK e.data (e.eff flags) r := fun r hr => hok r (hperm.mem_iff.mp hr)
  have hlen := hperm.length_eq
  rw [mergeItems_eq fun a ha b hb => (hok a ha).toROK.alike (hok b hb).toROK]
  generalize sortT e.data l = s at hperm hsort hok' hlen
  have hc : ∀ v, Covered e.data s v ↔ Covered e.data l v := fun v => by
    simp only [Covered, hperm.mem_iff]
  cases s with
  | nil =>
    refine ⟨[], rfl, by simp, trivial, fun v _ => hc v, by simp⟩
  | cons a rest =>
    obtain ⟨hs1, hs2⟩ := List.pairwise_cons.mp hsort
    have ha := hok' a List.mem_cons_self
    have key : ∀ {x y}, AOK e.data (e.eff flags) x → AOK e.data (e.eff flags) y → x.le e.data y = true →
        pos e.data x.start ≤ pos e.data y.start := fun hx hy hxy => by
      rw [h.range_le hx.toROK hy.toROK] at hxy; omega
    have hr' : ∀ r ∈ rest, AOK e.data (e.eff flags) r := fun r hr => hok' r (List.mem_cons_of_mem _ hr)
    obtain ⟨m, h1, h2, h3, h4, _, h6⟩ := mergeLoop_spec h ha hr' (fun r hr => key ha (hr' r hr) (hs1 r hr))
      (hs2.imp_of_mem (fun hx hy hxy => key (hr' _ hx) (hr' _ hy) hxy))
    refine ⟨m, h1, h2, h3, fun v hv => (h4 v hv).trans (hc v), ?_⟩
    rw [List.length_cons] at hlen
    omega

/-- `merge` on allowed ranges. -/
theorem merge_spec {l : RangeList} (hok : ∀ r ∈ l.flatten, AOK e.data (e.eff flags) r) :
    ∃ m, merge e l flags = .ok m ∧ Groups.NE m ∧ (∀ r ∈ m.flatten, AOK e.data (e.eff flags) r) ∧
      Neighbours (Gap e.data (e.eff flags)) m.flatten ∧
      (∀ v, Valid e.data (e.eff flags).verse0 v → (Covered e.data m.flatten v ↔ Covered e.data l.flatten v)) ∧
      m.flatten.length ≤ l.flatten.length := by
  obtain ⟨m, h1, h2, h3, h4, h5⟩ := mergeItems_spec h hok
  obtain ⟨g, g1, g2, g3⟩ := regroup_ok h (flags := none) (fun hh => hh) (l := m)
    (fun r hr => ⟨(h2 r hr).s.mono, (h2 r hr).t.mono, (h2 r hr).le⟩)
  refine ⟨g, ?_, g3, ?_⟩
  · simp only [merge, h1, bind, Except.bind]; exact g1
  · rw [g2]; exact ⟨h2, h3, h4, h5⟩

end RangeList
end Bibleref

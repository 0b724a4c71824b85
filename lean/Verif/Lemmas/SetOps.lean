import Verif.Lemmas.Iter

/-! Set operations on two ranges. -/

namespace Bibleref
open Spec

/-- `b` starts right after `a` ends, in one book unless `MULTIBOOK`. -/
def Adj (d : BibleData) (f : BibleFlag) (a b : BibleRange) : Prop :=
  ix d f.verse0 a.stop + 1 = ix d f.verse0 b.start ∧ (f.multibook = true ∨ a.stop.book = b.start.book)

instance (d f a b) : Decidable (Adj d f a b) := by unfold Adj; infer_instance

/-- `Allowed` in terms of `ROK`. -/
structure AOK (d : BibleData) (f : BibleFlag) (r : BibleRange) : Prop extends ROK d f.verse0 r where
  b : f.multibook = true ∨ r.start.book = r.stop.book

theorem allowed_iff {d : BibleData} (h : d.WF) {f r} : Allowed d f r ↔ AOK d f r :=
  ⟨fun ⟨a, b⟩ => ⟨(rangeOK_iff h).mp a, b⟩, fun ⟨a, b⟩ => ⟨(rangeOK_iff h).mpr a, b⟩⟩

theorem lowerHigher_cases {d : BibleData} (h : d.WF) {v0 w0} {a b : BibleRange} (ha : ROK d v0 a) (hb : ROK d w0 b) :
    (BibleRange.lowerHigher d a b = (a, b) ∧ (pos d a.start < pos d b.start ∨ (pos d a.start = pos d b.start ∧ pos d a.stop < pos d b.stop))) ∨
    (BibleRange.lowerHigher d a b = (b, a) ∧ (pos d b.start < pos d a.start ∨ (pos d b.start = pos d a.start ∧ pos d b.stop ≤ pos d a.stop))) := by
  have hlt := h.range_lt ha hb
  unfold BibleRange.lowerHigher
  by_cases hh : a.lt d b = true
  · rw [if_pos hh]; rw [hlt] at hh; exact .inl ⟨rfl, hh⟩
  · rw [if_neg hh]; rw [hlt] at hh; right; refine ⟨rfl, ?_⟩; omega

theorem adj_pos {d : BibleData} (h : d.WF) {f : BibleFlag} {a b : BibleRange} (ha : ROK d f.verse0 a) (hb : ROK d f.verse0 b)
    (hadj : Adj d f a b) : pos d a.stop < pos d b.start := by
  rw [pos_lt_ix h ha.t hb.s]; have := hadj.1; omega

/-- Nothing lies between adjacent ranges. -/
theorem adj_iff {d : BibleData} (h : d.WF) {f : BibleFlag} {a b : BibleRange} (ha : ROK d f.verse0 a) (hb : ROK d f.verse0 b) :
    Adj d f a b ↔ pos d a.stop < pos d b.start ∧ (¬ ∃ v ∈ canon d f.verse0, pos d a.stop < pos d v ∧ pos d v < pos d b.start) ∧
      (f.multibook = true ∨ a.stop.book = b.start.book) := by
  constructor
  · intro hh
    refine ⟨adj_pos h ha hb hh, ?_, hh.2⟩
    rintro ⟨v, hv, h1, h2⟩
    rw [mem_canon h] at hv
    rw [pos_lt_ix h ha.t hv] at h1
    rw [pos_lt_ix h hv hb.s] at h2
    have := hh.1
    omega
  · rintro ⟨h1, h2, h3⟩
    refine ⟨?_, h3⟩
    have h1' := (pos_lt_ix h ha.t hb.s).mp h1
    apply Classical.byContradiction
    intro hne
    apply h2
    have hlen := (List.getElem?_eq_some_iff.mp (ix_get h hb.s)).1
    have hg := List.getElem?_eq_getElem (show ix d f.verse0 a.stop + 1 < (canon d f.verse0).length by omega)
    generalize (canon d f.verse0)[ix d f.verse0 a.stop + 1] = v at hg
    have hv := valid_of_get h hg
    have ev := ix_of_get h hg
    refine ⟨v, (mem_canon h).mpr hv, ?_, ?_⟩
    · rw [pos_lt_ix h ha.t hv]; omega
    · rw [pos_lt_ix h hv hb.s]; omega

theorem add_one_eq {e : Env} (h : e.data.WF) {flags : Option BibleFlag} {v w : BibleVerse}
    (hv : Valid e.data (e.eff flags).verse0 v) (hw : Valid e.data (e.eff flags).verse0 w) :
    ∃ o, v.add e 1 flags = .ok o ∧ (o = some w ↔ ix e.data (e.eff flags).verse0 v + 1 = ix e.data (e.eff flags).verse0 w ∧
      ((e.eff flags).multibook = true ∨ v.book = w.book)) := by
  have hadd := add_canon h (v := v) (flags := flags) hv.or_self.symm (ix_get h hv) 1
  rw [show (((1 : Nat) : Int)) = 1 from rfl] at hadd
  refine ⟨_, hadd, ?_⟩
  rw [Option.filter_eq_some_iff]
  constructor
  · rintro ⟨h1, h2⟩
    refine ⟨(ix_of_get h h1).symm, ?_⟩
    rw [Bool.or_eq_true, decide_eq_true_iff] at h2
    exact h2.imp id Eq.symm
  · rintro ⟨h1, h2⟩
    refine ⟨by rw [h1]; exact ix_get h hw, ?_⟩
    rw [Bool.or_eq_true, decide_eq_true_iff]
    exact h2.imp id Eq.symm

theorem isAdjacent_spec {e : Env} (h : e.data.WF) {flags : Option BibleFlag} {a b : BibleRange}
    (ha : ROK e.data (e.eff flags).verse0 a) (hb : ROK e.data (e.eff flags).verse0 b) :
    a.isAdjacent e b flags = .ok (decide (Adj e.data (e.eff flags) a b ∨ Adj e.data (e.eff flags) b a)) := by
  have key : ∀ {a b : BibleRange}, ROK e.data (e.eff flags).verse0 a → ROK e.data (e.eff flags).verse0 b →
      (pos e.data a.start < pos e.data b.start ∨ (pos e.data a.start = pos e.data b.start ∧ pos e.data a.stop ≤ pos e.data b.stop)) →
      (do let next ← a.stop.add e 1 flags; pure (decide (next = some b.start)) : Except PyErr Bool) =
        .ok (decide (Adj e.data (e.eff flags) a b ∨ Adj e.data (e.eff flags) b a)) := by
    intro a b ha hb hlt
    obtain ⟨o, h1, h2⟩ := add_one_eq h (flags := flags) ha.t hb.s
    simp only [h1, bind, Except.bind, pure, Except.pure]
    congr 1
    rw [decide_eq_decide, h2]
    constructor
    · exact .inl
    · rintro (hh | hh)
      · exact hh
      · have := adj_pos h hb ha hh
        have := ha.le; have := hb.le
        omega
  rw [BibleRange.isAdjacent_eq (ha.alike hb)]
  rcases lowerHigher_cases h ha hb with ⟨h1, h2⟩ | ⟨h1, h2⟩ <;> simp only [h1]
  · exact key ha hb (by omega)
  · rw [key hb ha (by omega)]
    congr 1
    rw [decide_eq_decide, or_comm]

/-- The range from the earlier start to the later end. -/
def hull (d : BibleData) (a b : BibleRange) : BibleRange :=
  ⟨BibleRange.minVerse d a.start b.start, BibleRange.maxVerse d a.stop b.stop⟩

theorem hull_pos {d : BibleData} (h : d.WF) {v0} {a b : BibleRange} (ha : ROK d v0 a) (hb : ROK d v0 b) :
    pos d (hull d a b).start = min (pos d a.start) (pos d b.start) ∧ pos d (hull d a b).stop = max (pos d a.stop) (pos d b.stop) ∧
    Valid d v0 (hull d a b).start ∧ Valid d v0 (hull d a b).stop := by
  simp only [hull]
  rcases minVerse_cases h ha.s hb.s with ⟨h1, h2⟩ | ⟨h1, h2⟩ <;> rcases maxVerse_cases h ha.t hb.t with ⟨h3, h4⟩ | ⟨h3, h4⟩ <;>
    rw [h1, h3] <;> refine ⟨by omega, by omega, ?_, ?_⟩ <;> first | exact ha.s | exact hb.s | exact ha.t | exact hb.t

theorem hull_ok {d : BibleData} (h : d.WF) {v0} {a b : BibleRange} (ha : ROK d v0 a) (hb : ROK d v0 b) : ROK d v0 (hull d a b) := by
  obtain ⟨h1, h2, h3, h4⟩ := hull_pos h ha hb
  have := ha.le; have := hb.le
  exact ⟨h3, h4, by omega⟩

/-- Ranges that can be joined by the flags. -/
def Joins (d : BibleData) (f : BibleFlag) (a b : BibleRange) : Prop :=
  (pos d a.start ≤ pos d b.stop ∧ pos d b.start ≤ pos d a.stop) ∨ Adj d f a b ∨ Adj d f b a

instance (d f a b) : Decidable (Joins d f a b) := by unfold Joins; infer_instance

theorem book_of_overlap {d : BibleData} (h : d.WF) {v0} {a b : BibleRange} (ha : ROK d v0 a) (hb : ROK d v0 b)
    (ha' : a.start.book = a.stop.book) (hb' : b.start.book = b.stop.book)
    (ho : pos d a.start ≤ pos d b.stop ∧ pos d b.start ≤ pos d a.stop) : a.start.book = b.start.book := by
  have h1 := book_le_of_pos h ha.s hb.t ho.1
  have h2 := book_le_of_pos h hb.s ha.t ho.2
  rw [← hb'] at h1
  rw [← ha'] at h2
  exact h.bidx_inj.mp (by omega)

theorem joins_book {d : BibleData} (h : d.WF) {f : BibleFlag} {a b : BibleRange} (ha : AOK d f a) (hb : AOK d f b)
    (hj : Joins d f a b) : f.multibook = true ∨ (a.start.book = b.start.book ∧ a.stop.book = b.stop.book ∧ a.start.book = a.stop.book) := by
  cases hm : f.multibook with
  | true => exact .inl rfl
  | false =>
    right
    have ha' := ha.b
    have hb' := hb.b
    rw [hm] at ha' hb'
    replace ha' := ha'.resolve_left (by simp)
    replace hb' := hb'.resolve_left (by simp)
    rcases hj with hj | ⟨_, hj⟩ | ⟨_, hj⟩
    · have := book_of_overlap h ha.toROK hb.toROK ha' hb' hj
      exact ⟨this, by rw [← ha', ← hb', this], ha'⟩
    · rw [hm] at hj
      replace hj := hj.resolve_left (by simp)
      exact ⟨by rw [ha', hj], by rw [hj, hb'], ha'⟩
    · rw [hm] at hj
      replace hj := hj.resolve_left (by simp)
      exact ⟨by rw [hb', hj], by rw [← hj.trans ha'], ha'⟩

theorem hull_aok {d : BibleData} (h : d.WF) {f : BibleFlag} {a b : BibleRange} (ha : AOK d f a) (hb : AOK d f b)
    (hj : Joins d f a b) : AOK d f (hull d a b) := by
  refine ⟨hull_ok h ha.toROK hb.toROK, ?_⟩
  rcases joins_book h ha hb hj with hm | ⟨h1, h2, h3⟩
  · exact .inl hm
  · right
    simp only [hull]
    rcases minVerse_cases h ha.s hb.s with ⟨g1, _⟩ | ⟨g1, _⟩ <;> rcases maxVerse_cases h ha.t hb.t with ⟨g3, _⟩ | ⟨g3, _⟩ <;>
      rw [g1, g3]
    · exact h3
    · rw [h3, h2]
    · rw [← h1, h3]
    · rw [← h1, h3, h2]

theorem union_spec {e : Env} (h : e.data.WF) {flags : Option BibleFlag} {a b : BibleRange}
    (ha : AOK e.data (e.eff flags) a) (hb : AOK e.data (e.eff flags) b) :
    a.union e b flags = .ok (if Joins e.data (e.eff flags) a b then [hull e.data a b]
      else if pos e.data a.stop < pos e.data b.start then [a, b] else [b, a]) := by
  have hla := ha.le
  have hlb := hb.le
  have hdis := isDisjoint_iff h ha.toROK hb.toROK
  have hadj := isAdjacent_spec h (flags := flags) ha.toROK hb.toROK
  rw [BibleRange.union_eq (ha.toROK.alike hb.toROK)]
  by_cases hj : Joins e.data (e.eff flags) a b
  · rw [if_pos hj]
    have hapart : (if a.disjointT e.data b = true then do
        let adj ← a.isAdjacent e b flags
        pure (!adj) else pure false : Except PyErr Bool) = .ok false := by
      by_cases hd : a.disjointT e.data b = true
      · rw [if_pos hd, hadj]
        rw [hdis] at hd
        have : Adj e.data (e.eff flags) a b ∨ Adj e.data (e.eff flags) b a := by
          rcases hj with hj | hj
          · omega
          · exact hj
        simp [bind, Except.bind, pure, Except.pure, this]
      · rw [if_neg hd]; rfl
    rw [hapart]
    have hok := hull_aok h ha hb hj
    have hnew := new_range_ok h hok.s hok.t hok.le (flags := flags) hok.b
    simp only [hull] at hnew
    simp only [bind, Except.bind, Bool.false_eq_true, if_false, hnew, hull]; rfl
  · rw [if_neg hj]
    have hj' := hj
    rw [Joins, not_or] at hj'
    have hd : a.disjointT e.data b = true := by rw [hdis]; omega
    rw [if_pos hd, hadj]
    simp only [bind, Except.bind, pure, Except.pure, decide_eq_false hj'.2]
    rw [hdis] at hd
    rcases lowerHigher_cases h ha.toROK hb.toROK with ⟨h1, h2⟩ | ⟨h1, h2⟩ <;> simp only [h1, Bool.not_false, if_true]
    · rw [if_pos (by omega)]
    · rw [if_neg (by omega)]

/-- The range from the later start to the earlier end. -/
def meet (d : BibleData) (a b : BibleRange) : BibleRange :=
  ⟨BibleRange.maxVerse d a.start b.start, BibleRange.minVerse d a.stop b.stop⟩

theorem meet_pos {d : BibleData} (h : d.WF) {v0} {a b : BibleRange} (ha : ROK d v0 a) (hb : ROK d v0 b) :
    pos d (meet d a b).start = max (pos d a.start) (pos d b.start) ∧ pos d (meet d a b).stop = min (pos d a.stop) (pos d b.stop) ∧
    Valid d v0 (meet d a b).start ∧ Valid d v0 (meet d a b).stop := by
  simp only [meet]
  rcases maxVerse_cases h ha.s hb.s with ⟨h1, h2⟩ | ⟨h1, h2⟩ <;> rcases minVerse_cases h ha.t hb.t with ⟨h3, h4⟩ | ⟨h3, h4⟩ <;>
    rw [h1, h3] <;> refine ⟨by omega, by omega, ?_, ?_⟩ <;> first | exact ha.s | exact hb.s | exact ha.t | exact hb.t

theorem meet_aok {d : BibleData} (h : d.WF) {f : BibleFlag} {a b : BibleRange} (ha : AOK d f a) (hb : AOK d f b)
    (ho : pos d a.start ≤ pos d b.stop ∧ pos d b.start ≤ pos d a.stop) : AOK d f (meet d a b) := by
  obtain ⟨h1, h2, h3, h4⟩ := meet_pos h ha.toROK hb.toROK
  have := ha.le; have := hb.le
  refine ⟨⟨h3, h4, by omega⟩, ?_⟩
  rcases joins_book h ha hb (.inl ho) with hm | ⟨e1, e2, e3⟩
  · exact .inl hm
  · right
    simp only [meet]
    rcases maxVerse_cases h ha.s hb.s with ⟨g1, _⟩ | ⟨g1, _⟩ <;> rcases minVerse_cases h ha.t hb.t with ⟨g3, _⟩ | ⟨g3, _⟩ <;>
      rw [g1, g3]
    · exact e3
    · rw [e3, e2]
    · rw [← e1, e3]
    · rw [← e1, e3, e2]

theorem intersection_spec {e : Env} (h : e.data.WF) {flags : Option BibleFlag} {a b : BibleRange}
    (ha : AOK e.data (e.eff flags) a) (hb : AOK e.data (e.eff flags) b) :
    a.intersection e b flags = .ok (if pos e.data a.start ≤ pos e.data b.stop ∧ pos e.data b.start ≤ pos e.data a.stop
      then [meet e.data a b] else []) := by
  have hdis := isDisjoint_iff h ha.toROK hb.toROK
  rw [BibleRange.intersection_eq (ha.toROK.alike hb.toROK)]
  by_cases ho : pos e.data a.start ≤ pos e.data b.stop ∧ pos e.data b.start ≤ pos e.data a.stop
  · rw [if_neg (by rw [hdis]; omega), if_pos ho]
    have hok := meet_aok h ha hb ho
    have hnew := new_range_ok h hok.s hok.t hok.le (flags := flags) hok.b
    simp only [meet] at hnew
    simp only [bind, Except.bind, hnew, meet]; rfl
  · rw [if_pos (by rw [hdis]; omega), if_neg ho]; rfl

/-- `difference` when both neighbours of `b` can be found: `p` right before it and `q` right after it. -/
theorem difference_spec {e : Env} (h : e.data.WF) {flags : Option BibleFlag} {a b : BibleRange}
    (ha : AOK e.data (e.eff flags) a) (hb : AOK e.data (e.eff flags) b)
    (ho : pos e.data a.start ≤ pos e.data b.stop ∧ pos e.data b.start ≤ pos e.data a.stop)
    (hc : ¬ (pos e.data b.start ≤ pos e.data a.start ∧ pos e.data a.stop ≤ pos e.data b.stop))
    {p q : BibleVerse} (hp : (canon e.data (e.eff flags).verse0)[ix e.data (e.eff flags).verse0 b.start - 1]? = some p)
    (hp1 : 1 ≤ ix e.data (e.eff flags).verse0 b.start)
    (hq : (canon e.data (e.eff flags).verse0)[ix e.data (e.eff flags).verse0 b.stop + 1]? = some q)
    (hm : (e.eff flags).multibook = true → e.flags.multibook = true)
    (hbk : (e.eff flags).multibook = true ∨ (p.book = b.start.book ∧ q.book = b.stop.book)) :
    a.difference e b flags = .ok (
      if pos e.data a.start < pos e.data b.start ∧ pos e.data b.stop < pos e.data a.stop then [⟨a.start, p⟩, ⟨q, a.stop⟩]
      else if pos e.data a.start < pos e.data b.start then [⟨a.start, p⟩] else [⟨q, a.stop⟩]) := by
  have hdis := isDisjoint_iff h ha.toROK hb.toROK
  have hcon := contains_iff h hb.toROK ha.toROK
  have hsur := surrounds_iff h ha.toROK hb.toROK
  have hlt := h.range_lt ha.toROK hb.toROK
  have hpv := valid_of_get h hp
  have hqv := valid_of_get h hq
  have ep := ix_of_get h hp
  have eq := ix_of_get h hq
  have hsub := sub_one_canon h (v := b.start) (flags := flags) hb.s.or_self.symm (ix_get h hb.s)
  have hadd := add_canon h (v := b.stop) (flags := flags) hb.t.or_self.symm (ix_get h hb.t) 1
  rw [show (((1 : Nat) : Int)) = 1 from rfl, hq, Option.filter_some, if_pos (by
    rcases hbk with hh | hh
    · simp [hh]
    · simp [hh.2])] at hadd
  rw [if_pos hp1, hp, Option.filter_some, if_pos (by
    rcases hbk with hh | hh
    · simp [hh]
    · simp [hh.1])] at hsub
  have hgl : e.eff none = e.flags := rfl
  have hbooks : e.flags.multibook = true ∨ (a.start.book = p.book ∧ q.book = a.stop.book) := by
    rcases joins_book h ha hb (.inl ho) with hh | ⟨g1, g2, g3⟩
    · exact .inl (hm hh)
    · rcases hbk with hh | hh
      · exact .inl (hm hh)
      · exact .inr ⟨by rw [hh.1, g1], by rw [hh.2, g2]⟩
  -- the constructor never raises here
  have hlow : ∃ x, BibleRange.new e (some a.start) (some p) none = .ok x ∧
      (pos e.data a.start ≤ pos e.data p → x = ⟨a.start, p⟩) := by
    by_cases hle : pos e.data a.start ≤ pos e.data p
    · exact ⟨_, new_range_ok h ha.s hpv hle (by rw [hgl]; exact hbooks.imp id (·.1)), fun _ => rfl⟩
    · rw [new_comparable (comparable_listed ha.s hpv)]
      simp only [hgl]
      rw [if_neg (by rintro ⟨h1, h2⟩; rcases hbooks with hh | hh; rw [hh] at h1; cases h1; exact h2 hh.1)]
      rw [if_pos (by rw [h.lt_pos hpv ha.s]; omega)]
      exact ⟨_, rfl, fun hh => absurd hh hle⟩
  have hupp : ∃ x, BibleRange.new e (some q) (some a.stop) none = .ok x ∧
      (pos e.data q ≤ pos e.data a.stop → x = ⟨q, a.stop⟩) := by
    by_cases hle : pos e.data q ≤ pos e.data a.stop
    · exact ⟨_, new_range_ok h hqv ha.t hle (by rw [hgl]; exact hbooks.imp id (·.2)), fun _ => rfl⟩
    · rw [new_comparable (comparable_listed hqv ha.t)]
      simp only [hgl]
      rw [if_neg (by rintro ⟨h1, h2⟩; rcases hbooks with hh | hh; rw [hh] at h1; cases h1; exact h2 hh.2)]
      rw [if_pos (by rw [h.lt_pos ha.t hqv]; omega)]
      exact ⟨_, rfl, fun hh => absurd hh hle⟩
  obtain ⟨low, hlow1, hlow2⟩ := hlow
  obtain ⟨upp, hupp1, hupp2⟩ := hupp
  have p1 : pos e.data a.start < pos e.data b.start → pos e.data a.start ≤ pos e.data p := by
    rw [pos_lt_ix h ha.s hb.s, pos_le_ix h ha.s hpv]; omega
  have p2 : pos e.data b.stop < pos e.data a.stop → pos e.data q ≤ pos e.data a.stop := by
    rw [pos_lt_ix h hb.t ha.t, pos_le_ix h hqv ha.t]; omega
  have := ha.le; have := hb.le
  rw [BibleRange.difference_eq (ha.toROK.alike hb.toROK)]
  rw [if_neg (by rw [hdis]; omega), if_neg (by rw [hcon]; exact hc)]
  simp only [hsub, hadd, hlow1, hupp1, bind, Except.bind, pure, Except.pure]
  by_cases h1 : pos e.data a.start < pos e.data b.start ∧ pos e.data b.stop < pos e.data a.stop
  · rw [if_pos (hsur.mpr h1), if_pos h1, hlow2 (p1 h1.1), hupp2 (p2 h1.2)]
  · rw [if_neg (by rw [hsur]; exact h1), if_neg h1]
    by_cases h2 : pos e.data a.start < pos e.data b.start
    · rw [if_pos (by rw [hlt]; exact .inl h2), if_pos h2, hlow2 (p1 h2)]
    · rw [if_neg (by rw [hlt]; omega), if_neg h2, hupp2 (p2 (by omega))]

end Bibleref

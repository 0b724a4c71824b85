import Verif.Props.RangeOps
import Verif.Props.RangeLists2

/-!
# What `difference`, `sym_difference` and `range` do for all flags (C24, C25, C32) and when distances can be added back (C07)

`difference` makes both remaining pieces before it looks which of them it wants, and makes them with the global flags
(ref.py:1066-1078). The theorems here say for all flags and all ranges that exist what comes of that.
-/

namespace Bibleref
open Spec

/-- `p` is the verse right before `v`, with or without verse 0s; in the same book unless `multi`. -/
def Spec.Before (d : BibleData) (v0 multi : Bool) (v p : BibleVerse) : Prop :=
  p ∈ canon d v0 ∧ pos d p < pos d v ∧ (∀ u ∈ canon d v0, pos d u < pos d v → pos d u ≤ pos d p) ∧
    (multi = true ∨ p.book = v.book)

/-- `q` is the verse right after `v`, with or without verse 0s; in the same book unless `multi`. -/
def Spec.After (d : BibleData) (v0 multi : Bool) (v q : BibleVerse) : Prop :=
  q ∈ canon d v0 ∧ pos d v < pos d q ∧ (∀ u ∈ canon d v0, pos d v < pos d u → pos d q ≤ pos d u) ∧
    (multi = true ∨ q.book = v.book)

/-- What the constructor `BibleRange(start=…, end=…)` does with two verses or with a missing one. -/
def Spec.fromTo (e : Env) : Option BibleVerse → Option BibleVerse → Except PyErr BibleRange
  | some s, some t =>
    if e.flags.multibook = true ∨ s.book = t.book then .ok (if pos e.data s ≤ pos e.data t then ⟨s, t⟩ else ⟨t, s⟩)
    else .error .multibookRange
  | _, _ => .error (if e.flags.multibook then .typeError else .attributeError)

section
variable {e : Env} (h : e.data.WF) {flags : Option BibleFlag}
include h

theorem new_fromTo {s t : Option BibleVerse} (hs : ∀ v, s = some v → Valid e.data true v) (ht : ∀ v, t = some v → Valid e.data true v) :
    BibleRange.new e s t none = fromTo e s t := by
  cases s with
  | none => unfold BibleRange.new fromTo; rw [show e.eff none = e.flags from rfl]; simp only; cases e.flags.multibook <;> rfl
  | some s =>
    cases t with
    | none => unfold BibleRange.new fromTo; rw [show e.eff none = e.flags from rfl]; simp only; cases e.flags.multibook <;> rfl
    | some t =>
      rw [new_comparable (comparable_listed (hs s rfl) (ht t rfl)), show e.eff none = e.flags from rfl]
      unfold fromTo
      simp only
      have hlt := h.lt_pos (ht t rfl) (hs s rfl)
      by_cases hb : e.flags.multibook = true ∨ s.book = t.book
      · rw [if_pos hb, if_neg (by rintro ⟨h1, h2⟩; rcases hb with hb | hb; rw [hb] at h1; cases h1; exact h2 hb)]
        by_cases hle : pos e.data s ≤ pos e.data t
        · rw [if_pos hle, if_neg (by rw [hlt]; omega)]
        · rw [if_neg hle, if_pos (by rw [hlt]; omega)]
      · rw [if_neg hb, if_pos]
        refine ⟨?_, fun hh => hb (.inr hh)⟩
        cases hm : e.flags.multibook
        · rfl
        · exact absurd (.inl hm) hb

/-- One step back leads to the verse before, if there is one. -/
theorem sub_before {v : BibleVerse} (hv : Valid e.data true v) :
    ∃ o, v.sub e 1 flags = .ok o ∧
      ∀ p, o = some p ↔ Before e.data ((e.eff flags).verse0 || v.verse == 0) (e.eff flags).multibook v p := by
  have hv' : Valid e.data ((e.eff flags).verse0 || v.verse == 0) v := hv.honour
  have hg := ix_get h hv'
  refine ⟨_, sub_one_canon h rfl hg, fun p => ?_⟩
  generalize ((e.eff flags).verse0 || v.verse == 0) = v0 at *
  rw [Option.filter_eq_some_iff]
  unfold Before
  constructor
  · rintro ⟨h1, h2⟩
    split at h1
    · rename_i hi
      have hp := valid_of_get h h1
      have ep := ix_of_get h h1
      refine ⟨(mem_canon h).mpr hp, ?_, ?_, by simpa using h2⟩
      · rw [pos_lt_ix h hp hv']; omega
      · intro u hu hlt
        rw [mem_canon h] at hu
        rw [pos_lt_ix h hu hv'] at hlt
        rw [pos_le_ix h hu hp]; omega
    · cases h1
  · rintro ⟨h1, h2, h3, h4⟩
    rw [mem_canon h] at h1
    have hpg := ix_get h h1
    rw [pos_lt_ix h h1 hv'] at h2
    have hlen := (List.getElem?_eq_some_iff.mp hg).1
    have hg1 := List.getElem?_eq_getElem (show ix e.data v0 v - 1 < (canon e.data v0).length by omega)
    have hu := valid_of_get h hg1
    have eu := ix_of_get h hg1
    have := h3 _ ((mem_canon h).mpr hu) (by rw [pos_lt_ix h hu hv']; omega)
    rw [pos_le_ix h hu h1] at this
    refine ⟨?_, by simpa using h4⟩
    rw [if_pos (by omega), ← hpg]
    congr 1; omega

/-- One step forward leads to the verse after, if there is one. -/
theorem add_after {v : BibleVerse} (hv : Valid e.data true v) :
    ∃ o, v.add e 1 flags = .ok o ∧
      ∀ p, o = some p ↔ After e.data ((e.eff flags).verse0 || v.verse == 0) (e.eff flags).multibook v p := by
  have hv' : Valid e.data ((e.eff flags).verse0 || v.verse == 0) v := hv.honour
  have hg := ix_get h hv'
  refine ⟨_, add_canon h rfl hg 1, fun p => ?_⟩
  generalize ((e.eff flags).verse0 || v.verse == 0) = v0 at *
  rw [Option.filter_eq_some_iff]
  unfold After
  constructor
  · rintro ⟨h1, h2⟩
    have hp := valid_of_get h h1
    have ep := ix_of_get h h1
    refine ⟨(mem_canon h).mpr hp, ?_, ?_, by simpa using h2⟩
    · rw [pos_lt_ix h hv' hp]; omega
    · intro u hu hlt
      rw [mem_canon h] at hu
      rw [pos_lt_ix h hv' hu] at hlt
      rw [pos_le_ix h hp hu]; omega
  · rintro ⟨h1, h2, h3, h4⟩
    rw [mem_canon h] at h1
    have hpg := ix_get h h1
    rw [pos_lt_ix h hv' h1] at h2
    have hlen := (List.getElem?_eq_some_iff.mp hpg).1
    have hg1 := List.getElem?_eq_getElem (show ix e.data v0 v + 1 < (canon e.data v0).length by omega)
    have hu := valid_of_get h hg1
    have eu := ix_of_get h hg1
    have := h3 _ ((mem_canon h).mpr hu) (by rw [pos_lt_ix h hv' hu]; omega)
    rw [pos_le_ix h h1 hu] at this
    refine ⟨?_, by simpa using h4⟩
    rw [← hpg]
    congr 1; omega

end

/-- C24 for all flags and all ranges that exist. Ranges without common verses: the first range. First range inside the second: nothing.
Otherwise the lower piece is made from the start of `a` to the verse before `b` and the upper piece from the verse after `b` to the end of
`a`, with the global flags; if either raises so does `difference`, whether the piece is wanted or not. -/
theorem C24_exact (e : Env) (h : e.data.WF) (flags : Option BibleFlag) (a b : BibleRange) (ha : RangeOK e.data true a)
    (hb : RangeOK e.data true b) :
    ((¬ ∃ v ∈ canon e.data true, InRange e.data a v ∧ InRange e.data b v) → a.difference e b flags = .ok [a]) ∧
    ((∀ v ∈ canon e.data true, InRange e.data a v → InRange e.data b v) → a.difference e b flags = .ok []) ∧
    ((∃ v ∈ canon e.data true, InRange e.data a v ∧ InRange e.data b v) →
      (∃ v ∈ canon e.data true, InRange e.data a v ∧ ¬ InRange e.data b v) →
      ∃ before after : Option BibleVerse,
        (∀ p, before = some p ↔
          Before e.data ((inForce e flags).verse0 || b.start.verse == 0) (inForce e flags).multibook b.start p) ∧
        (∀ q, after = some q ↔
          After e.data ((inForce e flags).verse0 || b.stop.verse == 0) (inForce e flags).multibook b.stop q) ∧
        a.difference e b flags = match fromTo e (some a.start) before, fromTo e after (some a.stop) with
          | .error x, _ => .error x
          | .ok _, .error y => .error y
          | .ok lower, .ok upper => .ok ((if pos e.data a.start < pos e.data b.start then [lower] else []) ++
              (if pos e.data b.stop < pos e.data a.stop then [upper] else []))) := by
  have c20 := C20_contains_surrounds_disjoint e.data h _ a b ha hb
  have c20' := C20_contains_surrounds_disjoint e.data h _ b a hb ha
  rw [rangeOK_iff h] at ha hb
  have hla := ha.le
  have hlb := hb.le
  have hdis := isDisjoint_iff h ha hb
  have hcon := contains_iff h hb ha
  have hsur := surrounds_iff h ha hb
  have hlt := h.range_lt ha hb
  have hdT := c20.2.2.yes
  rw [BibleRange.isDisjoint_true (ha.alike hb)] at hdT
  have hcT := c20'.1.yes
  rw [BibleRange.contains_true (hb.alike ha)] at hcT
  refine ⟨fun hn => ?_, fun hc => ?_, fun h1 h2 => ?_⟩
  · rw [BibleRange.difference_eq (ha.alike hb), if_pos (hdT.mpr hn)]; rfl
  · have h1 : ¬ a.disjointT e.data b = true := by
      rw [hdT]
      intro hh
      have : InRange e.data a a.start := ⟨Nat.le_refl _, hla⟩
      exact hh ⟨a.start, (mem_canon h).mpr ha.s, this, hc _ ((mem_canon h).mpr ha.s) this⟩
    rw [BibleRange.difference_eq (ha.alike hb), if_neg h1, if_pos (hcT.mpr hc)]; rfl
  · have hd : ¬ a.disjointT e.data b = true := by rw [hdT]; exact fun hh => hh h1
    have hc : ¬ b.containsT e.data a = true := by
      rw [hcT]; obtain ⟨v, hv, x, y⟩ := h2; exact fun hh => y (hh v hv x)
    obtain ⟨o, ho, hp⟩ := sub_before h (flags := flags) hb.s
    obtain ⟨o', ho', hq⟩ := add_after h (flags := flags) hb.t
    rw [eff_eq] at hp hq
    refine ⟨o, o', hp, hq, ?_⟩
    have e1 := new_fromTo (e := e) h (s := some a.start) (t := o) (by rintro v ⟨⟩; exact ha.s)
      (fun v hv => ((mem_canon h).mp ((hp v).mp hv).1).mono)
    have e2 := new_fromTo (e := e) h (s := o') (t := some a.stop) (fun v hv => ((mem_canon h).mp ((hq v).mp hv).1).mono)
      (by rintro v ⟨⟩; exact ha.t)
    rw [BibleRange.difference_eq (ha.alike hb), if_neg hd, if_neg hc]
    simp only [ho, ho', e1, e2, bind, Except.bind, pure, Except.pure]
    cases hl : fromTo e (some a.start) o with
    | error x => rfl
    | ok low =>
      cases hu : fromTo e o' (some a.stop) with
      | error x => rfl
      | ok upp =>
        simp only
        rw [hdis] at hd
        rw [hcon] at hc
        by_cases g1 : pos e.data a.start < pos e.data b.start
        · by_cases g2 : pos e.data b.stop < pos e.data a.stop
          · rw [if_pos (hsur.mpr ⟨g1, g2⟩), if_pos g1, if_pos g2]; rfl
          · rw [if_neg (by rw [hsur]; omega), if_pos (by rw [hlt]; exact .inl g1), if_pos g1, if_neg g2]; rfl
        · rw [if_neg (by rw [hsur]; omega), if_neg (by rw [hlt]; omega), if_neg g1, if_pos (by omega)]; rfl

/-- C24 for all flags: whenever `difference` of allowed ranges does not raise, it is right. -/
theorem C24_right_if_ok (e : Env) (h : e.data.WF) (flags : Option BibleFlag) (a b : BibleRange)
    (ha : Allowed e.data (inForce e flags) a) (hb : Allowed e.data (inForce e flags) b) (l : List BibleRange)
    (hl : a.difference e b flags = .ok l) :
    (∀ x ∈ l, Allowed e.data (inForce e flags) x) ∧ l.length ≤ 2 ∧
      Neighbours (fun p q => pos e.data p.stop < pos e.data q.start) l ∧
      (∀ v ∈ canon e.data (inForce e flags).verse0, Covered e.data l v ↔ InRange e.data a v ∧ ¬ InRange e.data b v) := by
  have ha1 := (rangeOK_iff h).mp ha.1
  have hb1 := (rangeOK_iff h).mp hb.1
  have ha2 : ROK e.data true a := ⟨ha1.s.mono, ha1.t.mono, ha1.le⟩
  have hb2 : ROK e.data true b := ⟨hb1.s.mono, hb1.t.mono, hb1.le⟩
  have hla := ha1.le
  have hlb := hb1.le
  obtain ⟨c1, c2, c3⟩ := C24_exact e h flags a b ((rangeOK_iff h).mpr ha2) ((rangeOK_iff h).mpr hb2)
  by_cases hd : ∃ v ∈ canon e.data true, InRange e.data a v ∧ InRange e.data b v
  · by_cases hc : ∃ v ∈ canon e.data true, InRange e.data a v ∧ ¬ InRange e.data b v
    · obtain ⟨o, o', hp, hq, hh⟩ := c3 hd hc
      rw [hl] at hh
      obtain ⟨v, _, hv1, hv2⟩ := hd
      obtain ⟨w, _, hw1, hw2⟩ := hc
      simp only [InRange] at hv1 hv2 hw1 hw2
      cases o with
      | none => simp only [fromTo] at hh; cases hh
      | some p =>
        cases o' with
        | none =>
          cases hx : fromTo e (some a.start) (some p) with
          | error x => rw [hx] at hh; cases hh
          | ok x => rw [hx] at hh; simp only [fromTo] at hh; cases hh
        | some q =>
          have bp := (hp p).mp rfl
          have bq := (hq q).mp rfl
          rw [hb1.s.or_self] at bp
          rw [hb1.t.or_self] at bq
          obtain ⟨p1, p2, p3, p4⟩ := bp
          obtain ⟨q1, q2, q3, q4⟩ := bq
          have hbk : (inForce e flags).multibook = true ∨ (a.start.book = p.book ∧ q.book = a.stop.book) := by
            rcases joins_book h ((allowed_iff h).mp ha) ((allowed_iff h).mp hb) (.inl ⟨by omega, by omega⟩) with hj | ⟨j1, j2, j3⟩
            · exact .inl hj
            · rcases p4 with p4 | p4
              · exact .inl p4
              · rcases q4 with q4 | q4
                · exact .inl q4
                · exact .inr ⟨by rw [p4, j1], by rw [q4, j2]⟩
          have hpv := (mem_canon h).mp p1
          have hqv := (mem_canon h).mp q1
          have hmin := p3 a.start ((mem_canon h).mpr ha1.s)
          have hmax := q3 a.stop ((mem_canon h).mpr ha1.t)
          simp only [fromTo] at hh
          by_cases hb1' : e.flags.multibook = true ∨ a.start.book = p.book
          · rw [if_pos hb1'] at hh
            by_cases hb2' : e.flags.multibook = true ∨ q.book = a.stop.book
            · rw [if_pos hb2'] at hh
              simp only [Except.ok.injEq] at hh
              subst hh
              by_cases g1 : pos e.data a.start < pos e.data b.start <;> by_cases g2 : pos e.data b.stop < pos e.data a.stop
              · rw [if_pos g1, if_pos g2, if_pos (hmin g1), if_pos (hmax g2)]
                refine ⟨?_, by simp, ⟨by simp only; omega, trivial⟩, ?_⟩
                · intro x hx
                  simp only [List.cons_append, List.nil_append, List.mem_cons, List.not_mem_nil, or_false] at hx
                  rw [allowed_iff h]
                  rcases hx with rfl | rfl
                  · exact ⟨⟨ha1.s, hpv, hmin g1⟩, hbk.imp id (·.1)⟩
                  · exact ⟨⟨hqv, ha1.t, hmax g2⟩, hbk.imp id (·.2)⟩
                · intro u hu
                  have k1 := p3 u hu
                  have k2 := q3 u hu
                  simp only [Covered, List.cons_append, List.nil_append, List.mem_cons, List.not_mem_nil, or_false, exists_eq_or_imp,
                    exists_eq_left, InRange]
                  omega
              · rw [if_pos g1, if_neg g2, if_pos (hmin g1)]
                refine ⟨?_, by simp, trivial, ?_⟩
                · intro x hx
                  simp only [List.append_nil, List.mem_singleton] at hx
                  rw [allowed_iff h]
                  subst hx
                  exact ⟨⟨ha1.s, hpv, hmin g1⟩, hbk.imp id (·.1)⟩
                · intro u hu
                  have k1 := p3 u hu
                  simp only [Covered, List.append_nil, List.mem_singleton, exists_eq_left, InRange]
                  omega
              · rw [if_neg g1, if_pos g2, if_pos (hmax g2)]
                refine ⟨?_, by simp, trivial, ?_⟩
                · intro x hx
                  simp only [List.nil_append, List.mem_singleton] at hx
                  rw [allowed_iff h]
                  subst hx
                  exact ⟨⟨hqv, ha1.t, hmax g2⟩, hbk.imp id (·.2)⟩
                · intro u hu
                  have k2 := q3 u hu
                  simp only [Covered, List.nil_append, List.mem_singleton, exists_eq_left, InRange]
                  omega
              · omega
            · rw [if_neg hb2'] at hh; cases hh
          · rw [if_neg hb1'] at hh; cases hh
    · have hc' : ∀ v ∈ canon e.data true, InRange e.data a v → InRange e.data b v := fun v hv hin =>
        Classical.byContradiction fun hn => hc ⟨v, hv, hin, hn⟩
      rw [c2 hc'] at hl; cases hl
      refine ⟨by simp, by simp, trivial, fun v hv => ?_⟩
      have : v ∈ canon e.data true := (mem_canon h).mpr ((mem_canon h).mp hv).mono
      constructor
      · rintro ⟨x, hx, _⟩; cases hx
      · rintro ⟨k1, k2⟩; exact absurd (hc' v this k1) k2
  · rw [c1 hd] at hl; cases hl
    refine ⟨by intro x hx; rw [List.mem_singleton] at hx; subst hx; exact ha, by simp, trivial, fun v hv => ?_⟩
    have : v ∈ canon e.data true := (mem_canon h).mpr ((mem_canon h).mp hv).mono
    simp only [Covered, List.mem_singleton, exists_eq_left]
    exact ⟨fun k => ⟨k, fun k' => hd ⟨v, this, k, k'⟩⟩, And.left⟩

/-- C25 for all flags: the symmetric difference of equal ranges is nothing, of ranges without common verses the union, and otherwise the
`difference` (C24) of the stretch from the first start to the last end and the stretch from the last start to the first end, with the
global flags whatever the flags of the call. -/
theorem C25_exact (e : Env) (h : e.data.WF) (flags : Option BibleFlag) (a b : BibleRange)
    (ha : Allowed e.data (inForce e flags) a) (hb : Allowed e.data (inForce e flags) b) :
    (a = b → a.symDifference e b flags = .ok []) ∧
    ((¬ ∃ v ∈ canon e.data true, InRange e.data a v ∧ InRange e.data b v) → a.symDifference e b flags = a.union e b flags) ∧
    ((∃ v ∈ canon e.data true, InRange e.data a v ∧ InRange e.data b v) → a ≠ b → ∀ s s' t t',
      (s = a.start ∧ s' = b.start ∨ s = b.start ∧ s' = a.start) → pos e.data s ≤ pos e.data s' →
      (t = a.stop ∧ t' = b.stop ∨ t = b.stop ∧ t' = a.stop) → pos e.data t ≤ pos e.data t' →
      a.symDifference e b flags = BibleRange.difference e ⟨s, t'⟩ ⟨s', t⟩ none) := by
  rw [← eff_eq] at *
  rw [allowed_iff h] at ha hb
  have ha2 : ROK e.data true a := ⟨ha.s.mono, ha.t.mono, ha.le⟩
  have hb2 : ROK e.data true b := ⟨hb.s.mono, hb.t.mono, hb.le⟩
  have c20 := (C20_contains_surrounds_disjoint e.data h _ a b ((rangeOK_iff h).mpr ha2) ((rangeOK_iff h).mpr hb2)).2.2.yes
  rw [BibleRange.isDisjoint_true (ha2.alike hb2)] at c20
  have hdis := isDisjoint_iff h ha2 hb2
  have hu := union_spec h ha hb
  have hi := intersection_spec h ha hb
  have hla := ha.le
  have hlb := hb.le
  refine ⟨?_, ?_, ?_⟩
  · intro hh; unfold BibleRange.symDifference; rw [if_pos hh]; rfl
  · intro hn
    have hd := hdis.mp (c20.mpr hn)
    have hab : a ≠ b := by rintro rfl; omega
    rw [if_neg (by omega)] at hi
    unfold BibleRange.symDifference
    rw [if_neg hab, hu, hi]
    simp only [bind, Except.bind, List.length_nil, or_true, if_true]
    rfl
  · intro hh hab s s' t t' hs hle ht hle'
    have hd : pos e.data a.start ≤ pos e.data b.stop ∧ pos e.data b.start ≤ pos e.data a.stop := by
      have : ¬ a.disjointT e.data b = true := by rw [c20]; exact fun hx => hx hh
      rw [hdis] at this; omega
    rw [if_pos hd] at hi
    rw [if_pos (.inl hd)] at hu
    have inj : ∀ {x y : BibleVerse}, Valid e.data true x → Valid e.data true y → pos e.data x = pos e.data y → x = y :=
      fun hx hy hxy => (h.pos_inj hx hy).mp hxy
    have hp := hull_pos h ha2 hb2
    have hm := meet_pos h ha2 hb2
    have vs : Valid e.data true s ∧ Valid e.data true s' := by
      rcases hs with ⟨rfl, rfl⟩ | ⟨rfl, rfl⟩
      · exact ⟨ha2.s, hb2.s⟩
      · exact ⟨hb2.s, ha2.s⟩
    have vt : Valid e.data true t ∧ Valid e.data true t' := by
      rcases ht with ⟨rfl, rfl⟩ | ⟨rfl, rfl⟩
      · exact ⟨ha2.t, hb2.t⟩
      · exact ⟨hb2.t, ha2.t⟩
    have k1 : (hull e.data a b).start = s := inj hp.2.2.1 vs.1 (by
      rw [hp.1]; rcases hs with ⟨rfl, rfl⟩ | ⟨rfl, rfl⟩ <;> omega)
    have k2 : (hull e.data a b).stop = t' := inj hp.2.2.2 vt.2 (by
      rw [hp.2.1]; rcases ht with ⟨rfl, rfl⟩ | ⟨rfl, rfl⟩ <;> omega)
    have k3 : (meet e.data a b).start = s' := inj hm.2.2.1 vs.2 (by
      rw [hm.1]; rcases hs with ⟨rfl, rfl⟩ | ⟨rfl, rfl⟩ <;> omega)
    have k4 : (meet e.data a b).stop = t := inj hm.2.2.2 vt.1 (by
      rw [hm.2.1]; rcases ht with ⟨rfl, rfl⟩ | ⟨rfl, rfl⟩ <;> omega)
    unfold BibleRange.symDifference
    rw [if_neg hab, hu, hi]
    simp only [bind, Except.bind, List.length_cons, List.length_nil, Nat.zero_add, gt_iff_lt, Nat.lt_irrefl, Nat.one_ne_zero, or_self,
      if_false, List.head?_cons]
    rw [← k1, ← k2, ← k3, ← k4]

/-- C32 for all lists: `range` begins where the first of the ranges begins and ends where that range ends which begins last; if several
begin there, the one that ends last. -/
theorem C32_exact (e : Env) (h : e.data.WF) (l : RangeList) (hl : ∀ r ∈ l.flatten, RangeOK e.data true r) :
    (l.flatten = [] → RangeList.range e l = .error .valueError) ∧
    ∀ lo ∈ l.flatten, ∀ hi ∈ l.flatten, (∀ q ∈ l.flatten, pos e.data lo.start ≤ pos e.data q.start) →
      (∀ q ∈ l.flatten, pos e.data q.start < pos e.data hi.start ∨
        (pos e.data q.start = pos e.data hi.start ∧ pos e.data q.stop ≤ pos e.data hi.stop)) →
      RangeList.range e l = .ok ⟨lo.start, hi.stop⟩ := by
  constructor
  · intro hh; unfold RangeList.range; rw [hh]; rfl
  · intro lo hlo hi hhi h1 h2
    simp only [rangeOK_iff h] at *
    obtain ⟨lo', m1, hi', m2, _, _, _, h4, h5, h6⟩ := list_range_spec h hl (List.ne_nil_of_mem hlo)
    rw [h4]
    have e1 : lo'.start = lo.start := (h.pos_inj (hl _ m1).s (hl _ hlo).s).mp (by have := h1 _ m1; have := h5 _ hlo; omega)
    have e2 : hi'.stop = hi.stop := (h.pos_inj (hl _ m2).t (hl _ hhi).t).mp (by have := h2 _ m2; have := h6 _ hhi; omega)
    rw [e1, e2]

/-- C32: so `range` has every verse of the list exactly if no range ends after the one that begins last. -/
theorem C32_covers_iff (e : Env) (h : e.data.WF) (l : RangeList) (hl : ∀ r ∈ l.flatten, RangeOK e.data true r) (r : BibleRange)
    (hr : RangeList.range e l = .ok r) (hi : BibleRange) (hhi : hi ∈ l.flatten)
    (hlast : ∀ q ∈ l.flatten, pos e.data q.start < pos e.data hi.start ∨
        (pos e.data q.start = pos e.data hi.start ∧ pos e.data q.stop ≤ pos e.data hi.stop)) :
    (∀ v ∈ canon e.data true, Covered e.data l.flatten v → InRange e.data r v) ↔
      ∀ q ∈ l.flatten, pos e.data q.stop ≤ pos e.data hi.stop := by
  simp only [rangeOK_iff h] at hl
  obtain ⟨lo', m1, hi', m2, _, _, _, h4, h5, h6⟩ := list_range_spec h hl (List.ne_nil_of_mem hhi)
  rw [hr] at h4; cases h4
  have e2 : hi'.stop = hi.stop := (h.pos_inj (hl _ m2).t (hl _ hhi).t).mp (by have := hlast _ m2; have := h6 _ hhi; omega)
  rw [e2]
  constructor
  · intro hc q hq
    have := (hc q.stop ((mem_canon h).mpr (hl q hq).t) ⟨q, hq, (hl q hq).le, Nat.le_refl _⟩).2
    exact this
  · rintro hc v _ ⟨q, hq, k1, k2⟩
    have := h5 q hq; have := hc q hq
    exact ⟨by simp only; omega, by simp only; omega⟩

/-- C07: adding the difference back leads back exactly if the verse is not a verse 0 that neither the global flags nor the other verse
allow. -/
theorem C07_add_back_iff (e : Env) (h : e.data.WF) (v w : BibleVerse) (hv : v ∈ canon e.data true) (hw : w ∈ canon e.data true)
    (hb : e.flags.multibook = true ∨ v.book = w.book) (hle : pos e.data w ≤ pos e.data v) (n : Int) (hn : v.subVerse e w = .ok n) :
    w.add e n none = .ok (some v) ↔ (v.verse = 0 → e.flags.verse0 = true ∨ w.verse = 0) := by
  constructor
  · intro ha h0
    rcases (C08_outcomes e h none w hw n _ rfl).1 with hh | ⟨u, hu, hh⟩ | hh
    · rw [ha] at hh; cases hh
    · rw [ha] at hh; cases hh
      rw [mem_canon h] at hu
      have := hu.or_self
      rw [h0, show inForce e none = e.flags from rfl] at this
      simp only [beq_self_eq_true, Bool.or_true] at this
      simpa using this.symm
    · rw [ha] at hh; cases hh
  · intro h0
    obtain ⟨m, h1, h2⟩ := C07_add_back_partial e h v w hv hw hb hle h0
    rw [hn] at h1; cases h1; exact h2

example : BibleRange.difference dflt ⟨⟨.Mal, 4, 1⟩, ⟨.Matt, 2, 1⟩⟩ ⟨⟨.Mal, 4, 3⟩, ⟨.Matt, 1, 5⟩⟩ (some .MULTIBOOK) =
      .ok [⟨⟨.Mal, 4, 1⟩, ⟨.Mal, 4, 2⟩⟩, ⟨⟨.Matt, 1, 6⟩, ⟨.Matt, 2, 1⟩⟩] ∧
    BibleRange.difference dfltAll ⟨⟨.Gen, 1, 1⟩, ⟨.Gen, 1, 10⟩⟩ ⟨⟨.Gen, 1, 1⟩, ⟨.Gen, 1, 5⟩⟩ none = .error .typeError := by
  decide +kernel
example : Before dflt.data false false exIn.start ⟨.Matt, 5, 19⟩ := by
  have hv : Valid dflt.data false exIn.start := by decide +kernel
  obtain ⟨o, h1, h2⟩ := sub_before (e := dflt) defaultData_wf (flags := none) hv.mono
  have h3 : exIn.start.sub dflt 1 none = .ok (some ⟨.Matt, 5, 19⟩) := by decide +kernel
  rw [h1] at h3; cases h3
  exact (h2 _).mp rfl

end Bibleref

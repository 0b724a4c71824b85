import Verif.Props.Differences
import Verif.Lemmas.DiffTotal

/-!
# What `difference` of two lists does whatever the second list looks like (C29, C30)

`C29_difference_exact_partial` needs the second list to be in canonical form. Without it, the code still never loses a verse
that should stay and never adds one, and what it wrongly keeps are whole stretches between removed verses.
-/

namespace Bibleref
open Spec

/-- `c` is a stretch of `r` cut out by ranges of the list `b`: between it and every verse of `r` outside there is a verse of
a range of `b` that has no verse of `c`. -/
def Spec.Stretch (d : BibleData) (v0 : Bool) (b : List BibleRange) (r c : BibleRange) : Prop :=
  pos d r.start ≤ pos d c.start ∧ pos d c.stop ≤ pos d r.stop ∧
    ∀ u ∈ canon d v0, InRange d r u → ¬ InRange d c u → ∃ w ∈ canon d v0, ∃ y ∈ b, InRange d y w ∧
      (∀ v ∈ canon d v0, InRange d c v → ¬ InRange d y v) ∧ ((pos d u ≤ pos d w ∧ pos d w < pos d c.start) ∨ (pos d c.stop < pos d w ∧ pos d w ≤ pos d u))

section
variable {e : Env} (h : e.data.WF) {flags : Option BibleFlag}
include h

/-- The pieces of a difference that is not the range itself. -/
theorem difference_pieces {a b : BibleRange} (ha : Allowed e.data (inForce e flags) a) (hb : Allowed e.data (inForce e flags) b)
    {l : List BibleRange} (hl : a.difference e b flags = .ok l) : ∀ x ∈ l, x = a ∨
      (x.start = a.start ∧ pos e.data a.start < pos e.data b.start ∧ pos e.data b.start ≤ pos e.data a.stop ∧
        Before e.data (inForce e flags).verse0 (inForce e flags).multibook b.start x.stop) ∨
      (x.stop = a.stop ∧ pos e.data b.stop < pos e.data a.stop ∧ pos e.data a.start ≤ pos e.data b.stop ∧
        After e.data (inForce e flags).verse0 (inForce e flags).multibook b.stop x.start) := by
  have ha1 := (rangeOK_iff h).mp ha.1
  have hb1 := (rangeOK_iff h).mp hb.1
  have ha2 : ROK e.data true a := ⟨ha1.s.mono, ha1.t.mono, ha1.le⟩
  have hb2 : ROK e.data true b := ⟨hb1.s.mono, hb1.t.mono, hb1.le⟩
  have hla := ha1.le
  have hlb := hb1.le
  obtain ⟨c1, c2, c3⟩ := C24_exact e h flags a b ((rangeOK_iff h).mpr ha2) ((rangeOK_iff h).mpr hb2)
  by_cases hd : ∃ v ∈ canon e.data true, InRange e.data a v ∧ InRange e.data b v
  · by_cases hc : ∃ v ∈ canon e.data true, InRange e.data a v ∧ ¬ InRange e.data b v
    · obtain ⟨o, o', hp, hq, hh⟩ := c3 hd hc
      rw [hl] at hh
      obtain ⟨v, _, hv1, hv2⟩ := hd
      simp only [InRange] at hv1 hv2
      cases o with
      | none => simp only [fromTo] at hh; cases hh
      | some p =>
        cases o' with
        | none =>
          cases hx : fromTo e (some a.start) (some p) with
          | error x => rw [hx] at hh; cases hh
          | ok x => rw [hx] at hh; simp only [fromTo] at hh; cases hh
        | some q =>
          have bp := (hp p).mp rfl
          have bq := (hq q).mp rfl
          rw [hb1.s.or_self] at bp
          rw [hb1.t.or_self] at bq
          have hmin := bp.2.2.1 a.start ((mem_canon h).mpr ha1.s)
          have hmax := bq.2.2.1 a.stop ((mem_canon h).mpr ha1.t)
          simp only [fromTo] at hh
          by_cases hb1' : e.flags.multibook = true ∨ a.start.book = p.book
          · rw [if_pos hb1'] at hh
            by_cases hb2' : e.flags.multibook = true ∨ q.book = a.stop.book
            · rw [if_pos hb2'] at hh
              simp only [Except.ok.injEq] at hh
              intro x hx
              rw [hh, List.mem_append] at hx
              rcases hx with hx | hx
              · split at hx
                · rename_i g
                  rw [if_pos (hmin g), List.mem_singleton] at hx
                  subst hx
                  exact .inr (.inl ⟨rfl, g, by omega, bp⟩)
                · cases hx
              · split at hx
                · rename_i g
                  rw [if_pos (hmax g), List.mem_singleton] at hx
                  subst hx
                  exact .inr (.inr ⟨rfl, g, by omega, bq⟩)
                · cases hx
            · rw [if_neg hb2'] at hh; cases hh
          · rw [if_neg hb1'] at hh; cases hh
    · have := c2 (fun v hv hin => Classical.byContradiction fun hn => hc ⟨v, hv, hin, hn⟩)
      rw [hl] at this; cases this
      intro x hx; cases hx
  · have := c1 hd
    rw [hl] at this; cases this
    intro x hx
    exact .inl (List.mem_singleton.mp hx)

omit h in
theorem stretch_refl (d : BibleData) (v0 : Bool) (b : List BibleRange) (r : BibleRange) : Stretch d v0 b r r :=
  ⟨Nat.le_refl _, Nat.le_refl _, fun _ _ h1 h2 => absurd h1 h2⟩

omit h in
theorem Spec.Stretch.trans {d : BibleData} {v0 : Bool} {b : List BibleRange} {r p x : BibleRange} (h1 : Stretch d v0 b r p)
    (h2 : Stretch d v0 b p x) : Stretch d v0 b r x := by
  refine ⟨Nat.le_trans h1.1 h2.1, Nat.le_trans h2.2.1 h1.2.1, fun u hu hr hx => ?_⟩
  by_cases hp : InRange d p u
  · exact h2.2.2 u hu hp hx
  · obtain ⟨w, hw, y, hy, hyw, hc, hh⟩ := h1.2.2 u hu hr hp
    have := h2.1
    have := h2.2.1
    exact ⟨w, hw, y, hy, hyw, fun v hv hxv => hc v hv ⟨Nat.le_trans h2.1 hxv.1, Nat.le_trans hxv.2 h2.2.1⟩, by omega⟩

theorem difference_stretch {a b : BibleRange} (ha : Allowed e.data (inForce e flags) a) (hb : Allowed e.data (inForce e flags) b)
    {B l : List BibleRange} (hbB : b ∈ B) (hl : a.difference e b flags = .ok l) :
    ∀ x ∈ l, Stretch e.data (inForce e flags).verse0 B a x := by
  intro x hx
  have ha1 := (rangeOK_iff h).mp ha.1
  have hb1 := (rangeOK_iff h).mp hb.1
  have hok := (C24_right_if_ok e h flags a b ha hb l hl).1 x hx
  have hx1 := (rangeOK_iff h).mp hok.1
  have := ha1.le; have := hb1.le; have := hx1.le
  rcases difference_pieces h ha hb hl x hx with rfl | ⟨h1, h2, h3, h4⟩ | ⟨h1, h2, h3, h4⟩
  · exact stretch_refl _ _ _ _
  · have := h4.2.1
    refine ⟨by rw [h1]; exact Nat.le_refl _, by omega, fun u hu hua hux => ?_⟩
    simp only [InRange] at hua hux
    rw [h1] at hux
    have := h4.2.2.1 u hu
    exact ⟨b.start, (mem_canon h).mpr hb1.s, b, hbB, ⟨Nat.le_refl _, hb1.le⟩, fun v _ h5 h6 => by
      simp only [InRange] at h5 h6; omega, .inr (by omega)⟩
  · have := h4.2.1
    refine ⟨by omega, by rw [h1]; exact Nat.le_refl _, fun u hu hua hux => ?_⟩
    simp only [InRange] at hua hux
    rw [h1] at hux
    have := h4.2.2.1 u hu
    exact ⟨b.stop, (mem_canon h).mpr hb1.t, b, hbB, ⟨hb1.le, Nat.le_refl _⟩, fun v _ h5 h6 => by
      simp only [InRange] at h5 h6; omega, .inl (by omega)⟩

/-- `c` has no verse in common with `x`, or lies in it. -/
def ApartOrIn (d : BibleData) (v0 : Bool) (c x : BibleRange) : Prop :=
  (∀ v ∈ canon d v0, InRange d c v → ¬ InRange d x v) ∨ (∀ v ∈ canon d v0, InRange d c v → InRange d x v)

theorem diffInner_bounds {B bs : List BibleRange} (hbs : ∀ x ∈ bs, Allowed e.data (inForce e flags) x ∧ x ∈ B) {p : BibleRange}
    (hp : Allowed e.data (inForce e flags) p) {rest : List BibleRange} {cur : BibleRange} {out : List BibleRange}
    (hok : RangeList.diffInner e flags p rest bs = .ok (cur, out)) :
    ∃ extra, out = extra ++ rest ∧ (∀ x ∈ cur :: extra, Allowed e.data (inForce e flags) x ∧ Stretch e.data (inForce e flags).verse0 B p x) ∧
      (∀ x ∈ bs, ApartOrIn e.data (inForce e flags).verse0 cur x) ∧
      ∀ v ∈ canon e.data (inForce e flags).verse0, InRange e.data p v → ¬ Covered e.data bs v → Covered e.data (cur :: extra) v := by
  induction bs generalizing p rest with
  | nil =>
    cases hok
    refine ⟨[], rfl, ?_, by simp, fun v _ hv _ => ⟨_, List.mem_cons_self, hv⟩⟩
    intro x hx
    rw [List.mem_singleton.mp hx]
    exact ⟨hp, stretch_refl _ _ _ _⟩
  | cons b bs ih =>
    have hb := hbs b List.mem_cons_self
    have ih' := fun {p} (hp : Allowed e.data (inForce e flags) p) {rest} => ih (p := p) (rest := rest) (fun x hx => hbs x (List.mem_cons_of_mem _ hx)) hp
    rw [RangeList.diffInner] at hok
    cases hl : p.difference e b flags with
    | error x => rw [hl] at hok; cases hok
    | ok l =>
      rw [hl] at hok
      simp only [bind, Except.bind] at hok
      obtain ⟨k1, k2, k3, k4⟩ := C24_right_if_ok e h flags p b hp hb.1 l hl
      have k5 := difference_stretch h hp hb.1 hb.2 hl
      cases l with
      | nil =>
        obtain ⟨extra, g1, g2, g3, g4⟩ := ih' hp hok
        refine ⟨extra, g1, g2, ?_, ?_⟩
        · intro x hx
          rcases List.mem_cons.mp hx with rfl | hx
          · right
            intro v hv hcv
            have hs := (g2 cur List.mem_cons_self).2
            have hpv : InRange e.data p v := ⟨Nat.le_trans hs.1 hcv.1, Nat.le_trans hcv.2 hs.2.1⟩
            apply Classical.byContradiction
            intro hn
            obtain ⟨y, hy, _⟩ := (k4 v hv).mpr ⟨hpv, hn⟩
            cases hy
          · exact g3 x hx
        · exact fun v hv hpv hn => g4 v hv hpv fun ⟨x, hx, hxv⟩ => hn ⟨x, List.mem_cons_of_mem _ hx, hxv⟩
      | cons y ys =>
        obtain ⟨extra, g1, g2, g3, g4⟩ := ih' (k1 y List.mem_cons_self) hok
        refine ⟨extra ++ ys, by rw [g1, List.append_assoc], ?_, ?_, ?_⟩
        · intro x hx
          have hx : x ∈ cur :: extra ∨ x ∈ ys := by simpa [or_assoc] using hx
          rcases hx with hx | hx
          · exact ⟨(g2 x hx).1, (k5 y List.mem_cons_self).trans (g2 x hx).2⟩
          · exact ⟨k1 x (List.mem_cons_of_mem _ hx), k5 x (List.mem_cons_of_mem _ hx)⟩
        · intro x hx
          rcases List.mem_cons.mp hx with rfl | hx
          · left
            intro v hv hcv
            have hs := (g2 cur List.mem_cons_self).2
            exact ((k4 v hv).mp ⟨y, List.mem_cons_self, Nat.le_trans hs.1 hcv.1, Nat.le_trans hcv.2 hs.2.1⟩).2
          · exact g3 x hx
        · intro v hv hpv hn
          obtain ⟨z, hz, hzv⟩ := (k4 v hv).mpr ⟨hpv, fun hbv => hn ⟨b, List.mem_cons_self, hbv⟩⟩
          rcases List.mem_cons.mp hz with rfl | hz
          · obtain ⟨x, hx, hxv⟩ := g4 v hv hzv fun ⟨x, hx, hxv⟩ => hn ⟨x, List.mem_cons_of_mem _ hx, hxv⟩
            refine ⟨x, ?_, hxv⟩
            rcases List.mem_cons.mp hx with rfl | hx
            · exact List.mem_cons_self
            · exact List.mem_cons_of_mem _ (List.mem_append_left _ hx)
          · exact ⟨z, List.mem_cons_of_mem _ (List.mem_append_right _ hz), hzv⟩

theorem diffOuter_bounds {B : List BibleRange} (hB : ∀ x ∈ B, Allowed e.data (inForce e flags) x) {l : List BibleRange}
    (hl : ∀ r ∈ l, Allowed e.data (inForce e flags) r) {fuel : Nat} {R : List BibleRange}
    (hok : RangeList.diffOuter e flags B fuel l = .ok R) :
    (∀ c ∈ R, Allowed e.data (inForce e flags) c ∧ (∃ r ∈ l, Stretch e.data (inForce e flags).verse0 B r c) ∧
      ∀ x ∈ B, ApartOrIn e.data (inForce e flags).verse0 c x) ∧
    ∀ v ∈ canon e.data (inForce e flags).verse0, Covered e.data l v → ¬ Covered e.data B v → Covered e.data R v := by
  induction fuel generalizing l R with
  | zero =>
    cases l with
    | nil => cases hok; exact ⟨by simp, fun v _ ⟨r, hr, _⟩ => by cases hr⟩
    | cons a l => cases hok
  | succ fuel ih =>
    cases l with
    | nil => cases hok; exact ⟨by simp, fun v _ ⟨r, hr, _⟩ => by cases hr⟩
    | cons a l =>
      rw [RangeList.diffOuter] at hok
      cases hi : RangeList.diffInner e flags a l B with
      | error x => rw [hi] at hok; cases hok
      | ok co =>
        obtain ⟨cur, out⟩ := co
        rw [hi] at hok
        simp only [bind, Except.bind] at hok
        obtain ⟨extra, g1, g2, g3, g4⟩ := diffInner_bounds h (fun x hx => ⟨hB x hx, hx⟩) (hl a List.mem_cons_self) hi
        cases ho : RangeList.diffOuter e flags B fuel out with
        | error x => rw [ho] at hok; cases hok
        | ok D =>
          rw [ho] at hok
          cases hok
          subst g1
          obtain ⟨k1, k2⟩ := ih (l := extra ++ l) (fun r hr => by
            rcases List.mem_append.mp hr with hr | hr
            · exact (g2 r (List.mem_cons_of_mem _ hr)).1
            · exact hl r (List.mem_cons_of_mem _ hr)) ho
          refine ⟨fun c hc => ?_, fun v hv ⟨r, hr, hrv⟩ hn => ?_⟩
          · rcases List.mem_cons.mp hc with rfl | hc
            · exact ⟨(g2 _ List.mem_cons_self).1, ⟨a, List.mem_cons_self, (g2 _ List.mem_cons_self).2⟩, g3⟩
            · obtain ⟨c1, ⟨r, hr, c2⟩, c3⟩ := k1 c hc
              refine ⟨c1, ?_, c3⟩
              rcases List.mem_append.mp hr with hr | hr
              · exact ⟨a, List.mem_cons_self, (g2 r (List.mem_cons_of_mem _ hr)).2.trans c2⟩
              · exact ⟨r, List.mem_cons_of_mem _ hr, c2⟩
          · have : Covered e.data (extra ++ l) v ∨ InRange e.data cur v := by
              rcases List.mem_cons.mp hr with rfl | hr
              · obtain ⟨x, hx, hxv⟩ := g4 v hv hrv hn
                rcases List.mem_cons.mp hx with rfl | hx
                · exact .inr hxv
                · exact .inl ⟨x, List.mem_append_left _ hx, hxv⟩
              · exact .inl ⟨r, List.mem_append_right _ hr, hrv⟩
            rcases this with hh | hh
            · obtain ⟨x, hx, hxv⟩ := k2 v hv hh hn
              exact ⟨x, List.mem_cons_of_mem _ hx, hxv⟩
            · exact ⟨cur, List.mem_cons_self, hh⟩

end

/-- C29 for any second list: the difference ends, and unless it raises its result is in canonical form, has every verse of
the first list that is not in the second, and has no verse that is not in the first. What it has of the second list are
stretches of ranges of the first between verses of the second, each lying inside a range of the second.
The flags in force must be among the global ones, as `C29_flags_counterexample` shows. -/
theorem C29_bounds (e : Env) (h : e.data.WF) (flags : Option BibleFlag)
    (hm : (inForce e flags).multibook = true → e.flags.multibook = true)
    (hg : (inForce e flags).verse0 = true → e.flags.verse0 = true) (a b : RangeList)
    (ha : ∀ r ∈ a.flatten, Allowed e.data (inForce e flags) r) (hb : ∀ r ∈ b.flatten, Allowed e.data (inForce e flags) r) :
    (∃ n, ∀ fuel ≥ n, RangeList.difference e a b flags fuel ≠ .error .diverges) ∧
    ∀ fuel m, RangeList.difference e a b flags fuel = .ok m →
      (∀ r ∈ m.flatten, Allowed e.data e.flags r) ∧ Canonical e.data e.flags m.flatten ∧
      ∀ v ∈ canon e.data (inForce e flags).verse0,
        (Covered e.data a.flatten v → ¬ Covered e.data b.flatten v → Covered e.data m.flatten v) ∧
        (Covered e.data m.flatten v → Covered e.data a.flatten v) ∧
        (Covered e.data m.flatten v → Covered e.data b.flatten v →
          ∃ r ∈ a.flatten, ∃ x ∈ b.flatten, ∃ c, Allowed e.data (inForce e flags) c ∧ InRange e.data c v ∧
            Stretch e.data (inForce e flags).verse0 b.flatten r c ∧
            ∀ u ∈ canon e.data (inForce e flags).verse0, InRange e.data c u → InRange e.data x u) := by
  refine ⟨⟨RangeList.total e.data (e.eff flags).verse0 a.flatten, fun fuel hf => ?_⟩, ?_⟩
  · rw [← eff_eq] at ha hb
    simp only [allowed_iff h] at ha hb
    unfold RangeList.difference
    exact Bibleref.differenceUpdate_ends h (a := RangeList.copy a) (by rw [RangeList.copy_flatten]; exact ha) hb (by rw [RangeList.copy_flatten]; exact hf)
  · intro fuel m hok
    unfold RangeList.difference RangeList.differenceUpdate at hok
    rw [RangeList.copy_flatten] at hok
    cases hR : RangeList.diffOuter e flags b.flatten fuel a.flatten with
    | error x => rw [hR] at hok; cases hok
    | ok R =>
      rw [hR] at hok
      simp only [bind, Except.bind] at hok
      obtain ⟨k1, k2⟩ := diffOuter_bounds h hb ha hR
      obtain ⟨m', g1, g2, g3, g4, g5, _⟩ := RangeList.merge_spec h (flags := none) (l := RangeList.ofRanges R) (by
        rw [RangeList.ofRanges_flatten]
        exact fun r hr => aok_mono hm hg ((allowed_iff h).mp (k1 r hr).1))
      have hnone : e.eff none = e.flags := rfl
      rw [hnone] at g3 g4 g5
      rw [hok] at g1; cases g1
      have hcov : ∀ v ∈ canon e.data (inForce e flags).verse0, Covered e.data m.flatten v ↔ Covered e.data R v := by
        intro v hv
        rw [mem_canon h] at hv
        have hv' : Valid e.data e.flags.verse0 v := by
          cases hf : (inForce e flags).verse0 with
          | true => rw [hg hf]; exact hv.mono
          | false =>
            rw [hf] at hv
            cases e.flags.verse0 with
            | true => exact hv.mono
            | false => exact hv
        rw [g5 v hv', RangeList.ofRanges_flatten]
      refine ⟨fun r hr => (allowed_iff h).mpr (g3 r hr), (gaps_iff_canonical h g3).mp g4, fun v hv => ⟨fun h1 h2 => ?_, fun h1 => ?_, fun h1 h2 => ?_⟩⟩
      · exact (hcov v hv).mpr (k2 v hv h1 h2)
      · obtain ⟨c, hc, hcv⟩ := (hcov v hv).mp h1
        obtain ⟨_, ⟨r, hr, hs⟩, _⟩ := k1 c hc
        exact ⟨r, hr, Nat.le_trans hs.1 hcv.1, Nat.le_trans hcv.2 hs.2.1⟩
      · obtain ⟨c, hc, hcv⟩ := (hcov v hv).mp h1
        obtain ⟨c1, ⟨r, hr, hs⟩, c3⟩ := k1 c hc
        obtain ⟨x, hx, hxv⟩ := h2
        refine ⟨r, hr, x, hx, c, c1, hcv, hs, ?_⟩
        rcases c3 x hx with hh | hh
        · exact absurd hxv (hh v hv hcv)
        · exact hh

/-! ## A second list in canonical form -/

section
variable {d : BibleData} (h : d.WF) {f : BibleFlag}
include h

omit h in
/-- Any two ranges of a list in canonical form are apart. -/
theorem canonical_pair {l : List BibleRange} (hl : ∀ r ∈ l, Allowed d f r) (hc : Canonical d f l) :
    ∀ y ∈ l, ∀ x ∈ l, y ≠ x → Apart d f y x ∨ Apart d f x y := by
  have key : ∀ {p : BibleRange} {l : List BibleRange}, (∀ r ∈ p :: l, Allowed d f r) → Canonical d f (p :: l) → ∀ q ∈ l, Apart d f p q := by
    intro p l hl hc
    induction l generalizing p with
    | nil => intro q hq; cases hq
    | cons m l ih =>
      intro q hq
      rcases List.mem_cons.mp hq with rfl | hq
      · exact hc.1
      · have h1 := ih (fun r hr => hl r (List.mem_cons_of_mem _ hr)) hc.2 q hq
        have h2 := (hl m (by simp)).ok.1
        have h3 := (hl m (by simp)).ok.ordered
        have h4 := hc.1.1
        have h5 := h1.1
        exact ⟨by omega, .inl ⟨m.start, h2, h4, by omega⟩⟩
  induction l with
  | nil => intro y hy; cases hy
  | cons p l ih =>
    intro y hy x hx hne
    rcases List.mem_cons.mp hy with rfl | hy'
    · rcases List.mem_cons.mp hx with rfl | hx'
      · exact absurd rfl hne
      · exact .inl (key hl hc x hx')
    · rcases List.mem_cons.mp hx with rfl | hx'
      · exact .inr (key hl hc y hy')
      · exact ih (fun r hr => hl r (List.mem_cons_of_mem _ hr)) (neighbours_cons.mp hc).2 y hy' x hx' hne

/-- A range without `MULTIBOOK` has only verses of one book. -/
theorem allowed_book {r : BibleRange} (hr : Allowed d f r) (hm : f.multibook = false) {v : BibleVerse} (hv : Valid d f.verse0 v)
    (hin : InRange d r v) : v.book = r.start.book := by
  have h1 := (rangeOK_iff h).mp hr.ok
  have hb : r.start.book = r.stop.book := hr.one_book.resolve_left (by rw [hm]; simp)
  exact book_between h (ix_get h h1.s) (ix_get h hv) (ix_get h h1.t) ((pos_le_ix h h1.s hv).mp hin.1) ((pos_le_ix h hv h1.t).mp hin.2) hb

/-- If a range of a list in canonical form holds a stretch of `r`, it holds all of `r`. -/
theorem stretch_canonical {B : List BibleRange} (hB : ∀ r ∈ B, Allowed d f r) (hc : Canonical d f B) {r c x : BibleRange}
    (hr : Allowed d f r) (hcok : Allowed d f c) (hx : x ∈ B) (hs : Stretch d f.verse0 B r c)
    (hin : ∀ u ∈ canon d f.verse0, InRange d c u → InRange d x u) : ∀ u ∈ canon d f.verse0, InRange d r u → InRange d x u := by
  intro u hu hru
  have hu' := (mem_canon h).mp hu
  apply Classical.byContradiction
  intro hxu
  have hr1 := (rangeOK_iff h).mp hr.ok
  have hc1 := (rangeOK_iff h).mp hcok.ok
  have hx1 := (rangeOK_iff h).mp (hB x hx).ok
  have hcs : InRange d x c.start := hin _ ((mem_canon h).mpr hc1.s) ⟨Nat.le_refl _, hc1.le⟩
  have hct : InRange d x c.stop := hin _ ((mem_canon h).mpr hc1.t) ⟨hc1.le, Nat.le_refl _⟩
  have hle := hc1.le
  have hsr1 := hs.1
  have hsr2 := hs.2.1
  simp only [InRange] at hru hxu hcs hct
  have hpair := canonical_pair hB hc
  -- a verse next to `x` in `r` cannot be covered
  have hcut : ∀ g ∈ canon d f.verse0, InRange d r g → ¬ InRange d c g →
      (∀ w ∈ canon d f.verse0, pos d g < pos d w → pos d w < pos d c.start → InRange d x w) →
      (∀ w ∈ canon d f.verse0, pos d w < pos d g → pos d c.stop < pos d w → InRange d x w) → Covered d B g := by
    intro g hg hrg hcg k1 k2
    obtain ⟨w, hw, y, hy, hyw, hyc, hb⟩ := hs.2.2 g hg hrg hcg
    have hyx : y ≠ x := by
      rintro rfl
      exact hyc c.start ((mem_canon h).mpr hc1.s) ⟨Nat.le_refl _, hc1.le⟩ (hin _ ((mem_canon h).mpr hc1.s) ⟨Nat.le_refl _, hc1.le⟩)
    by_cases hwg : pos d w = pos d g
    · refine ⟨y, hy, ?_⟩
      simp only [InRange] at hyw ⊢
      omega
    · have hwx : InRange d x w := by
        rcases hb with hb | hb
        · exact k1 w hw (by omega) hb.2
        · exact k2 w hw (by omega) hb.1
      simp only [InRange] at hyw hwx
      rcases hpair y hy x hx hyx with hp | hp
      · have := hp.1; omega
      · have := hp.1; omega
  by_cases hside : pos d u < pos d x.start
  · -- the verse before `x`
    have hlt := (pos_lt_ix h hu' hx1.s).mp hside
    have hlen := (List.getElem?_eq_some_iff.mp (ix_get h hx1.s)).1
    have hgg := List.getElem?_eq_getElem (show ix d f.verse0 x.start - 1 < (canon d f.verse0).length by omega)
    generalize (canon d f.verse0)[ix d f.verse0 x.start - 1] = g at hgg
    have hg := valid_of_get h hgg
    have eg := ix_of_get h hgg
    have g1 : pos d u ≤ pos d g := (pos_le_ix h hu' hg).mpr (by omega)
    have g2 : pos d g < pos d x.start := (pos_lt_ix h hg hx1.s).mpr (by omega)
    have g3 : ∀ w, Valid d f.verse0 w → pos d g < pos d w → pos d x.start ≤ pos d w := by
      intro w hw hlt
      rw [pos_lt_ix h hg hw] at hlt
      rw [pos_le_ix h hx1.s hw]; omega
    have hrg : InRange d r g := ⟨by omega, by omega⟩
    have hcg : ¬ InRange d c g := fun hh => by simp only [InRange] at hh; omega
    obtain ⟨z, hz, hzg⟩ := hcut g ((mem_canon h).mpr hg) hrg hcg
      (fun w hw h1 h2 => ⟨g3 w ((mem_canon h).mp hw) h1, by omega⟩) (fun w hw h1 h2 => by omega)
    have hzx : z ≠ x := by rintro rfl; simp only [InRange] at hzg; omega
    have hz1 := (rangeOK_iff h).mp (hB z hz).ok
    have hzg' := hzg
    simp only [InRange] at hzg'
    rcases hpair z hz x hx hzx with hp | hp
    · rcases hp.2 with ⟨w, hw, h1, h2⟩ | ⟨hmb, hne⟩
      · have := g3 w ((mem_canon h).mp hw) (by omega); omega
      · apply hne
        rw [← allowed_book h hr hmb hg hrg |>.trans (allowed_book h hr hmb hc1.s ⟨by omega, by omega⟩).symm |>.trans
          (allowed_book h (hB x hx) hmb hc1.s hcs)]
        rw [allowed_book h (hB z hz) hmb hz1.t ⟨hz1.le, Nat.le_refl _⟩, allowed_book h (hB z hz) hmb hg hzg]
    · have := hp.1
      have := hx1.le
      omega
  · have hside : pos d x.stop < pos d u := by omega
    have hlt := (pos_lt_ix h hx1.t hu').mp hside
    have hlen := (List.getElem?_eq_some_iff.mp (ix_get h hu')).1
    have hgg := List.getElem?_eq_getElem (show ix d f.verse0 x.stop + 1 < (canon d f.verse0).length by omega)
    generalize (canon d f.verse0)[ix d f.verse0 x.stop + 1] = g at hgg
    have hg := valid_of_get h hgg
    have eg := ix_of_get h hgg
    have g1 : pos d g ≤ pos d u := (pos_le_ix h hg hu').mpr (by omega)
    have g2 : pos d x.stop < pos d g := (pos_lt_ix h hx1.t hg).mpr (by omega)
    have g3 : ∀ w, Valid d f.verse0 w → pos d w < pos d g → pos d w ≤ pos d x.stop := by
      intro w hw hlt
      rw [pos_lt_ix h hw hg] at hlt
      rw [pos_le_ix h hw hx1.t]; omega
    have hrg : InRange d r g := ⟨by omega, by omega⟩
    have hcg : ¬ InRange d c g := fun hh => by simp only [InRange] at hh; omega
    obtain ⟨z, hz, hzg⟩ := hcut g ((mem_canon h).mpr hg) hrg hcg
      (fun w hw h1 h2 => by omega) (fun w hw h1 h2 => ⟨by omega, g3 w ((mem_canon h).mp hw) h1⟩)
    have hzx : z ≠ x := by rintro rfl; simp only [InRange] at hzg; omega
    have hz1 := (rangeOK_iff h).mp (hB z hz).ok
    have hzg' := hzg
    simp only [InRange] at hzg'
    rcases hpair z hz x hx hzx with hp | hp
    · have := hp.1
      have := hx1.le
      omega
    · rcases hp.2 with ⟨w, hw, h1, h2⟩ | ⟨hmb, hne⟩
      · have := g3 w ((mem_canon h).mp hw) (by omega); omega
      · apply hne
        rw [allowed_book h (hB x hx) hmb hx1.t ⟨hx1.le, Nat.le_refl _⟩, ← allowed_book h (hB x hx) hmb hc1.s hcs,
          allowed_book h hr hmb hc1.s ⟨by omega, by omega⟩, ← allowed_book h hr hmb hg hrg, allowed_book h (hB z hz) hmb hg hzg]

end

/-- If a list in canonical form covers a range, then the range that holds its first verse holds all of it. -/
theorem covered_by_one {d : BibleData} (h : d.WF) {f : BibleFlag} {B : List BibleRange} (hB : ∀ r ∈ B, Allowed d f r) (hc : Canonical d f B)
    {r x : BibleRange} (hr : Allowed d f r) (hcov : ∀ w ∈ canon d f.verse0, InRange d r w → Covered d B w) (hx : x ∈ B)
    (hxs : InRange d x r.start) : ∀ w ∈ canon d f.verse0, InRange d r w → InRange d x w := by
  intro u hu hru
  have hu' := (mem_canon h).mp hu
  apply Classical.byContradiction
  intro hxu
  have hr1 := (rangeOK_iff h).mp hr.ok
  have hx1 := (rangeOK_iff h).mp (hB x hx).ok
  have hle := hr1.le
  have hru' := hru
  have hxs' := hxs
  simp only [InRange] at hru hxu hxs
  have hside : pos d x.stop < pos d u := by omega
  have hlt := (pos_lt_ix h hx1.t hu').mp hside
  have hlen := (List.getElem?_eq_some_iff.mp (ix_get h hu')).1
  have hgg := List.getElem?_eq_getElem (show ix d f.verse0 x.stop + 1 < (canon d f.verse0).length by omega)
  generalize (canon d f.verse0)[ix d f.verse0 x.stop + 1] = g at hgg
  have hg := valid_of_get h hgg
  have eg := ix_of_get h hgg
  have g1 : pos d g ≤ pos d u := (pos_le_ix h hg hu').mpr (by omega)
  have g2 : pos d x.stop < pos d g := (pos_lt_ix h hx1.t hg).mpr (by omega)
  have g3 : ∀ w, Valid d f.verse0 w → pos d w < pos d g → pos d w ≤ pos d x.stop := by
    intro w hw hlt
    rw [pos_lt_ix h hw hg] at hlt
    rw [pos_le_ix h hw hx1.t]; omega
  have hrg : InRange d r g := ⟨by omega, by omega⟩
  obtain ⟨z, hz, hzg⟩ := hcov g ((mem_canon h).mpr hg) hrg
  have hzx : z ≠ x := by rintro rfl; simp only [InRange] at hzg; omega
  have hzg' := hzg
  simp only [InRange] at hzg'
  rcases canonical_pair hB hc z hz x hx hzx with hp | hp
  · have := hp.1
    have := hx1.le
    omega
  · rcases hp.2 with ⟨w, hw, h1, h2⟩ | ⟨hmb, hne⟩
    · have := g3 w ((mem_canon h).mp hw) (by omega); omega
    · apply hne
      rw [allowed_book h (hB x hx) hmb hx1.t ⟨hx1.le, Nat.le_refl _⟩, ← allowed_book h (hB x hx) hmb hr1.s hxs',
        ← allowed_book h hr hmb hg hrg, allowed_book h (hB z hz) hmb hg hzg]

/-- A range inside a range of a canonical list is kept. -/
theorem diffInner_within {e : Env} (h : e.data.WF) {flags : Option BibleFlag} {bs : List BibleRange}
    (hb : ∀ x ∈ bs, Allowed e.data (inForce e flags) x) {p : BibleRange} (hp : Allowed e.data (inForce e flags) p)
    (hx : ∀ x ∈ bs, ApartOrIn e.data (inForce e flags).verse0 p x) (rest : List BibleRange) :
    RangeList.diffInner e flags p rest bs = .ok (p, rest) := by
  induction bs with
  | nil => rfl
  | cons b bs ih =>
    have ih' := ih (fun x hh => hb x (List.mem_cons_of_mem _ hh)) (fun x hh => hx x (List.mem_cons_of_mem _ hh))
    have hp1 := (rangeOK_iff h).mp hp.ok
    have hb1 := (rangeOK_iff h).mp (hb b List.mem_cons_self).ok
    have hdis := isDisjoint_iff h hp1 hb1
    have hcon := contains_iff h hb1 hp1
    have := hp1.le
    have := hb1.le
    rw [RangeList.diffInner]
    rcases hx b List.mem_cons_self with h1 | h1
    · have hd : p.disjointT e.data b = true := by
        rw [hdis]
        have k1 := h1 p.start ((mem_canon h).mpr hp1.s) ⟨Nat.le_refl _, hp1.le⟩
        have k2 : ¬ InRange e.data p b.start := fun hh => h1 b.start ((mem_canon h).mpr hb1.s) hh ⟨Nat.le_refl _, hb1.le⟩
        simp only [InRange] at k1 k2
        omega
      have : p.difference e b flags = .ok [p] := by rw [BibleRange.difference_eq (hp1.alike hb1), if_pos hd]; rfl
      rw [this]
      exact ih'
    · have hc : b.containsT e.data p = true := by
        rw [hcon]
        exact ⟨(h1 p.start ((mem_canon h).mpr hp1.s) ⟨Nat.le_refl _, hp1.le⟩).1, (h1 p.stop ((mem_canon h).mpr hp1.t) ⟨hp1.le, Nat.le_refl _⟩).2⟩
      have hd : ¬ p.disjointT e.data b = true := by rw [hdis]; rw [hcon] at hc; omega
      have : p.difference e b flags = .ok [] := by rw [BibleRange.difference_eq (hp1.alike hb1), if_neg hd, if_pos hc]; rfl
      rw [this]
      exact ih'

/-- Ranges inside a range of a canonical list stay in the list. -/
theorem diffOuter_within {e : Env} (h : e.data.WF) {flags : Option BibleFlag} {B : List BibleRange}
    (hB : ∀ x ∈ B, Allowed e.data (inForce e flags) x) {l : List BibleRange} (hl : ∀ r ∈ l, Allowed e.data (inForce e flags) r)
    {fuel : Nat} {R : List BibleRange} (hok : RangeList.diffOuter e flags B fuel l = .ok R) {p : BibleRange} (hp : p ∈ l)
    (hx : ∀ x ∈ B, ApartOrIn e.data (inForce e flags).verse0 p x) : p ∈ R := by
  induction fuel generalizing l R with
  | zero =>
    cases l with
    | nil => cases hp
    | cons a l => cases hok
  | succ fuel ih =>
    cases l with
    | nil => cases hp
    | cons a l =>
      rw [RangeList.diffOuter] at hok
      cases hi : RangeList.diffInner e flags a l B with
      | error x => rw [hi] at hok; cases hok
      | ok co =>
        obtain ⟨cur, out⟩ := co
        rw [hi] at hok
        simp only [bind, Except.bind] at hok
        obtain ⟨extra, g1, g2, g3, g4⟩ := diffInner_bounds h (fun x hx => ⟨hB x hx, hx⟩) (hl a List.mem_cons_self) hi
        cases ho : RangeList.diffOuter e flags B fuel out with
        | error x => rw [ho] at hok; cases hok
        | ok D =>
          rw [ho] at hok
          cases hok
          rcases List.mem_cons.mp hp with rfl | hp
          · rw [diffInner_within h hB (hl p List.mem_cons_self) hx] at hi
            cases hi
            exact List.mem_cons_self
          · subst g1
            refine List.mem_cons_of_mem _ (ih (l := extra ++ l) (fun r hr => ?_) ho (List.mem_append_right _ hp))
            rcases List.mem_append.mp hr with hr | hr
            · exact (g2 r (List.mem_cons_of_mem _ hr)).1
            · exact hl r (List.mem_cons_of_mem _ hr)

/-- C29 for a second list in canonical form: unless the difference raises, its verses are those of the first list that are
not in the second, and all verses of those ranges of the first list that lie wholly inside a range of the second. -/
theorem C29_exact_if_ok (e : Env) (h : e.data.WF) (flags : Option BibleFlag)
    (hm : (inForce e flags).multibook = true → e.flags.multibook = true)
    (hg : (inForce e flags).verse0 = true → e.flags.verse0 = true) (a b : RangeList)
    (ha : ∀ r ∈ a.flatten, Allowed e.data (inForce e flags) r) (hb : ∀ r ∈ b.flatten, Allowed e.data (inForce e flags) r)
    (cb : Canonical e.data (inForce e flags) b.flatten) (fuel : Nat) (m : RangeList)
    (hok : RangeList.difference e a b flags fuel = .ok m) :
    ∀ v ∈ canon e.data (inForce e flags).verse0, Covered e.data m.flatten v ↔ ∃ r ∈ a.flatten, InRange e.data r v ∧
      (¬ Covered e.data b.flatten v ∨
        ∃ x ∈ b.flatten, ∀ w ∈ canon e.data (inForce e flags).verse0, InRange e.data r w → InRange e.data x w) := by
  intro v hv
  obtain ⟨k1, k2, k3⟩ := ((C29_bounds e h flags hm hg a b ha hb).2 fuel m hok).2.2 v hv
  constructor
  · intro hc
    obtain ⟨r, hr, hrv⟩ := k2 hc
    by_cases hbv : Covered e.data b.flatten v
    · obtain ⟨r, hr, x, hx, c, c1, c2, c3, c4⟩ := k3 hc hbv
      exact ⟨r, hr, ⟨Nat.le_trans c3.1 c2.1, Nat.le_trans c2.2 c3.2.1⟩, .inr ⟨x, hx, stretch_canonical h hb cb (ha r hr) c1 hx c3 c4⟩⟩
    · exact ⟨r, hr, hrv, .inl hbv⟩
  · rintro ⟨r, hr, hrv, hn | ⟨x, hx, hw⟩⟩
    · exact k1 ⟨r, hr, hrv⟩ hn
    · -- the range stays as it is
      have hpart : ∀ y ∈ b.flatten, ApartOrIn e.data (inForce e flags).verse0 r y := by
        intro y hy
        by_cases hyx : y = x
        · subst hyx; exact .inr hw
        · left
          intro u hu hru hyu
          have hxu := hw u hu hru
          simp only [InRange] at hyu hxu
          rcases canonical_pair hb cb y hy x hx hyx with hp | hp
          · have := hp.1; omega
          · have := hp.1; omega
      unfold RangeList.difference RangeList.differenceUpdate at hok
      rw [RangeList.copy_flatten] at hok
      cases hR : RangeList.diffOuter e flags b.flatten fuel a.flatten with
      | error x => rw [hR] at hok; cases hok
      | ok R =>
        rw [hR] at hok
        simp only [bind, Except.bind] at hok
        have hmem := diffOuter_within h hb ha hR hr hpart
        obtain ⟨q1, _⟩ := diffOuter_bounds h hb ha hR
        obtain ⟨m', g1, g2, g3, g4, g5, _⟩ := RangeList.merge_spec h (flags := none) (l := RangeList.ofRanges R) (by
          rw [RangeList.ofRanges_flatten]
          exact fun r hr => aok_mono hm hg ((allowed_iff h).mp (q1 r hr).1))
        rw [hok] at g1; cases g1
        have hv' : Valid e.data (e.eff none).verse0 v := by
          rw [mem_canon h] at hv
          show Valid e.data e.flags.verse0 v
          cases hf : (inForce e flags).verse0 with
          | true => rw [hg hf]; exact hv.mono
          | false =>
            rw [hf] at hv
            cases e.flags.verse0 with
            | true => exact hv.mono
            | false => exact hv
        rw [g5 v hv', RangeList.ofRanges_flatten]
        exact ⟨r, hmem, hrv⟩

/-- C30 for all lists: the symmetric difference ends, and unless it raises its verses are those of exactly one list, and all
verses of those ranges of the merged union that lie wholly in both lists. -/
theorem C30_exact_if_ok (e : Env) (h : e.data.WF) (flags : Option BibleFlag)
    (hm : (inForce e flags).multibook = true → e.flags.multibook = true)
    (hg : (inForce e flags).verse0 = true → e.flags.verse0 = true) (a b : RangeList)
    (ha : ∀ r ∈ a.flatten, Allowed e.data (inForce e flags) r) (hb : ∀ r ∈ b.flatten, Allowed e.data (inForce e flags) r) :
    (∃ n, ∀ fuel ≥ n, RangeList.symDifference e a b flags fuel ≠ .error .diverges) ∧
    ∃ u, RangeList.union e a b flags = .ok u ∧ ∀ fuel m, RangeList.symDifference e a b flags fuel = .ok m →
      (∀ r ∈ m.flatten, Allowed e.data e.flags r) ∧ Canonical e.data e.flags m.flatten ∧
      ∀ v ∈ canon e.data (inForce e flags).verse0, Covered e.data m.flatten v ↔
        ((Covered e.data a.flatten v ∧ ¬ Covered e.data b.flatten v) ∨ (Covered e.data b.flatten v ∧ ¬ Covered e.data a.flatten v)) ∨
        ∃ r ∈ u.flatten, InRange e.data r v ∧ ∀ w ∈ canon e.data (inForce e flags).verse0, InRange e.data r w →
          Covered e.data a.flatten w ∧ Covered e.data b.flatten w := by
  obtain ⟨u, u1, u2, u3, u4, _⟩ := C27_union e h flags a b ha hb
  obtain ⟨i, i1, i2, i3, i4, _⟩ := C28_intersection e h flags a b ha hb
  obtain ⟨⟨n, hn⟩, hbd⟩ := C29_bounds e h flags hm hg u i u2 i2
  have hsd : ∀ fuel, RangeList.symDifference e a b flags fuel = RangeList.difference e u i flags fuel := by
    intro fuel
    unfold RangeList.symDifference
    rw [u1, i1]; rfl
  refine ⟨⟨n, fun fuel hf => by rw [hsd]; exact hn fuel hf⟩, u, u1, fun fuel m hok => ?_⟩
  rw [hsd] at hok
  obtain ⟨k1, k2, _⟩ := hbd fuel m hok
  refine ⟨k1, k2, fun v hv => ?_⟩
  rw [C29_exact_if_ok e h flags hm hg u i u2 i2 i4 fuel m hok v hv]
  have hin : ∀ r ∈ u.flatten, (∃ x ∈ i.flatten, ∀ w ∈ canon e.data (inForce e flags).verse0, InRange e.data r w → InRange e.data x w) ↔
      ∀ w ∈ canon e.data (inForce e flags).verse0, InRange e.data r w → Covered e.data a.flatten w ∧ Covered e.data b.flatten w := by
    intro r hr
    constructor
    · rintro ⟨x, hx, hh⟩ w hw hrw
      exact (i3 w hw).mp ⟨x, hx, hh w hw hrw⟩
    · intro hh
      have hr1 := (rangeOK_iff h).mp (u2 r hr).ok
      obtain ⟨x, hx, hxs⟩ := (i3 r.start ((mem_canon h).mpr hr1.s)).mpr (hh _ ((mem_canon h).mpr hr1.s) ⟨Nat.le_refl _, hr1.le⟩)
      refine ⟨x, hx, fun w hw hrw => ?_⟩
      exact covered_by_one h i2 i4 (u2 r hr) (fun w hw hrw => (i3 w hw).mpr (hh w hw hrw)) hx hxs w hw hrw
  constructor
  · rintro ⟨r, hr, hrv, hn | hx⟩
    · left
      have huv := (u3 v hv).mp ⟨r, hr, hrv⟩
      rw [i3 v hv] at hn
      by_cases q1 : Covered e.data a.flatten v
      · exact .inl ⟨q1, fun q2 => hn ⟨q1, q2⟩⟩
      · exact .inr ⟨huv.resolve_left q1, q1⟩
    · exact .inr ⟨r, hr, hrv, (hin r hr).mp hx⟩
  · rintro (hh | ⟨r, hr, hrv, hw⟩)
    · obtain ⟨r, hr, hrv⟩ := (u3 v hv).mpr (by rcases hh with hh | hh; exact .inl hh.1; exact .inr hh.1)
      refine ⟨r, hr, hrv, .inl ?_⟩
      rw [i3 v hv]
      rcases hh with hh | hh
      · exact fun k => hh.2 k.2
      · exact fun k => hh.2 k.1
    · exact ⟨r, hr, hrv, .inr ((hin r hr).mpr hw)⟩

/-- The list removed is not in canonical form (its second range lies in its first), but its ranges are allowed. -/
example : (∀ r ∈ ([[exIn]] : RangeList).flatten, Allowed dflt.data (inForce dflt none) r) ∧
    (∀ r ∈ ([[exMatt, exIn]] : RangeList).flatten, Allowed dflt.data (inForce dflt none) r) ∧
    ¬ Canonical dflt.data (inForce dflt none) ([[exMatt, exIn]] : RangeList).flatten ∧
    RangeList.difference dflt [[exIn]] [[exMatt, exIn]] none 10 = .ok [[exIn]] ∧
    RangeList.symDifference dflt [[exMatt]] [[exMatt, exIn]] none 10 = .ok [[exMatt]] := by
  refine ⟨fun r hr => ?_, fun r hr => ?_, fun hc => ?_, by decide +kernel, by decide +kernel⟩
  · rw [show r = exIn from by simpa using hr]; exact exIn_allowed _
  · rcases (show r = exMatt ∨ r = exIn from by simpa using hr) with rfl | rfl
    · exact exMatt_allowed _
    · exact exIn_allowed _
  · have h1 : pos defaultData exMatt.stop < pos defaultData exIn.start := hc.1.1
    have h2 : pos defaultData exIn.start ≤ pos defaultData exMatt.stop :=
      (defaultData_wf.le_pos (v0 := true) (w0 := true) (by decide +kernel) (by decide +kernel)).mp (by decide +kernel)
    omega

end Bibleref

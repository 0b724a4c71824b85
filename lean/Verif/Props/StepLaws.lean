import Verif.Lemmas.RoundTrip
import Verif.Props.Ranges
import Verif.Props.Steps

/-!
# Steps and distances add up (C82)
-/

namespace Bibleref

open Spec

section
variable {d : BibleData} (h : d.WF)
include h

theorem ix_between {v0} {x y : BibleVerse} (hx : Valid d v0 x) (hy : Valid d v0 y) (hle : pos d x ≤ pos d y) :
    ix d v0 y = ix d v0 x + between d true x.book (fun u => u.verse ≠ 0 || v0) x y := by
  have gx := ix_get h hx
  have gy := ix_get h hy
  rw [show canon d v0 = walk d true v0 x.book from rfl, ← walk_filter h true v0 hx.listed, walk_get h hx.listed] at gx gy
  rw [← gx.2, ← gy.2]
  exact between_add h hx.listed hx.mono ((h.le_pos hx hy).mpr hle)

omit h in
theorem between_mono {mb b p q} {v w : BibleVerse} (hpq : ∀ u, p u = true → q u = true) :
    between d mb b p v w ≤ between d mb b q v w := by
  unfold between
  apply List.countP_mono_left
  intro u _ hu
  simp only [Bool.and_eq_true] at hu ⊢
  exact ⟨hpq u hu.1, hu.2⟩

/-- Between two verses there are at least as many verses when verse 0s count. -/
theorem ix_gap_le {x y : BibleVerse} (hx : Valid d false x) (hy : Valid d false y) (hle : pos d x ≤ pos d y) :
    ix d false y - ix d false x ≤ ix d true y - ix d true x := by
  have h1 := ix_between h hx hy hle
  have h2 := ix_between h hx.mono hy.mono hle
  have := between_mono (d := d) (mb := true) (b := x.book) (v := x) (w := y) (p := fun u => u.verse ≠ 0 || false)
    (q := fun u => u.verse ≠ 0 || true) (by simp)
  omega

/-- Equally many exactly if there is no verse 0 between. -/
theorem ix_gap_eq {x y : BibleVerse} (hx : Valid d false x) (hy : Valid d false y) (hle : pos d x ≤ pos d y) :
    ix d false y - ix d false x = ix d true y - ix d true x ↔
      ∀ u, Valid d true u → u.verse = 0 → x.le d u = true → u.le d y = true → False := by
  have h1 := ix_between h hx hy hle
  have h2 := ix_between h hx.mono hy.mono hle
  have h3 := between_congr (d := d) (mb := true) (b := x.book) (v := x) (w := y) (p := fun u => u.verse ≠ 0 || false)
    (q := fun u => u.verse ≠ 0 || true) (by simp)
  rw [show (ix d false y - ix d false x = ix d true y - ix d true x) ↔
    between d true x.book (fun u => u.verse ≠ 0 || false) x y = between d true x.book (fun u => u.verse ≠ 0 || true) x y by omega, h3]
  constructor
  · intro hh u hu h0 hl hr
    have hne : u ≠ y := by
      rintro rfl
      have := hy.2.2.1
      simp [firstNum, h0] at this
    have := hh u ((mem_walk_iff h hx.listed).mpr ⟨.inl rfl, hu⟩) hl (by
      rw [h.le_iff_lt_or_eq] at hr
      exact hr.resolve_right hne)
    simp [h0] at this
  · intro hh u hu hl hr
    have hu := ((mem_walk_iff h hx.listed).mp hu).2
    by_cases h0 : u.verse = 0
    · exact (hh u hu h0 hl (by rw [h.le_iff_lt_or_eq]; exact .inl hr)).elim
    · simp [h0]

end

section
variable {e : Env} (h : e.data.WF) {flags : Option BibleFlag} {v : BibleVerse}
include h

theorem add_ix (hv : Valid e.data ((e.eff flags).verse0 || v.verse == 0) v) (n : Nat) (w : BibleVerse) :
    v.add e n flags = .ok (some w) ↔ Valid e.data ((e.eff flags).verse0 || v.verse == 0) w ∧
      ix e.data ((e.eff flags).verse0 || v.verse == 0) w = ix e.data ((e.eff flags).verse0 || v.verse == 0) v + n ∧
      ((e.eff flags).multibook = true ∨ w.book = v.book) := by
  generalize hv0 : ((e.eff flags).verse0 || v.verse == 0) = v0 at hv ⊢
  rw [add_canon h (v0 := v0) hv0.symm (ix_get h hv) n, Except.ok.injEq, Option.filter_eq_some_iff]
  constructor
  · rintro ⟨h1, h2⟩
    exact ⟨valid_of_get h h1, ix_of_get h h1, by simpa using h2⟩
  · rintro ⟨h1, h2, h3⟩
    refine ⟨?_, by simpa using h3⟩
    rw [← h2]
    exact ix_get h h1

theorem add_ok (hv : Valid e.data ((e.eff flags).verse0 || v.verse == 0) v) (n : Nat) : ∃ o, v.add e n flags = .ok o :=
  ⟨_, add_canon h rfl (ix_get h hv) n⟩

end

/-- C82 for steps: going `m` verses on and then `n` verses leads to where going `m + n` verses leads, unless the first step starts at a
verse 0 that the flags do not allow and there is a verse 0 on the way of the second. -/
theorem C82_steps (e : Env) (h : e.data.WF) (flags : Option BibleFlag) (v w x : BibleVerse) (m n : Nat) (hv : v ∈ canon e.data true)
    (hw : v.add e m flags = .ok (some w)) (hx : v.add e (m + n : Nat) flags = .ok (some x)) :
    w.add e n flags = .ok (some x) ↔ (v.verse = 0 → (inForce e flags).verse0 = false → w.verse ≠ 0 →
      ∀ u ∈ canon e.data true, u.verse = 0 → w.lessEq e.data u = .ok true → u.lessEq e.data x = .ok true → False) := by
  rw [mem_canon h] at hv
  rw [← eff_eq]
  have hvv : Valid e.data ((e.eff flags).verse0 || v.verse == 0) v := hv.honour
  rw [add_ix h hvv] at hw hx
  obtain ⟨w1, w2, w3⟩ := hw
  obtain ⟨x1, x2, x3⟩ := hx
  have hww : Valid e.data ((e.eff flags).verse0 || w.verse == 0) w := w1.mono.honour
  have hle : pos e.data w ≤ pos e.data x := (pos_le_ix h w1 x1).mpr (by omega)
  rw [add_ix h hww]
  by_cases hc : v.verse = 0 ∧ (e.eff flags).verse0 = false ∧ w.verse ≠ 0
  · obtain ⟨c1, c2, c3⟩ := hc
    have c4 : (w.verse == 0) = false := beq_eq_false_iff_ne.mpr c3
    simp only [c1, c2, c4, beq_self_eq_true, Bool.or_true, Bool.or_false] at *
    simp only [ne_eq, c3, not_false_eq_true, forall_const]
    have hg := ix_gap_eq h hww (y := x)
    have hm : ∀ u ∈ canon e.data true, u.verse = 0 →
        ((w.lessEq e.data u = .ok true → u.lessEq e.data x = .ok true → False) ↔ (w.le e.data u = true → u.le e.data x = true → False)) := by
      intro u hu _
      rw [mem_canon h] at hu
      rw [lessEq_listed hww hu, lessEq_listed hu x1]
    constructor
    · rintro ⟨h1, h2, h3⟩ u hu h0
      have := (hg h1 hle).mp (by omega)
      rw [hm u hu h0]
      rw [mem_canon h] at hu
      exact this u hu h0
    · intro hh
      have hx0 : x.verse ≠ 0 := by
        intro hx0
        refine hh x ((mem_canon h).mpr x1) hx0 ?_ ?_
        · rw [lessEq_listed hww x1, h.le_pos hww x1]; exact hle
        · rw [lessEq_listed x1 x1, h.le_pos x1 x1]; exact Nat.le_refl _
      have hxv := x1.of_ne_zero hx0 (v0 := false)
      have := (hg hxv hle).mpr fun u hu h0 => (hm u ((mem_canon h).mpr hu) h0).mp (hh u ((mem_canon h).mpr hu) h0)
      have k1 := (pos_le_ix h hww hxv).mp hle
      refine ⟨hxv, by omega, w3.elim .inl fun q => x3.imp id fun q' => by rw [q, q']⟩
  · have he : ((e.eff flags).verse0 || w.verse == 0) = ((e.eff flags).verse0 || v.verse == 0) := by
      by_cases q0 : w.verse = 0
      · have := w1.2.2.1
        rw [q0] at this
        by_cases q1 : ((e.eff flags).verse0 || v.verse == 0) = true
        · simp [q0, q1]
        · simp only [Bool.not_eq_true] at q1
          rw [q1] at this
          simp [firstNum] at this
      · cases hq : (e.eff flags).verse0
        · have : v.verse ≠ 0 := fun q => hc ⟨q, hq, q0⟩
          rw [beq_eq_false_iff_ne.mpr q0, beq_eq_false_iff_ne.mpr this]
        · simp
    rw [he] at hww ⊢
    constructor
    · intro _ c1 c2 c3
      exact (hc ⟨c1, c2, c3⟩).elim
    · intro _
      exact ⟨x1, by omega, w3.elim .inl fun q => x3.imp id fun q' => by rw [q, q']⟩

/-- C82 at the end: if there are no `m` verses left there are no `m + n`, and if there are `m` but no `m + n` then there are no `n` from
the `m`-th on. -/
theorem C82_steps_end (e : Env) (h : e.data.WF) (flags : Option BibleFlag) (v : BibleVerse) (m n : Nat) (hv : v ∈ canon e.data true) :
    (v.add e m flags = .ok none → v.add e (m + n : Nat) flags = .ok none) ∧
    (∀ w, v.add e m flags = .ok (some w) → v.add e (m + n : Nat) flags = .ok none → w.add e n flags = .ok none) := by
  rw [mem_canon h] at hv
  have hvv : Valid e.data ((e.eff flags).verse0 || v.verse == 0) v := hv.honour
  have key : ∀ (k k' : Nat) x, k ≤ k' → v.add e k' flags = .ok (some x) → v.add e k flags ≠ .ok none := by
    intro k k' x hk hx hn
    rw [add_ix h hvv] at hx
    obtain ⟨x1, x2, x3⟩ := hx
    have hlt := (List.getElem?_eq_some_iff.mp (ix_get h x1)).1
    generalize hv0 : ((e.eff flags).verse0 || v.verse == 0) = v0 at *
    rw [add_canon h hv0.symm (ix_get h hvv) k, Except.ok.injEq] at hn
    obtain ⟨y, hy⟩ : ∃ y, (canon e.data v0)[ix e.data v0 v + k]? = some y := ⟨_, List.getElem?_eq_getElem (by omega)⟩
    rw [hy, Option.filter_some] at hn
    split at hn
    · cases hn
    · rename_i hf
      apply hf
      rcases x3 with x3 | x3
      · simp [x3]
      · have hyv := valid_of_get h hy
        have hyi := ix_of_get h hy
        have := book_between h (ix_get h hvv) hy (ix_get h x1) (by omega) (by omega) x3.symm
        simp [this]
  constructor
  · intro h1
    obtain ⟨o, ho⟩ := add_ok h hvv (m + n)
    cases o with
    | none => exact ho
    | some x => exact (key m (m + n) x (by omega) ho h1).elim
  · intro w hw hn
    have hw' := hw
    rw [add_ix h hvv] at hw
    obtain ⟨w1, w2, w3⟩ := hw
    have hww : Valid e.data ((e.eff flags).verse0 || w.verse == 0) w := w1.mono.honour
    obtain ⟨o, ho⟩ := add_ok h hww n
    cases o with
    | none => exact ho
    | some y =>
      rw [add_ix h hww] at ho
      obtain ⟨y1, y2, y3⟩ := ho
      have hmono : ((e.eff flags).verse0 || w.verse == 0) = true → ((e.eff flags).verse0 || v.verse == 0) = true := by
        intro hc
        refine Bool.not_eq_false _ ▸ fun hn => ?_
        have q0 : w.verse = 0 := by
          simp only [Bool.or_eq_false_iff] at hn
          simpa [hn.1] using hc
        have := w1.2.2.1
        rw [q0, hn] at this
        simp [firstNum] at this
      have hsub : ∀ z : BibleVerse, Valid e.data ((e.eff flags).verse0 || w.verse == 0) z →
          Valid e.data ((e.eff flags).verse0 || v.verse == 0) z := by
        intro z hz
        cases hc : ((e.eff flags).verse0 || w.verse == 0)
        · rw [hc] at hz
          cases hd : ((e.eff flags).verse0 || v.verse == 0)
          · exact hz
          · exact hz.mono
        · rw [hmono hc]; exact hz.mono
      have hle : pos e.data w ≤ pos e.data y := (pos_le_ix h hww y1).mpr (by omega)
      have hge : n ≤ ix e.data ((e.eff flags).verse0 || v.verse == 0) y - ix e.data ((e.eff flags).verse0 || v.verse == 0) w := by
        have y1' := hsub y y1
        clear hsub
        generalize ((e.eff flags).verse0 || v.verse == 0) = v0 at *
        generalize ((e.eff flags).verse0 || w.verse == 0) = w0 at *
        cases w0 <;> cases v0
        · omega
        · have := ix_gap_le h hww y1 hle
          omega
        · exact absurd (hmono rfl) (by simp)
        · omega
      have hle' := (pos_le_ix h w1 (hsub y y1)).mp hle
      have hyk : v.add e (ix e.data ((e.eff flags).verse0 || v.verse == 0) y - ix e.data ((e.eff flags).verse0 || v.verse == 0) v : Nat) flags =
          .ok (some y) := by
        rw [add_ix h hvv]
        exact ⟨hsub y y1, by omega, y3.elim .inl fun q => w3.imp id fun q' => by rw [q, q']⟩
      exact (key (m + n) _ y (by omega) hyk hn).elim

/-- C82: what `+` has led to is as far away as the number added. -/
theorem C82_step_distance (e : Env) (h : e.data.WF) (v w : BibleVerse) (n : Nat) (hv : v ∈ canon e.data true)
    (hw : v.add e n none = .ok (some w)) : w.subVerse e v = .ok n := by
  rw [mem_canon h] at hv
  have hvv : Valid e.data ((e.eff none).verse0 || v.verse == 0) v := hv.honour
  rw [add_ix h hvv] at hw
  obtain ⟨w1, w2, w3⟩ := hw
  have hz : ((e.eff none).verse0 || v.verse == 0) = (e.flags.verse0 || w.verse == 0 || v.verse == 0) := by
    rw [eff_eq] at *
    change (e.flags.verse0 || v.verse == 0) = _
    by_cases q0 : w.verse = 0
    · have := w1.2.2.1
      rw [q0] at this
      change firstNum e.data (e.flags.verse0 || v.verse == 0) w.book w.chap ≤ 0 at this
      cases hq : (e.flags.verse0 || v.verse == 0)
      · rw [hq] at this; simp [firstNum] at this
      · simp [q0]
    · simp [beq_eq_false_iff_ne.mpr q0]
  rw [C07_verse_difference e h w v _ hz _ _ (ix_get h w1) (ix_get h hvv), if_pos (by rw [eff_eq] at w3; exact w3), w2]
  congr 1
  omega

/-- C82: the same for `-`, if it does not start at a verse 0 that the global flags do not allow. -/
theorem C82_step_back_distance_partial (e : Env) (h : e.data.WF) (v w : BibleVerse) (n : Nat) (hv : v ∈ canon e.data true)
    (h0 : v.verse = 0 → e.flags.verse0 = true) (hw : v.sub e n none = .ok (some w)) : v.subVerse e w = .ok n := by
  have hz : ∀ u : BibleVerse, u ∈ canon e.data (e.flags.verse0 || v.verse == 0) → u.verse = 0 → e.flags.verse0 = true := by
    intro u hu q
    rw [mem_canon h] at hu
    have h1 := hu.2.2.1
    rw [q] at h1
    cases hg : e.flags.verse0
    · have : v.verse ≠ 0 := fun q => by simp [h0 q] at hg
      rw [hg, beq_eq_false_iff_ne.mpr this] at h1
      simp [firstNum] at h1
    · rfl
  obtain ⟨hwc, hw0⟩ : w ∈ canon e.data true ∧ (w.verse = 0 → e.flags.verse0 = true) := by
    rcases (C08_outcomes e h none v hv n _ rfl).2 with hh | ⟨u, hu, hh⟩ | hh
    · rw [hw] at hh; cases hh
    · rw [hw] at hh; cases hh
      exact ⟨(mem_canon h).mpr ((mem_canon h).mp hu).mono, hz w hu⟩
    · rw [hw] at hh; cases hh
  refine C82_step_distance e h w v n hwc ((C06_add_undoes_subtract e h none w v n hwc hv hw).mpr ⟨?_, fun q => .inl (h0 q)⟩)
  intro u _ _ _ _
  change (if u.book = v.book ∧ u.chap = v.chap then e.flags.verse0 || v.verse == 0 else e.flags.verse0) = (e.flags.verse0 || w.verse == 0)
  cases hg : e.flags.verse0
  · have q1 : v.verse ≠ 0 := fun q => by simp [h0 q] at hg
    have q2 : w.verse ≠ 0 := fun q => by simp [hw0 q] at hg
    simp [beq_eq_false_iff_ne.mpr q1, beq_eq_false_iff_ne.mpr q2]
  · simp

/-- C82 for steps back, when the call allows verse 0s exactly if the global flags do, and the first step does not start at a verse 0
that these do not allow. -/
theorem C82_steps_back_partial (e : Env) (h : e.data.WF) (flags : Option BibleFlag) (v w : BibleVerse) (m n : Nat)
    (hv : v ∈ canon e.data true) (hf : (inForce e flags).verse0 = e.flags.verse0) (h0 : v.verse = 0 → e.flags.verse0 = true)
    (hw : v.sub e m flags = .ok (some w)) : w.sub e n flags = v.sub e (m + n : Nat) flags := by
  rw [mem_canon h] at hv
  rw [← eff_eq] at hf
  have hz : ∀ u : BibleVerse, (u.verse = 0 → e.flags.verse0 = true) → ((e.eff flags).verse0 || u.verse == 0) = e.flags.verse0 := by
    intro u hu
    rw [hf]
    by_cases q : u.verse = 0
    · simp [hu q]
    · simp [beq_eq_false_iff_ne.mpr q]
  have hvv : Valid e.data e.flags.verse0 v := by rw [← hz v h0]; exact hv.honour
  obtain ⟨i, hi⟩ : ∃ i : Nat, (walk e.data (e.eff flags).multibook e.flags.verse0 v.book)[i]? = some v :=
    List.mem_iff_getElem?.mp ((mem_walk_iff h hvv.listed).mpr ⟨.inr rfl, hvv⟩)
  have hs := fun k => sub_walk h (v := v) (flags := flags) (i := i) (hz v h0).symm (by rw [hz v h0]; exact hi) k
  rw [hs] at hw ⊢
  rw [hz v h0] at hw ⊢
  split at hw
  · rename_i hle
    have hwi := Except.ok.inj hw
    obtain ⟨hwb, hwv⟩ := (mem_walk_iff h hvv.listed).mp (List.mem_of_getElem? hwi)
    have hw0 : w.verse = 0 → e.flags.verse0 = true := by
      intro q
      have h1 := hwv.2.2.1
      rw [q] at h1
      cases hg : e.flags.verse0
      · rw [hg] at h1; simp [firstNum] at h1
      · rfl
    have hwk : walk e.data (e.eff flags).multibook e.flags.verse0 w.book = walk e.data (e.eff flags).multibook e.flags.verse0 v.book := by
      rcases hwb with q | q
      · rw [q]; rfl
      · rw [q]
    rw [sub_walk h (v := w) (flags := flags) (i := i - m) (hz w hw0).symm (by rw [hz w hw0, hwk]; exact hwi) n, hz w hw0, hwk]
    by_cases hn : n ≤ i - m
    · rw [if_pos hn, if_pos (by omega), show i - m - n = i - (m + n) by omega]
    · rw [if_neg hn, if_neg (by omega)]
  · cases hw

/-- C82 for distances: around three verses they add up to 0, if the global flags allow verse 0s, none of the three is a verse 0, or at
least two are. -/
theorem C82_distances_partial (e : Env) (h : e.data.WF) (a b c : BibleVerse) (ha : a ∈ canon e.data true) (hb : b ∈ canon e.data true)
    (hc : c ∈ canon e.data true) (hm : e.flags.multibook = true ∨ a.book = b.book ∧ b.book = c.book)
    (h0 : e.flags.verse0 = true ∨ (a.verse = 0 → b.verse = 0 ∨ c.verse = 0) ∧ (b.verse = 0 → a.verse = 0 ∨ c.verse = 0) ∧
      (c.verse = 0 → a.verse = 0 ∨ b.verse = 0)) :
    ∃ l m n : Int, a.subVerse e b = .ok l ∧ b.subVerse e c = .ok m ∧ c.subVerse e a = .ok n ∧ l + m + n = 0 := by
  rw [mem_canon h] at ha hb hc
  generalize hz : (e.flags.verse0 || a.verse == 0 || b.verse == 0) = z
  have hz1 : z = (e.flags.verse0 || b.verse == 0 || c.verse == 0) := by
    rw [← hz, Bool.eq_iff_iff]
    simp only [Bool.or_eq_true, beq_iff_eq]
    grind
  have hz2 : z = (e.flags.verse0 || c.verse == 0 || a.verse == 0) := by
    rw [← hz, Bool.eq_iff_iff]
    simp only [Bool.or_eq_true, beq_iff_eq]
    grind
  have va : Valid e.data z a := by
    by_cases q : a.verse = 0
    · rw [← hz, q]; simpa using ha
    · exact ha.of_ne_zero q
  have vb : Valid e.data z b := by rw [← hz]; exact hb.honour
  have vc : Valid e.data z c := by rw [hz1]; exact hc.honour
  have ga := ix_get h va
  have gb := ix_get h vb
  have gc := ix_get h vc
  refine ⟨_, _, _, (C07_verse_difference e h a b z hz.symm _ _ ga gb).trans (if_pos (hm.imp id (·.1))),
    (C07_verse_difference e h b c z hz1 _ _ gb gc).trans (if_pos (hm.imp id (·.2))),
    (C07_verse_difference e h c a z hz2 _ _ gc ga).trans (if_pos (hm.imp id fun q => (q.1.trans q.2).symm)), by omega⟩

/-- C82 for distances when exactly one of three verses is a verse 0, which the global flags do not allow: they add up to 0 exactly if
there is no verse 0 between the other two. -/
theorem C82_distances_one (e : Env) (h : e.data.WF) (a b c : BibleVerse) (ha : a ∈ canon e.data true) (hb : b ∈ canon e.data true)
    (hc : c ∈ canon e.data true) (hm : e.flags.multibook = true ∨ a.book = b.book ∧ b.book = c.book) (hg : e.flags.verse0 = false)
    (ha0 : a.verse ≠ 0) (hb0 : b.verse = 0) (hc0 : c.verse ≠ 0) (hac : a.lessEq e.data c = .ok true) :
    ∃ l m n : Int, a.subVerse e b = .ok l ∧ b.subVerse e c = .ok m ∧ c.subVerse e a = .ok n ∧
      (l + m + n = 0 ↔ ∀ u ∈ canon e.data true, u.verse = 0 → a.lessEq e.data u = .ok true → u.lessEq e.data c = .ok true → False) := by
  rw [mem_canon h] at ha hb hc
  have va := ha.of_ne_zero ha0 (v0 := false)
  have vc := hc.of_ne_zero hc0 (v0 := false)
  have hle : pos e.data a ≤ pos e.data c := by rw [lessEq_listed ha hc, h.le_pos ha hc] at hac; exact hac
  refine ⟨_, _, _, (C07_verse_difference e h a b true (by simp [hb0]) _ _ (ix_get h ha) (ix_get h hb)).trans (if_pos (hm.imp id (·.1))),
    (C07_verse_difference e h b c true (by simp [hb0]) _ _ (ix_get h hb) (ix_get h hc)).trans (if_pos (hm.imp id (·.2))),
    (C07_verse_difference e h c a false (by simp [hg, ha0, hc0]) _ _ (ix_get h vc) (ix_get h va)).trans
      (if_pos (hm.imp id fun q => (q.1.trans q.2).symm)), ?_⟩
  have k1 := (pos_le_ix h va vc).mp hle
  have k2 := (pos_le_ix h ha hc).mp hle
  rw [show ((ix e.data true a : Int) - ix e.data true b + (ix e.data true b - ix e.data true c) + (ix e.data false c - ix e.data false a) = 0) ↔
    ix e.data false c - ix e.data false a = ix e.data true c - ix e.data true a by omega, ix_gap_eq h va vc hle]
  simp only [mem_canon h]
  exact forall_congr' fun u => forall_congr' fun hu => by rw [lessEq_listed ha hu, lessEq_listed hu hc]

/-- C82 fails when a verse 0 that the global flags do not allow is involved: from Psalm 3:0 8 verses and 1 verse on is Psalm 4:1, but 9
verses on is 4:0; from Psalm 5:1 to 4:0 are 10 verses, from there to 3:1 are 8, but from 5:1 to 3:1 are 16. 9 verses before Psalm 5:0 is
computed as 3:8, which is 10 verses away. -/
theorem C82_counterexample :
    BibleVerse.add dflt ⟨.Psa, 3, 0⟩ 8 none = .ok (some ⟨.Psa, 3, 8⟩) ∧
    BibleVerse.add dflt ⟨.Psa, 3, 8⟩ 1 none = .ok (some ⟨.Psa, 4, 1⟩) ∧
    BibleVerse.add dflt ⟨.Psa, 3, 0⟩ 9 none = .ok (some ⟨.Psa, 4, 0⟩) ∧
    BibleVerse.subVerse dflt ⟨.Psa, 5, 1⟩ ⟨.Psa, 4, 0⟩ = .ok 10 ∧
    BibleVerse.subVerse dflt ⟨.Psa, 4, 0⟩ ⟨.Psa, 3, 1⟩ = .ok 8 ∧
    BibleVerse.subVerse dflt ⟨.Psa, 5, 1⟩ ⟨.Psa, 3, 1⟩ = .ok 16 ∧
    BibleVerse.sub dflt ⟨.Psa, 5, 0⟩ 9 none = .ok (some ⟨.Psa, 3, 8⟩) ∧
    BibleVerse.subVerse dflt ⟨.Psa, 5, 0⟩ ⟨.Psa, 3, 8⟩ = .ok 10 := by decide +kernel

example : (⟨.Psa, 3, 8⟩ : BibleVerse) ∈ canon dflt.data true ∧ BibleVerse.add dflt ⟨.Psa, 3, 8⟩ 9 none = .ok (some ⟨.Psa, 5, 1⟩) ∧
    BibleVerse.add dflt ⟨.Psa, 3, 8⟩ (9 + 12 : Nat) none = .ok (some ⟨.Psa, 6, 1⟩) ∧
    BibleVerse.add dflt ⟨.Psa, 5, 1⟩ 12 none = .ok (some ⟨.Psa, 6, 1⟩) ∧
    BibleVerse.sub dflt ⟨.Psa, 6, 1⟩ 12 none = .ok (some ⟨.Psa, 5, 1⟩) ∧
    BibleVerse.subVerse dflt ⟨.Psa, 6, 1⟩ ⟨.Psa, 5, 1⟩ = .ok 12 :=
  ⟨(mem_canon defaultData_wf).mpr (by decide +kernel), by decide +kernel⟩
example : BibleVerse.add dflt ⟨.Rev, 22, 20⟩ 1 none = .ok (some ⟨.Rev, 22, 21⟩) ∧
    BibleVerse.add dflt ⟨.Rev, 22, 20⟩ (1 + 1 : Nat) none = .ok none ∧ BibleVerse.add dflt ⟨.Rev, 22, 21⟩ 1 none = .ok none := by decide +kernel
example : (⟨.Psa, 3, 1⟩ : BibleVerse).lessEq dflt.data ⟨.Psa, 3, 8⟩ = .ok true ∧ dflt.flags.verse0 = false ∧
    (⟨.Psa, 4, 0⟩ : BibleVerse) ∈ canon dflt.data true :=
  ⟨by decide +kernel, rfl, (mem_canon defaultData_wf).mpr (by decide +kernel)⟩

end Bibleref

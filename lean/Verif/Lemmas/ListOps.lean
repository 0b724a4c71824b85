import Verif.Lemmas.Merge

/-! Intersection, difference, containment and enclosing ranges of lists. -/

namespace Bibleref
open Spec

theorem mapM_ok {α β} {f : α → Except PyErr β} {g : α → β} {l : List α} (hf : ∀ a ∈ l, f a = .ok (g a)) :
    l.mapM f = .ok (l.map g) := by
  induction l with
  | nil => rfl
  | cons a l ih =>
    rw [List.mapM_cons, hf a List.mem_cons_self, ih (fun b hb => hf b (List.mem_cons_of_mem _ hb))]
    rfl

namespace RangeList

section
variable {d : BibleData}

/-- Overlapping ranges. -/
def Meets (d : BibleData) (a b : BibleRange) : Prop := pos d a.start ≤ pos d b.stop ∧ pos d b.start ≤ pos d a.stop
instance (d a b) : Decidable (Meets d a b) := by unfold Meets; infer_instance

/-- The pairwise intersections. -/
def meets (d : BibleData) (l m : List BibleRange) : List BibleRange :=
  l.flatMap fun a => m.flatMap fun b => if Meets d a b then [meet d a b] else []

theorem mem_meets {l m : List BibleRange} {x : BibleRange} :
    x ∈ meets d l m ↔ ∃ a ∈ l, ∃ b ∈ m, Meets d a b ∧ x = meet d a b := by
  simp only [meets, List.mem_flatMap]
  constructor
  · rintro ⟨a, ha, b, hb, hx⟩
    by_cases hm : Meets d a b
    · rw [if_pos hm, List.mem_singleton] at hx; exact ⟨a, ha, b, hb, hm, hx⟩
    · rw [if_neg hm] at hx; cases hx
  · rintro ⟨a, ha, b, hb, hm, hx⟩
    exact ⟨a, ha, b, hb, by rw [if_pos hm, List.mem_singleton]; exact hx⟩

end

variable {e : Env} (h : e.data.WF) {flags : Option BibleFlag}
include h

theorem intersectionItems_spec {l m : List BibleRange} (hl : ∀ r ∈ l, AOK e.data (e.eff flags) r)
    (hm : ∀ r ∈ m, AOK e.data (e.eff flags) r) : intersectionItems e flags l m = .ok (meets e.data l m) := by
  unfold intersectionItems
  rw [mapM_ok (g := fun a => m.flatMap fun b => if Meets e.data a b then [meet e.data a b] else [])]
  · simp only [bind, Except.bind, pure, Except.pure, meets, List.flatMap]
  · intro a ha
    rw [mapM_ok (g := fun b => if Meets e.data a b then [meet e.data a b] else [])]
    · simp only [bind, Except.bind, pure, Except.pure]
      congr 1
      rw [List.flatMap_map]
      congr 1
      funext b
      by_cases hb : Meets e.data a b <;> simp [hb]
    · intro b hb
      exact intersection_spec h (hl a ha) (hm b hb)

theorem meets_aok {l m : List BibleRange} (hl : ∀ r ∈ l, AOK e.data (e.eff flags) r)
    (hm : ∀ r ∈ m, AOK e.data (e.eff flags) r) : ∀ r ∈ meets e.data l m, AOK e.data (e.eff flags) r := by
  intro r hr
  obtain ⟨a, ha, b, hb, ho, rfl⟩ := mem_meets.mp hr
  exact meet_aok h (hl a ha) (hm b hb) ho

theorem covered_meets {l m : List BibleRange} (hl : ∀ r ∈ l, AOK e.data (e.eff flags) r)
    (hm : ∀ r ∈ m, AOK e.data (e.eff flags) r) (v : BibleVerse) :
    Covered e.data (meets e.data l m) v ↔ Covered e.data l v ∧ Covered e.data m v := by
  constructor
  · rintro ⟨r, hr, hv⟩
    obtain ⟨a, ha, b, hb, ho, rfl⟩ := mem_meets.mp hr
    obtain ⟨h1, h2, _⟩ := meet_pos h (hl a ha).toROK (hm b hb).toROK
    rw [InRange, h1, h2] at hv
    exact ⟨⟨a, ha, by rw [InRange]; omega⟩, ⟨b, hb, by rw [InRange]; omega⟩⟩
  · rintro ⟨⟨a, ha, h1⟩, b, hb, h2⟩
    obtain ⟨g1, g2, _⟩ := meet_pos h (hl a ha).toROK (hm b hb).toROK
    rw [InRange] at h1 h2
    refine ⟨meet e.data a b, mem_meets.mpr ⟨a, ha, b, hb, ⟨by omega, by omega⟩, rfl⟩, ?_⟩
    rw [InRange, g1, g2]; omega

/-- Number of verses of a range. -/
def size (d : BibleData) (v0 : Bool) (r : BibleRange) : Nat := ix d v0 r.stop + 1 - ix d v0 r.start
def total (d : BibleData) (v0 : Bool) (l : List BibleRange) : Nat := (l.map (size d v0)).sum

/-- `a` lies within `b`. -/
def Within (d : BibleData) (a b : BibleRange) : Prop := pos d b.start ≤ pos d a.start ∧ pos d a.stop ≤ pos d b.stop

/-- The pieces left by the difference of two ranges. -/
theorem difference_pieces {a b : BibleRange}
    (ha : AOK e.data (e.eff flags) a) (hb : AOK e.data (e.eff flags) b)
    (hmb : (e.eff flags).multibook = true → e.flags.multibook = true)
    (hroom : Meets e.data a b → ¬ Within e.data a b → HasRoom e.data (e.eff flags) b.start b.stop) :
    ∃ l, a.difference e b flags = .ok l ∧ (∀ x ∈ l, AOK e.data (e.eff flags) x) ∧
      (∀ v, Valid e.data (e.eff flags).verse0 v → (Covered e.data l v ↔ InRange e.data a v ∧ ¬ InRange e.data b v)) ∧
      total e.data (e.eff flags).verse0 l ≤ size e.data (e.eff flags).verse0 a ∧
      (Within e.data a b ↔ l = []) ∧ (∀ x ∈ l, x = a ∨ Adj e.data (e.eff flags) x b ∨ Adj e.data (e.eff flags) b x) ∧
      (∀ x ∈ l, Within e.data x a) ∧ (∀ x ∈ l, ¬ Meets e.data x b) := by
  have hla := ha.le
  have hlb := hb.le
  have hdis := isDisjoint_iff h ha.toROK hb.toROK
  have hcon := contains_iff h hb.toROK ha.toROK
  have hal := ha.toROK.alike hb.toROK
  by_cases hd : a.disjointT e.data b = true
  · refine ⟨[a], by rw [BibleRange.difference_eq hal, if_pos hd]; rfl, ?_, ?_, by simp [total], ?_, ?_, ?_, ?_⟩
    · intro x hx; rw [List.mem_singleton] at hx; subst hx; exact ha
    · intro v _
      rw [hdis] at hd
      simp only [Covered, List.mem_singleton, exists_eq_left, InRange]
      omega
    · rw [hdis] at hd
      constructor
      · intro hh; rw [Within] at hh; omega
      · intro hh; cases hh
    · intro x hx; rw [List.mem_singleton] at hx; exact .inl hx
    · intro x hx; rw [List.mem_singleton] at hx; subst hx; exact ⟨Nat.le_refl _, Nat.le_refl _⟩
    · intro x hx; rw [List.mem_singleton] at hx; subst hx
      rw [hdis] at hd; rw [Meets]; omega
  by_cases hc : b.containsT e.data a = true
  · refine ⟨[], by rw [BibleRange.difference_eq hal, if_neg hd, if_pos hc]; rfl, by simp, ?_, by simp [total], ?_, by simp, by simp, by simp⟩
    · intro v _
      rw [hcon] at hc
      simp only [Covered, List.not_mem_nil, false_and, exists_false, InRange, false_iff]
      omega
    · rw [hcon] at hc
      exact ⟨fun _ => rfl, fun _ => hc⟩
  rw [hdis] at hd
  rw [hcon] at hc
  have ho : Meets e.data a b := by rw [Meets]; omega
  obtain ⟨p, q, h1, h2, h3, h4⟩ := hasRoom_neighbours h hb.s hb.t (hroom ho hc)
  have hpv := valid_of_get h h1
  have hqv := valid_of_get h h3
  have ep := ix_of_get h h1
  have eq := ix_of_get h h3
  have hps : ∀ v, Valid e.data (e.eff flags).verse0 v → (pos e.data v ≤ pos e.data p ↔ pos e.data v < pos e.data b.start) := by
    intro v hv
    rw [pos_le_ix h hv hpv, pos_lt_ix h hv hb.s]; omega
  have hqs : ∀ v, Valid e.data (e.eff flags).verse0 v → (pos e.data q ≤ pos e.data v ↔ pos e.data b.stop < pos e.data v) := by
    intro v hv
    rw [pos_le_ix h hqv hv, pos_lt_ix h hb.t hv]; omega
  have hbooks : (e.eff flags).multibook = true ∨ (a.start.book = p.book ∧ q.book = a.stop.book) := by
    rcases joins_book h ha hb (.inl ho) with hh | ⟨g1, g2, g3⟩
    · exact .inl hh
    · rcases h4 with hh | hh
      · exact .inl hh
      · exact .inr ⟨by rw [hh.1, g1], by rw [hh.2, g2]⟩
  have lowOK : pos e.data a.start < pos e.data b.start → AOK e.data (e.eff flags) ⟨a.start, p⟩ := fun hh =>
    ⟨⟨ha.s, hpv, (hps _ ha.s).mpr hh⟩, hbooks.imp id (·.1)⟩
  have uppOK : pos e.data b.stop < pos e.data a.stop → AOK e.data (e.eff flags) ⟨q, a.stop⟩ := fun hh =>
    ⟨⟨hqv, ha.t, (hqs _ ha.t).mpr hh⟩, hbooks.imp id (·.2)⟩
  have lowAdj : Adj e.data (e.eff flags) ⟨a.start, p⟩ b := ⟨by simp only; omega, h4.imp id (·.1)⟩
  have uppAdj : Adj e.data (e.eff flags) b ⟨q, a.stop⟩ := ⟨by simp only; omega, h4.imp id (fun hh => hh.2.symm)⟩
  have hpb : pos e.data p < pos e.data b.start := (hps p hpv).mp (Nat.le_refl _)
  have hqb : pos e.data b.stop < pos e.data q := (hqs q hqv).mp (Nat.le_refl _)
  have lowW : pos e.data b.start ≤ pos e.data a.stop → Within e.data ⟨a.start, p⟩ a := fun hh => ⟨Nat.le_refl _, by simp only; omega⟩
  have uppW : pos e.data a.start ≤ pos e.data b.stop → Within e.data ⟨q, a.stop⟩ a := fun hh => ⟨by simp only; omega, Nat.le_refl _⟩
  have lowM : ¬ Meets e.data ⟨a.start, p⟩ b := by rw [Meets]; simp only; omega
  have uppM : ¬ Meets e.data ⟨q, a.stop⟩ b := by rw [Meets]; simp only; omega
  have hisb := (pos_le_ix h hb.s hb.t).mp hlb
  have hisa := (pos_le_ix h ha.s ha.t).mp hla
  have hix1 := (pos_le_ix h ha.s hb.t).mp ho.1
  have hix2 := (pos_le_ix h hb.s ha.t).mp ho.2
  refine ⟨_, difference_spec h ha hb ho hc h1 h2 h3 hmb h4, ?_⟩
  have hW : ∀ l : List BibleRange, l ≠ [] → (Within e.data a b ↔ l = []) := fun l hl =>
    ⟨fun hh => absurd hh hc, fun hh => absurd hh hl⟩
  by_cases g1 : pos e.data a.start < pos e.data b.start ∧ pos e.data b.stop < pos e.data a.stop
  · rw [if_pos g1]
    refine ⟨?_, ?_, ?_, hW _ (by simp), ?_, ?_, ?_⟩
    · intro x hx
      rcases List.mem_cons.mp hx with rfl | hx
      · exact lowOK g1.1
      · rw [List.mem_singleton] at hx; subst hx; exact uppOK g1.2
    · intro v hv
      have := hps v hv; have := hqs v hv
      simp only [Covered, List.mem_cons, List.not_mem_nil, or_false, exists_eq_or_imp, exists_eq_left, InRange]
      omega
    · simp only [total, size, List.map_cons, List.map_nil, List.sum_cons, List.sum_nil]
      have := (pos_lt_ix h ha.s hb.s).mp g1.1
      have := (pos_lt_ix h hb.t ha.t).mp g1.2
      omega
    · intro x hx
      rcases List.mem_cons.mp hx with rfl | hx
      · exact .inr (.inl lowAdj)
      · rw [List.mem_singleton] at hx; subst hx; exact .inr (.inr uppAdj)
    · intro x hx
      rcases List.mem_cons.mp hx with rfl | hx
      · exact lowW ho.2
      · rw [List.mem_singleton] at hx; subst hx; exact uppW ho.1
    · intro x hx
      rcases List.mem_cons.mp hx with rfl | hx
      · exact lowM
      · rw [List.mem_singleton] at hx; subst hx; exact uppM
  · rw [if_neg g1]
    by_cases g2 : pos e.data a.start < pos e.data b.start
    · rw [if_pos g2]
      refine ⟨?_, ?_, ?_, hW _ (by simp), ?_, ?_, ?_⟩
      · intro x hx; rw [List.mem_singleton] at hx; subst hx; exact lowOK g2
      · intro v hv
        have := hps v hv
        simp only [Covered, List.mem_singleton, exists_eq_left, InRange]
        omega
      · simp only [total, size, List.map_cons, List.map_nil, List.sum_cons, List.sum_nil]
        have := (pos_lt_ix h ha.s hb.s).mp g2
        omega
      · intro x hx; rw [List.mem_singleton] at hx; subst hx; exact .inr (.inl lowAdj)
      · intro x hx; rw [List.mem_singleton] at hx; subst hx; exact lowW ho.2
      · intro x hx; rw [List.mem_singleton] at hx; subst hx; exact lowM
    · rw [if_neg g2]
      refine ⟨?_, ?_, ?_, hW _ (by simp), ?_, ?_, ?_⟩
      · intro x hx; rw [List.mem_singleton] at hx; subst hx; exact uppOK (by omega)
      · intro v hv
        have := hqs v hv
        simp only [Covered, List.mem_singleton, exists_eq_left, InRange]
        omega
      · simp only [total, size, List.map_cons, List.map_nil, List.sum_cons, List.sum_nil]
        omega
      · intro x hx; rw [List.mem_singleton] at hx; subst hx; exact .inr (.inr uppAdj)
      · intro x hx; rw [List.mem_singleton] at hx; subst hx; exact uppW ho.1
      · intro x hx; rw [List.mem_singleton] at hx; subst hx; exact uppM

/-- In a list with gaps any two different members are apart. -/
theorem gap_pair {f : BibleFlag} {l : List BibleRange} (hok : ∀ r ∈ l, AOK e.data f r) (hg : Neighbours (Gap e.data f) l)
    {x y : BibleRange} (hx : x ∈ l) (hy : y ∈ l) : x = y ∨ Gap e.data f x y ∨ Gap e.data f y x := by
  have key : ∀ {p : BibleRange} {l : List BibleRange}, (∀ r ∈ p :: l, AOK e.data f r) → Neighbours (Gap e.data f) (p :: l) →
      ∀ q ∈ l, Gap e.data f p q := by
    intro p l hok hg q hq
    refine ⟨gap_later hg (fun r hr => (hok r hr).toROK) q hq, ?_⟩
    intro hadj
    cases l with
    | nil => cases hq
    | cons q0 l =>
      rcases List.mem_cons.mp hq with rfl | hq'
      · exact hg.1.2 hadj
      · have h1 := gap_later hg.2 (fun r hr => (hok r (List.mem_cons_of_mem _ hr)).toROK) q hq'
        have hp := hok p (by simp)
        have hq0 := hok q0 (by simp)
        have hqq := hok q (List.mem_cons_of_mem _ hq)
        have h2 := (pos_lt_ix h hq0.t hqq.s).mp h1
        have h3 := (pos_le_ix h hq0.s hq0.t).mp hq0.le
        have h4 := (pos_lt_ix h hp.t hq0.s).mp hg.1.1
        have := hadj.1
        omega
  induction l with
  | nil => cases hx
  | cons p l ih =>
    have hok' : ∀ r ∈ l, AOK e.data f r := fun r hr => hok r (List.mem_cons_of_mem _ hr)
    rcases List.mem_cons.mp hx with rfl | hx' <;> rcases List.mem_cons.mp hy with rfl | hy'
    · exact .inl rfl
    · exact .inr (.inl (key hok hg y hy'))
    · exact .inr (.inr (key hok hg x hx'))
    · exact ih hok' (neighbours_cons.mp hg).2 hx' hy'

/-- What remains of a list of ranges when the ranges of `B` are removed by `difference_update`: a range within a range of
`B` stays. -/
def Remains (d : BibleData) (B : List BibleRange) (p : BibleRange) (v : BibleVerse) : Prop :=
  InRange d p v ∧ (¬ Covered d B v ∨ ∃ b ∈ B, Within d p b)

variable {B : List BibleRange} (hB : ∀ b ∈ B, AOK e.data (e.eff flags) b) (hgap : Neighbours (Gap e.data (e.eff flags)) B)
  (hmb : (e.eff flags).multibook = true → e.flags.multibook = true)
include hB hgap hmb

/-- The inner loop on a range within a range of `B`. -/
theorem diffInner_within {p : BibleRange} (hp : AOK e.data (e.eff flags) p) {b : BibleRange} (hb : b ∈ B) (hw : Within e.data p b)
    (rest : List BibleRange) {bs : List BibleRange} (hbs : ∀ x ∈ bs, x ∈ B) : diffInner e flags p rest bs = .ok (p, rest) := by
  induction bs with
  | nil => rfl
  | cons x bs ih =>
    have hx := hbs x List.mem_cons_self
    have ih' := ih (fun y hy => hbs y (List.mem_cons_of_mem _ hy))
    have hple := hp.le
    have hroom : Meets e.data p x → ¬ Within e.data p x → HasRoom e.data (e.eff flags) x.start x.stop := by
      intro h1 h2
      rcases gap_pair h hB hgap hb hx with rfl | hg | hg
      · exact absurd hw h2
      · have := hg.1; have := hw.2; have := h1.2; omega
      · have := hg.1; have := hw.1; have := h1.1; omega
    by_cases hwx : Within e.data p x
    · obtain ⟨l, h1, _, _, _, h2, _⟩ := difference_pieces h hp (hB x hx) hmb hroom
      rw [h2.mp hwx] at h1
      simp only [diffInner, h1, bind, Except.bind]
      exact ih'
    · have hal := hp.toROK.alike (hB x hx).toROK
      have hd : p.disjointT e.data x = true := by
        rw [isDisjoint_iff h hp.toROK (hB x hx).toROK]
        rcases gap_pair h hB hgap hb hx with rfl | hg | hg
        · exact absurd hw hwx
        · have := hg.1; have := hw.2; omega
        · have := hg.1; have := hw.1; omega
      have h1 : p.difference e x flags = .ok [p] := by rw [BibleRange.difference_eq hal, if_pos hd]; rfl
      simp only [diffInner, h1, bind, Except.bind]
      exact ih'

/-- The inner loop on a range that is within no range of `B`. -/
theorem diffInner_spec {bs : List BibleRange} (hbs : ∀ x ∈ bs, x ∈ B) {p : BibleRange} (hp : AOK e.data (e.eff flags) p)
    (hroom : ∀ x ∈ B, Meets e.data p x → HasRoom e.data (e.eff flags) x.start x.stop)
    (hnw : ∀ b ∈ B, ¬ Within e.data p b) (rest : List BibleRange) :
    ∃ cur extra, diffInner e flags p rest bs = .ok (cur, extra ++ rest) ∧
      (∀ x ∈ cur :: extra, AOK e.data (e.eff flags) x ∧ Within e.data x p ∧ ∀ b ∈ B, ¬ Within e.data x b) ∧
      (∀ b ∈ bs, ¬ Meets e.data cur b) ∧
      (∀ v, Valid e.data (e.eff flags).verse0 v → ¬ Covered e.data B v → (Covered e.data (cur :: extra) v ↔ InRange e.data p v)) ∧
      total e.data (e.eff flags).verse0 (cur :: extra) ≤ size e.data (e.eff flags).verse0 p := by
  induction bs generalizing p rest with
  | nil =>
    exact ⟨p, [], rfl, by simpa using ⟨hp, ⟨Nat.le_refl _, Nat.le_refl _⟩, hnw⟩, by simp, fun v _ _ => by simp [Covered],
      by simp [total]⟩
  | cons b bs ih =>
    have hb := hbs b List.mem_cons_self
    obtain ⟨l, h1, h2, h3, h4, h5, h6, h7, h8⟩ := difference_pieces h hp (hB b hb) hmb (fun hh _ => hroom b hb hh)
    have hl : l ≠ [] := fun hh => hnw b hb (h5.mpr hh)
    -- the pieces are within no range of `B`
    have hnw' : ∀ x ∈ l, ∀ c ∈ B, ¬ Within e.data x c := by
      intro x hx c hc hw
      rcases h6 x hx with rfl | hadj | hadj
      · exact hnw c hc hw
      · have hxle := (h2 x hx).le
        have hbok := hB b hb
        have hcok := hB c hc
        have hxok := h2 x hx
        have hlt := adj_pos h hxok.toROK hbok.toROK hadj
        rcases gap_pair h hB hgap hb hc with rfl | hg | hg
        · have := hw.1; omega
        · have := hg.1; have := hw.1; have := hbok.le; omega
        · have := hw.2
          rw [Adj] at hadj
          have e1 := (pos_le_ix h hxok.t hcok.t).mp hw.2
          have e2 := (pos_lt_ix h hcok.t hbok.s).mp hg.1
          have : c.stop = x.stop := (ix_inj h hcok.t hxok.t).mp (by omega)
          apply hg.2
          rw [Adj, this]
          exact hadj
      · have hxle := (h2 x hx).le
        have hbok := hB b hb
        have hcok := hB c hc
        have hxok := h2 x hx
        have hlt := adj_pos h hbok.toROK hxok.toROK hadj
        rcases gap_pair h hB hgap hb hc with rfl | hg | hg
        · have := hw.2; omega
        · have := hw.1
          rw [Adj] at hadj
          have e1 := (pos_le_ix h hcok.s hxok.s).mp hw.1
          have e2 := (pos_lt_ix h hbok.t hcok.s).mp hg.1
          have : c.start = x.start := (ix_inj h hcok.s hxok.s).mp (by omega)
          apply hg.2
          rw [Adj, this]
          exact hadj
        · have := hg.1; have := hw.2; have := hbok.le; omega
    cases l with
    | nil => exact absurd rfl hl
    | cons y ys =>
      have hy := h2 y List.mem_cons_self
      have hwy := h7 y List.mem_cons_self
      have hroom' : ∀ x ∈ B, Meets e.data y x → HasRoom e.data (e.eff flags) x.start x.stop := by
        intro x hx hm
        apply hroom x hx
        have := hm.1; have := hm.2; have := hwy.1; have := hwy.2
        exact ⟨by omega, by omega⟩
      obtain ⟨cur, extra, g1, g2, g3, g4, g5⟩ := ih (fun z hz => hbs z (List.mem_cons_of_mem _ hz)) hy hroom'
        (hnw' y List.mem_cons_self) (ys ++ rest)
      refine ⟨cur, extra ++ ys, ?_, ?_, ?_, ?_, ?_⟩
      · simp only [diffInner, h1, bind, Except.bind]
        rw [g1, List.append_assoc]
      · intro x hx
        rw [← List.cons_append, List.mem_append] at hx
        rcases hx with hx | hx
        · obtain ⟨k1, k2, k3⟩ := g2 x hx
          refine ⟨k1, ?_, k3⟩
          have := k2.1; have := k2.2; have := hwy.1; have := hwy.2
          exact ⟨by omega, by omega⟩
        · exact ⟨h2 x (List.mem_cons_of_mem _ hx), h7 x (List.mem_cons_of_mem _ hx), hnw' x (List.mem_cons_of_mem _ hx)⟩
      · intro c hc
        rcases List.mem_cons.mp hc with rfl | hc
        · intro hm
          obtain ⟨k1, k2, k3⟩ := g2 cur List.mem_cons_self
          apply h8 y List.mem_cons_self
          have := hm.1; have := hm.2; have := k2.1; have := k2.2
          exact ⟨by omega, by omega⟩
        · exact g3 c hc
      · intro v hv hnc
        have k1 := g4 v hv hnc
        have k2 := h3 v hv
        have k3 : ¬ InRange e.data b v := fun hh => hnc ⟨b, hb, hh⟩
        rw [covered_cons] at k1 k2 ⊢
        have k4 : Covered e.data (extra ++ ys) v ↔ Covered e.data extra v ∨ Covered e.data ys v := by
          simp [Covered, or_and_right, exists_or]
        rw [k4, ← or_assoc, k1, k2]
        exact ⟨fun hh => hh.1, fun hh => ⟨hh, k3⟩⟩
      · simp only [total, List.map_cons, List.map_append, List.sum_cons, List.sum_append] at *
        omega

/-- The outer loop. -/
theorem diffOuter_spec {L : List BibleRange} (hL : ∀ r ∈ L, AOK e.data (e.eff flags) r)
    (hroom : ∀ r ∈ L, ∀ x ∈ B, Meets e.data r x → ¬ Within e.data r x → HasRoom e.data (e.eff flags) x.start x.stop)
    {fuel : Nat} (hfuel : total e.data (e.eff flags).verse0 L ≤ fuel) :
    ∃ R, diffOuter e flags B fuel L = .ok R ∧ (∀ r ∈ R, AOK e.data (e.eff flags) r) ∧
      (∀ v, Valid e.data (e.eff flags).verse0 v → (Covered e.data R v ↔ ∃ p ∈ L, Remains e.data B p v)) := by
  induction fuel generalizing L with
  | zero =>
    cases L with
    | nil => exact ⟨[], rfl, by simp, fun v _ => by simp [Covered]⟩
    | cons p L =>
      have hp := hL p List.mem_cons_self
      have := (pos_le_ix h hp.s hp.t).mp hp.le
      simp only [total, List.map_cons, List.sum_cons, size] at hfuel
      omega
  | succ fuel ih =>
    cases L with
    | nil => exact ⟨[], rfl, by simp, fun v _ => by simp [Covered]⟩
    | cons p L =>
      have hp := hL p List.mem_cons_self
      have hL' : ∀ r ∈ L, AOK e.data (e.eff flags) r := fun r hr => hL r (List.mem_cons_of_mem _ hr)
      have hroomL : ∀ r ∈ L, ∀ x ∈ B, Meets e.data r x → ¬ Within e.data r x → HasRoom e.data (e.eff flags) x.start x.stop :=
        fun r hr => hroom r (List.mem_cons_of_mem _ hr)
      have hsz := (pos_le_ix h hp.s hp.t).mp hp.le
      by_cases hw : ∃ b ∈ B, Within e.data p b
      · obtain ⟨b, hb, hw⟩ := hw
        have hin := diffInner_within h hB hgap hmb hp hb hw L (bs := B) (fun _ hx => hx)
        obtain ⟨R, k1, k2, k3⟩ := ih hL' hroomL (by
          simp only [total, List.map_cons, List.sum_cons, size] at hfuel ⊢; omega)
        refine ⟨p :: R, ?_, ?_, ?_⟩
        · simp only [diffOuter, hin, k1, bind, Except.bind]; rfl
        · intro r hr
          rcases List.mem_cons.mp hr with rfl | hr
          · exact hp
          · exact k2 r hr
        · intro v hv
          rw [covered_cons, k3 v hv]
          simp only [List.mem_cons, exists_eq_or_imp]
          have : Remains e.data B p v ↔ InRange e.data p v := ⟨fun hh => hh.1, fun hh => ⟨hh, .inr ⟨b, hb, hw⟩⟩⟩
          rw [this]
      · have hnw : ∀ b ∈ B, ¬ Within e.data p b := fun b hb hh => hw ⟨b, hb, hh⟩
        obtain ⟨cur, extra, g1, g2, g3, g4, g5⟩ := diffInner_spec h hB hgap hmb (bs := B) (fun _ hx => hx) hp
          (fun x hx hm => hroom p List.mem_cons_self x hx hm (hnw x hx)) hnw L
        have hextra : ∀ r ∈ extra, AOK e.data (e.eff flags) r := fun r hr => (g2 r (List.mem_cons_of_mem _ hr)).1
        have hcur := g2 cur List.mem_cons_self
        have hcsz := (pos_le_ix h hcur.1.s hcur.1.t).mp hcur.1.le
        obtain ⟨R, k1, k2, k3⟩ := ih (L := extra ++ L) (by
            intro r hr
            rcases List.mem_append.mp hr with hr | hr
            · exact hextra r hr
            · exact hL' r hr) (by
            intro r hr x hx hm hnwx
            rcases List.mem_append.mp hr with hr | hr
            · refine hroom p List.mem_cons_self x hx ?_ (hnw x hx)
              have hwr := (g2 r (List.mem_cons_of_mem _ hr)).2.1
              have := hm.1; have := hm.2; have := hwr.1; have := hwr.2
              exact ⟨by omega, by omega⟩
            · exact hroomL r hr x hx hm hnwx) (by
            simp only [total, List.map_cons, List.sum_cons, size, List.map_append, List.sum_append] at hfuel g5 ⊢; omega)
        refine ⟨cur :: R, ?_, ?_, ?_⟩
        · simp only [diffOuter, g1, k1, bind, Except.bind]; rfl
        · intro r hr
          rcases List.mem_cons.mp hr with rfl | hr
          · exact hcur.1
          · exact k2 r hr
        · intro v hv
          rw [covered_cons, k3 v hv]
          simp only [List.mem_cons, List.mem_append, or_and_right, exists_or, exists_eq_left]
          rw [← or_assoc]
          have key : (InRange e.data cur v ∨ ∃ q ∈ extra, Remains e.data B q v) ↔ Remains e.data B p v := by
            have hrem : ∀ q ∈ cur :: extra, Remains e.data B q v ↔ InRange e.data q v ∧ ¬ Covered e.data B v := by
              intro q hq
              refine ⟨fun hh => ⟨hh.1, hh.2.resolve_right (fun ⟨b, hb, hwb⟩ => (g2 q hq).2.2 b hb hwb)⟩, fun hh => ⟨hh.1, .inl hh.2⟩⟩
            have hremp : Remains e.data B p v ↔ InRange e.data p v ∧ ¬ Covered e.data B v :=
              ⟨fun hh => ⟨hh.1, hh.2.resolve_right hw⟩, fun hh => ⟨hh.1, .inl hh.2⟩⟩
            have hcv : InRange e.data cur v → ¬ Covered e.data B v := by
              rintro hin ⟨b, hb, hbv⟩
              apply g3 b hb
              have := hin.1; have := hin.2; have := hbv.1; have := hbv.2
              exact ⟨by omega, by omega⟩
            rw [hremp]
            constructor
            · rintro (hh | ⟨q, hq, hh⟩)
              · exact ⟨(g4 v hv (hcv hh)).mp ⟨cur, List.mem_cons_self, hh⟩, hcv hh⟩
              · have := (hrem q (List.mem_cons_of_mem _ hq)).mp hh
                exact ⟨(g4 v hv this.2).mp ⟨q, List.mem_cons_of_mem _ hq, this.1⟩, this.2⟩
            · rintro ⟨h1, h2⟩
              obtain ⟨q, hq, hin⟩ := (g4 v hv h2).mpr h1
              rcases List.mem_cons.mp hq with rfl | hq'
              · exact .inl hin
              · exact .inr ⟨q, hq', (hrem q hq).mpr ⟨hin, h2⟩⟩
          rw [key]

end RangeList
end Bibleref

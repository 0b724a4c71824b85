import Verif.Props.FlagLaws
import Verif.Lemmas.Calls

/-!
# The groups of a merged list (C72)
-/

namespace Bibleref
open Spec

/-- The second range lies in the chapter in which the first one ends. -/
def Spec.StaysIn (a b : BibleRange) : Prop :=
  (b.start.book = a.stop.book ∧ b.start.chap = a.stop.chap) ∧ b.stop.book = a.stop.book ∧ b.stop.chap = a.stop.chap

instance (a b : BibleRange) : Decidable (StaysIn a b) := by unfold StaysIn; infer_instance

/-- What merging leaves between neighbours, for all flags: the first one ends before the second begins, and not just one verse before in
the same chapter. -/
def Sep (d : BibleData) (p q : BibleRange) : Prop :=
  pos d p.stop < pos d q.start ∧ q.start ≠ ⟨p.stop.book, p.stop.chap, p.stop.verse + 1⟩

section
variable {e : Env} (h : e.data.WF) {flags : Option BibleFlag}
include h

theorem add_in_chap {v : BibleVerse} (hv : Valid e.data true v) (hl : v.verse + 1 ≤ lastNum e.data v.book v.chap) :
    v.add e 1 flags = .ok (some ⟨v.book, v.chap, v.verse + 1⟩) := by
  have h0 := firstNum_nonneg e.data true v.book v.chap
  have h1 := hv.2.2.1
  have hnew : BibleVerse.new e v.book v.chap (v.verse + 1) (some (v.honourFlags (e.eff flags))) = .ok ⟨v.book, v.chap, v.verse + 1⟩ := by
    refine BibleVerse.new_ok h ⟨hv.1, hv.2.1, ?_, hl, hv.listed⟩
    have := firstNum_le_one e.data (e.eff (some (v.honourFlags (e.eff flags)))).verse0 v.book v.chap
    exact Int.le_trans this (by show 1 ≤ v.verse + 1; omega)
  unfold BibleVerse.add
  rw [h.maxVerseNum, if_pos ⟨hv.1, hv.2.1⟩]
  simp only [bind, Except.bind]
  rw [BibleVerse.addLoop, if_neg (by omega), hnew]
  rfl

theorem union_apart {a b : BibleRange} (ha : ROK e.data true a) (hb : ROK e.data true b) (hab : pos e.data a.start ≤ pos e.data b.start)
    {l : List BibleRange} (hu : a.union e b flags = .ok l) (hl : ∀ x, l ≠ [x]) : Sep e.data a b := by
  have hal := ha.le
  have hbl := hb.le
  have hlk := ha.alike hb
  rw [BibleRange.union_eq hlk] at hu
  by_cases hd : a.disjointT e.data b = true
  · have hlow : BibleRange.lowerHigher e.data a b = (a, b) := by
      unfold BibleRange.disjointT at hd
      unfold BibleRange.lowerHigher at hd ⊢
      split
      · rfl
      · rename_i hlt
        rw [if_neg hlt] at hd
        simp only [h.lt_pos hb.t ha.s] at hd
        omega
    have hlt : pos e.data a.stop < pos e.data b.start := by
      unfold BibleRange.disjointT at hd
      rw [hlow] at hd
      simpa only [h.lt_pos ha.t hb.s] using hd
    refine ⟨hlt, fun heq => ?_⟩
    have hadj : a.isAdjacent e b flags = .ok true := by
      rw [BibleRange.isAdjacent_eq hlk, hlow]
      have := hb.s.le_last
      rw [heq] at this
      simp only [add_in_chap h ha.t this, bind, Except.bind, heq, pure, Except.pure, decide_true]
    rw [if_pos hd, hadj] at hu
    simp only [bind, Except.bind, pure, Except.pure, Bool.not_true, Bool.false_eq_true, if_false] at hu
    split at hu
    · cases hu
    · cases hu; exact absurd rfl (hl _)
  · rw [if_neg hd] at hu
    simp only [bind, Except.bind, pure, Except.pure, Bool.false_eq_true, if_false] at hu
    split at hu
    · cases hu
    · cases hu; exact absurd rfl (hl _)

theorem mergeLoop_sep {cur : BibleRange} {rest l : List BibleRange} (hcur : ROK e.data true cur) (hok : ∀ r ∈ rest, ROK e.data true r)
    (hle : ∀ r ∈ rest, pos e.data cur.start ≤ pos e.data r.start)
    (hs : rest.Pairwise (fun a b => pos e.data a.start ≤ pos e.data b.start)) (hm : RangeList.mergeLoop e flags cur rest = .ok l) :
    Neighbours (Sep e.data) l ∧ ∃ p l', l = p :: l' ∧ p.start = cur.start := by
  induction rest generalizing cur l with
  | nil => cases hm; exact ⟨trivial, _, _, rfl, rfl⟩
  | cons b rest ih =>
    have hb := hok b List.mem_cons_self
    have hok' : ∀ r ∈ rest, ROK e.data true r := fun r hr => hok r (List.mem_cons_of_mem _ hr)
    obtain ⟨hs1, hs2⟩ := List.pairwise_cons.mp hs
    have hcb := hle b List.mem_cons_self
    rw [RangeList.mergeLoop] at hm
    rcases union_any h (flags := flags) hcur hb with hu | hu | ⟨x, y, hu⟩
    · rw [hu] at hm; cases hm
    · rw [hu] at hm
      simp only [bind, Except.bind] at hm
      have hh := hull_ok h hcur hb
      have hst : (hull e.data cur b).start = cur.start := by
        have := (hull_pos h hcur hb).1
        exact (h.pos_inj hh.s hcur.s).mp (by omega)
      obtain ⟨h1, p, l', h2, h3⟩ := ih hh hok' (by rw [hst]; exact fun r hr => hle r (List.mem_cons_of_mem _ hr)) hs2 hm
      exact ⟨h1, p, l', h2, h3.trans hst⟩
    · have hsep := union_apart h hcur hb hcb hu (by simp)
      rw [hu] at hm
      simp only [bind, Except.bind] at hm
      cases hl : RangeList.mergeLoop e flags b rest with
      | error x => rw [hl] at hm; cases hm
      | ok l' =>
        rw [hl] at hm
        cases hm
        obtain ⟨h1, p, l'', h2, h3⟩ := ih hb hok' hs1 hs2 hl
        refine ⟨?_, cur, l', rfl, rfl⟩
        subst h2
        refine ⟨?_, h1⟩
        unfold Sep at hsep ⊢
        rw [h3]; exact hsep

theorem mergeItems_sep {l m : List BibleRange} (hl : ∀ r ∈ l, ROK e.data true r) (hm : RangeList.mergeItems e flags l = .ok m) :
    (∀ r ∈ m, ROK e.data true r) ∧ Neighbours (Sep e.data) m := by
  constructor
  · rcases mergeItems_any h (flags := flags) hl with hx | ⟨m', hx, hok⟩
    · rw [hx] at hm; cases hm
    · rw [hx] at hm; cases hm; exact hok
  · have hok : ∀ r ∈ RangeList.sortT e.data l, ROK e.data true r := fun r hr => hl r ((RangeList.sortT_perm (d := e.data) l).mem_iff.mp hr)
    have hsort := sortT_sorted h l
    rw [RangeList.mergeItems_eq fun a ha b hb => (hl a ha).alike (hl b hb)] at hm
    generalize RangeList.sortT e.data l = s at hok hm hsort
    cases s with
    | nil => cases hm; trivial
    | cons a s =>
      obtain ⟨hs1, hs2⟩ := List.pairwise_cons.mp hsort
      have key : ∀ {x y}, ROK e.data true x → ROK e.data true y → x.le e.data y = true →
          pos e.data x.start ≤ pos e.data y.start := fun hx hy hxy => by
        rw [h.range_le hx hy] at hxy; omega
      have hr' : ∀ r ∈ s, ROK e.data true r := fun r hr => hok r (List.mem_cons_of_mem _ hr)
      exact (mergeLoop_sep h (hok a List.mem_cons_self) hr' (fun r hr => key (hok a List.mem_cons_self) (hr' r hr) (hs1 r hr))
        (hs2.imp_of_mem (fun hx hy hxy => key (hr' _ hx) (hr' _ hy) hxy)) hm).1

theorem chapCount_many {r : BibleRange} (hr : ROK e.data true r) :
    ∃ n : Nat, r.chapCount e false = .ok n ∧ (n > 1 ↔ ¬ (r.start.book = r.stop.book ∧ r.start.chap = r.stop.chap)) := by
  obtain ⟨n, h1, l, h2, h3, h4⟩ := chapCount_eq h hr rfl
  refine ⟨n, h1, ?_⟩
  generalize hv0 : (e.flags.verse0 || r.start.verse == 0 || r.stop.verse == 0) = v0 at h3
  have hr' : ROK e.data v0 r := by
    have := hr.splitFlags (e := e) none
    rwa [splitFlags_verse0, eff_eq, inForce, hv0] at this
  have hs : r.start ∈ versesOf e.data v0 r := by
    rw [versesOf, List.mem_filter, decide_eq_true_iff]
    exact ⟨(mem_canon h).mpr hr'.s, Nat.le_refl _, hr.le⟩
  have ht : r.stop ∈ versesOf e.data v0 r := by
    rw [versesOf, List.mem_filter, decide_eq_true_iff]
    exact ⟨(mem_canon h).mpr hr'.t, hr.le, Nat.le_refl _⟩
  have hsl := (h3 (r.start.book, r.start.chap)).mpr ⟨_, hs, rfl⟩
  have htl := (h3 (r.stop.book, r.stop.chap)).mpr ⟨_, ht, rfl⟩
  subst h4
  constructor
  · rintro hn ⟨hb, hc⟩
    have hall : ∀ k ∈ l, k = (r.start.book, r.start.chap) := by
      intro k hk
      obtain ⟨v, hv, rfl⟩ := (h3 k).mp hk
      rw [versesOf, List.mem_filter, decide_eq_true_iff] at hv
      have hvv := ((mem_canon h).mp hv.1).mono
      exact (blocks_chap h true).conv (v := r.start) (w := v) (u := r.stop) hr.s hvv hr.t hv.2.1 hv.2.2 (by simp [hb, hc])
    match l, h2, hall, hn with
    | a :: b :: l, h2, hall, _ =>
      have e1 := hall a List.mem_cons_self
      have e2 := hall b (List.mem_cons_of_mem _ List.mem_cons_self)
      rw [List.nodup_cons] at h2
      exact h2.1 (by rw [e1, ← e2]; exact List.mem_cons_self)
  · intro hne
    match l, hsl, htl with
    | [a], hsl, htl =>
      rw [List.mem_singleton] at hsl htl
      rw [← hsl] at htl
      simp only [Prod.mk.injEq] at htl
      exact absurd ⟨htl.1.symm, htl.2.symm⟩ hne
    | a :: b :: l, _, _ => simp

/-- What `regroup` knows after a range. -/
structure Knows (d : BibleData) (p : BibleRange) (s : RangeList.GroupState) : Prop where
  book : s.book = some p.stop.book
  chap : s.chap = none ∨ s.chap = some p.stop.chap
  inner : p.stop ≠ enChap d p.stop → s.chap = some p.stop.chap ∧ s.atVerse = true

theorem not_first {p r : BibleRange} (hp : ROK e.data true p) (hsep : Sep e.data p r) (hr : ROK e.data true r)
    (hst : r.start.book = p.stop.book ∧ r.start.chap = p.stop.chap) : 1 < r.start.verse ∧ p.stop ≠ enChap e.data p.stop := by
  obtain ⟨h1, h2⟩ := hsep
  rw [← h.lt_pos hp.t hr.s, h.lt_iff] at h1
  have hlt : p.stop.verse < r.start.verse := by
    rcases h1 with h1 | ⟨_, h1 | h1⟩
    · rw [hst.1] at h1; omega
    · omega
    · exact h1.2
  have h0 := firstNum_nonneg e.data true p.stop.book p.stop.chap
  have h3 := hp.t.2.2.1
  have hne : r.start.verse ≠ p.stop.verse + 1 := by
    intro hh
    apply h2
    rw [← hst.1, ← hst.2, ← hh]
  refine ⟨by omega, fun hh => ?_⟩
  have h4 := hr.s.le_last
  rw [hst.1, hst.2] at h4
  have h5 : p.stop.verse = lastNum e.data p.stop.book p.stop.chap := by rw [hh]; rfl
  omega

theorem regroupStart_sep {r : BibleRange} (hr : ROK e.data true r) (s : RangeList.GroupState) (head : Bool)
    (hhead : (s.book = none ∧ head = true) ∨ ∃ p, ROK e.data true p ∧ Knows e.data p s ∧ Sep e.data p r ∧ head = !decide (StaysIn p r)) :
    ∃ c v w, RangeList.regroupStart e none s r = .ok (head, c, v, w) ∧
      ((r.start = stBook e.data (e.eff none).verse0 r.start ∧ pos e.data (enBook e.data r.start) ≤ pos e.data r.stop) ∧
          c = none ∧ v = false ∧ w = false ∨
        ¬ (r.start = stBook e.data (e.eff none).verse0 r.start ∧ pos e.data (enBook e.data r.start) ≤ pos e.data r.stop) ∧
          c = some r.start.chap ∧ (v = false ∧ w = false ∧ (r.start = stChap e.data (e.eff none).verse0 r.start ∧
            pos e.data (enChap e.data r.start) ≤ pos e.data r.stop) ∨ v = true ∧ w = true)) := by
  have hg : (e.eff none).verse0 = true → e.flags.verse0 = true := fun hh => hh
  obtain ⟨n, hn, hmany⟩ := chapCount_many h hr
  unfold RangeList.regroupStart
  rw [spansStartBook_eq h (flags := none) hg hr, spansStartChap_eq h (flags := none) hg hr, hn]
  simp only [bind, Except.bind, pure, Except.pure]
  have hfirst : ∀ c, r.start = ⟨r.start.book, c, firstNum e.data (e.eff none).verse0 r.start.book c⟩ → head = true := by
    intro c hc
    rcases hhead with hh | ⟨p, hp, hk, hsep, hh⟩
    · exact hh.2
    · rw [hh, Bool.not_eq_true', decide_eq_false_iff_not]
      intro hst
      have h1 := (not_first h hp hsep hr hst.1).1
      have h2 : r.start.verse = firstNum e.data (e.eff none).verse0 r.start.book c := by rw [hc]
      have := firstNum_le_one e.data (e.eff none).verse0 r.start.book c
      omega
  by_cases hA : r.start = stBook e.data (e.eff none).verse0 r.start ∧ pos e.data (enBook e.data r.start) ≤ pos e.data r.stop
  · rw [if_pos (by simpa using hA), hfirst 1 hA.1]
    exact ⟨_, _, _, rfl, .inl ⟨hA, rfl, rfl, rfl⟩⟩
  · rw [if_neg (by simpa using hA)]
    by_cases hB : r.start = stChap e.data (e.eff none).verse0 r.start ∧ pos e.data (enChap e.data r.start) ≤ pos e.data r.stop
    · rw [if_pos (by simpa using hB), hfirst _ hB.1]
      exact ⟨_, _, _, rfl, .inr ⟨hA, rfl, .inl ⟨rfl, rfl, hB⟩⟩⟩
    · rw [if_neg (by simpa using hB)]
      by_cases hb : s.book = some r.start.book
      · rw [if_pos hb]
        rcases hhead with hh | ⟨p, hp, hk, hsep, hh⟩
        · rw [hh.1] at hb; cases hb
        · have hbk : r.start.book = p.stop.book := by
            have := hk.book
            rw [hb] at this; exact Option.some.inj this
          by_cases hc : s.atVerse = false ∨ s.chap ≠ some r.start.chap
          · rw [if_pos hc]
            refine ⟨_, _, _, congrArg (fun x => Except.ok (x, some r.start.chap, true, true)) ?_, .inr ⟨hA, rfl, .inr ⟨rfl, rfl⟩⟩⟩
            rw [hh]; symm
            rw [Bool.not_eq_true', decide_eq_false_iff_not]
            intro hst
            have h1 := hk.inner (not_first h hp hsep hr hst.1).2
            rcases hc with hc | hc
            · rw [h1.2] at hc; cases hc
            · exact hc (by rw [h1.1, hst.1.2])
          · rw [if_neg hc]
            refine ⟨_, _, _, congrArg (fun x => Except.ok (x, some r.start.chap, true, true)) ?_, .inr ⟨hA, rfl, .inr ⟨rfl, rfl⟩⟩⟩
            have hc' : s.chap = some r.start.chap := Classical.not_not.mp fun hx => hc (.inr hx)
            have hch : r.start.chap = p.stop.chap := by
              rcases hk.chap with h1 | h1 <;> rw [hc'] at h1
              · cases h1
              · exact Option.some.inj h1
            have hn1 : ((n : Int) > 1) ↔ n > 1 := by omega
            rw [hh, Bool.eq_iff_iff]
            simp only [Bool.not_eq_true', decide_eq_false_iff_not, decide_eq_true_iff]
            rw [hn1, hmany]
            unfold StaysIn
            rw [hbk, hch]
            constructor
            · rintro h1 ⟨_, h2, h3⟩; exact h1 ⟨h2.symm, h3.symm⟩
            · rintro h1 ⟨h2, h3⟩; exact h1 ⟨⟨rfl, rfl⟩, h2.symm, h3.symm⟩
      · rw [if_neg hb]
        refine ⟨_, _, _, congrArg (fun x => Except.ok (x, some r.start.chap, true, true)) ?_, .inr ⟨hA, rfl, .inr ⟨rfl, rfl⟩⟩⟩
        rcases hhead with hh | ⟨p, hp, hk, hsep, hh⟩
        · exact hh.2.symm
        · rw [hh]; symm
          rw [Bool.not_eq_true', decide_eq_false_iff_not]
          intro hst
          exact hb (by rw [hk.book, hst.1.1])

theorem regroupStop_sep {r : BibleRange} (hr : ROK e.data true r) (v : Bool) :
    ∃ s', RangeList.regroupStop e none v r = .ok s' ∧ Knows e.data r s' := by
  have hg : (e.eff none).verse0 = true → e.flags.verse0 = true := fun hh => hh
  unfold RangeList.regroupStop
  rw [spansEndBook_eq h (flags := none) hg hr, spansEndChap_eq h (flags := none) hg hr]
  simp only [bind, Except.bind, pure, Except.pure]
  by_cases hA : r.stop = enBook e.data r.stop ∧ pos e.data r.start ≤ pos e.data (stBook e.data (e.eff none).verse0 r.stop)
  · rw [if_pos (by simpa using hA)]
    refine ⟨_, rfl, rfl, .inl rfl, fun hne => absurd ?_ hne⟩
    rw [hA.1]; rfl
  · rw [if_neg (by simpa using hA)]
    generalize (if r.stop.book ≠ r.start.book then false else v) = b
    cases b with
    | true => exact ⟨_, rfl, rfl, .inr rfl, fun _ => ⟨rfl, rfl⟩⟩
    | false =>
      refine ⟨_, rfl, rfl, .inr rfl, fun hne => ⟨rfl, ?_⟩⟩
      simp [hne]

theorem regroupStep_sep {r : BibleRange} (hr : ROK e.data true r) (s : RangeList.GroupState) (head : Bool)
    (hhead : (s.book = none ∧ head = true) ∨ ∃ p, ROK e.data true p ∧ Knows e.data p s ∧ Sep e.data p r ∧ head = !decide (StaysIn p r)) :
    ∃ s', RangeList.regroupStep e none s r = .ok (head, s') ∧ Knows e.data r s' := by
  have hg : (e.eff none).verse0 = true → e.flags.verse0 = true := fun hh => hh
  obtain ⟨c, v, w, h1, h2⟩ := regroupStart_sep h hr s head hhead
  have hle := hr.le
  unfold RangeList.regroupStep RangeList.isDual
  rw [h1, spansEndChap_eq h (flags := none) hg hr, isWholeBook_eq h (flags := none) hg, isWholeChap_eq h (flags := none) hg hr]
  simp only [bind, Except.bind, pure, Except.pure]
  by_cases hW : r.start = stBook e.data (e.eff none).verse0 r.start ∧ r.stop = enBook e.data r.start
  · have hc : c = none := by
      rcases h2 with ⟨_, h3, _⟩ | ⟨h3, _⟩
      · exact h3
      · exact absurd ⟨hW.1, by rw [hW.2]; exact Nat.le_refl _⟩ h3
    have hbk : r.stop.book = r.start.book := by rw [hW.2]; rfl
    have hlast : r.stop = enChap e.data r.stop := by rw [hW.2]; rfl
    simp only [decide_eq_true hW, if_true, Bool.false_eq_true, if_false]
    cases w
    all_goals
      simp only [Bool.false_eq_true, if_false, if_true]
      exact ⟨_, rfl, by rw [hbk], .inl hc, fun hne => absurd hlast hne⟩
  · simp only [decide_eq_false hW, Bool.false_eq_true, if_false]
    by_cases hC : r.start = stChap e.data (e.eff none).verse0 r.start ∧ r.stop = enChap e.data r.start
    · have hbk : r.stop.book = r.start.book := by rw [hC.2]; rfl
      have hch : r.stop.chap = r.start.chap := by rw [hC.2]; rfl
      have hlast : r.stop = enChap e.data r.stop := by rw [hC.2]; rfl
      have hc : c = none ∨ c = some r.stop.chap := by
        rcases h2 with ⟨_, h3, _⟩ | ⟨_, h3, _⟩
        · exact .inl h3
        · exact .inr (by rw [h3, hch])
      simp only [decide_eq_true hC, if_true, Bool.false_eq_true, if_false]
      cases w
      all_goals
        simp only [Bool.false_eq_true, if_false, if_true]
        exact ⟨_, rfl, by rw [hbk], hc, fun hne => absurd hlast hne⟩
    · simp only [decide_eq_false hC, Bool.false_eq_true, if_false]
      by_cases hS : r.start = r.stop
      · have hsing : r.isSingleVerse = true := by simp [BibleRange.isSingleVerse, hS]
        have hbmax := (blocks_book h true).en_max hr.s hr.s rfl
        have hcmax := (blocks_chap h true).en_max hr.s hr.s rfl
        have hinner : r.stop ≠ enChap e.data r.stop → c = some r.stop.chap ∧ v = true ∧ w = true := by
          intro hne
          rcases h2 with ⟨h3, _⟩ | ⟨_, h3, ⟨_, _, h4⟩ | h4⟩
          · exfalso
            have : r.start = enBook e.data r.start :=
              (h.pos_inj hr.s (enBook_valid h true hr.s.listed)).mp (by have := h3.2; rw [← hS] at this; omega)
            apply hne
            rw [← hS, this]; rfl
          · exfalso
            have : r.start = enChap e.data r.start :=
              (h.pos_inj hr.s ((blocks_chap h true).en_valid hr.s)).mp (by have := h4.2; rw [← hS] at this; omega)
            apply hne
            rw [← hS, ← this]
          · exact ⟨by rw [h3, hS], h4⟩
        have hc : c = none ∨ c = some r.stop.chap := by
          rcases h2 with ⟨_, h3, _⟩ | ⟨_, h3, _⟩
          · exact .inl h3
          · exact .inr (by rw [h3, hS])
        simp only [hsing, Bool.not_true, Bool.false_eq_true, if_false]
        cases w
        · simp only [Bool.false_eq_true, if_false]
          exact ⟨_, rfl, by rw [hS], hc, fun hne => absurd (hinner hne).2.2 (by decide)⟩
        · simp only [if_true]
          exact ⟨_, rfl, by rw [hS], hc, fun hne => ⟨(hinner hne).1, (hinner hne).2.1⟩⟩
      · have hsing : r.isSingleVerse = false := by simp [BibleRange.isSingleVerse, hS]
        simp only [hsing, Bool.not_false, if_true]
        cases w
        · simp only [Bool.false_eq_true, if_false]
          obtain ⟨s', h3, h4⟩ := regroupStop_sep h hr (if decide (r.stop = enChap e.data r.stop ∧
            pos e.data r.start ≤ pos e.data (stChap e.data (e.eff none).verse0 r.stop)) = true then v else true)
          rw [h3]; exact ⟨s', rfl, h4⟩
        · simp only [if_true]
          obtain ⟨s', h3, h4⟩ := regroupStop_sep h hr v
          rw [h3]; exact ⟨s', rfl, h4⟩

/-- The marks after a range. -/
def marksAfter : BibleRange → List BibleRange → List (Bool × BibleRange)
  | _, [] => []
  | p, r :: l => (!decide (StaysIn p r), r) :: marksAfter r l

theorem regroupHeads_after {l : List BibleRange} {p : BibleRange} {s : RangeList.GroupState} (hp : ROK e.data true p)
    (hl : ∀ r ∈ l, ROK e.data true r) (hk : Knows e.data p s) (hs : Neighbours (Sep e.data) (p :: l)) :
    RangeList.regroupHeads e none s l = .ok (marksAfter p l) := by
  induction l generalizing p s with
  | nil => rfl
  | cons r l ih =>
    have hr := hl r List.mem_cons_self
    obtain ⟨s', h1, h2⟩ := regroupStep_sep h hr s _ (.inr ⟨p, hp, hk, hs.1, rfl⟩)
    simp only [RangeList.regroupHeads, h1, bind, Except.bind, ih hr (fun x hx => hl x (List.mem_cons_of_mem _ hx)) h2 hs.2]
    rfl

/-- Regrouping a list of separate ranges does not depend on the flags. -/
theorem regroup_sep {l : List BibleRange} (hl : ∀ r ∈ l, ROK e.data true r) (hs : Neighbours (Sep e.data) l) :
    RangeList.regroup e none l = .ok (match l with
      | [] => []
      | r :: l => Groups.cut ((true, r) :: marksAfter r l)) := by
  cases l with
  | nil => rfl
  | cons r l =>
    have hr := hl r List.mem_cons_self
    obtain ⟨s', h1, h2⟩ := regroupStep_sep h hr ⟨none, none, false⟩ true (.inl ⟨rfl, rfl⟩)
    unfold RangeList.regroup
    simp only [RangeList.regroupHeads, h1, bind, Except.bind,
      regroupHeads_after h hr (fun x hx => hl x (List.mem_cons_of_mem _ hx)) h2 hs]
    rfl


/-- Whatever the flags, the ranges of a difference exist. -/
theorem difference_rok {a b : BibleRange} (ha : ROK e.data true a) (hb : ROK e.data true b) {l : List BibleRange}
    (hd : a.difference e b flags = .ok l) : ∀ r ∈ l, ROK e.data true r := by
  rw [BibleRange.difference_eq (ha.alike hb)] at hd
  split at hd
  · cases hd; simpa using ha
  split at hd
  · cases hd; simp
  have hnone : ∀ s t r, BibleRange.new e s t none = .ok r → ∃ x y, s = some x ∧ t = some y := by
    intro s t r hn
    unfold BibleRange.new at hn
    cases s <;> cases t <;> simp only at hn
    · split at hn <;> cases hn
    · split at hn <;> cases hn
    · split at hn <;> cases hn
    · exact ⟨_, _, rfl, rfl⟩
  cases h1 : b.start.sub e 1 flags with
  | error x => rw [h1] at hd; cases hd
  | ok before =>
  rw [h1] at hd
  cases h2 : BibleRange.new e (some a.start) before none with
  | error x => simp only [bind, Except.bind, h2] at hd; cases hd
  | ok lower =>
  simp only [bind, Except.bind, h2] at hd
  cases h3 : b.stop.add e 1 flags with
  | error x => simp only [h3] at hd; cases hd
  | ok after =>
  simp only [h3] at hd
  cases h4 : BibleRange.new e after (some a.stop) none with
  | error x => simp only [h4] at hd; cases hd
  | ok upper =>
  simp only [h4] at hd
  obtain ⟨_, w, _, rfl⟩ := hnone _ _ _ h2
  obtain ⟨u, _, rfl, _⟩ := hnone _ _ _ h4
  have hw : Valid e.data true w := by
    rcases sub_outcome h hb.s 1 flags with hx | ⟨y, hx, hy⟩ | hx
    · rw [hx] at h1; cases h1
    · rw [hx] at h1; cases h1; exact hy.mono
    · rw [hx] at h1; cases h1
  have hu : Valid e.data true u := by
    have hv : Valid e.data ((e.eff flags).verse0 || b.stop.verse == 0) b.stop := by
      have h0 := firstNum_nonneg e.data true b.stop.book b.stop.chap
      have h1 := hb.t.2.2.1
      refine ⟨hb.t.1, hb.t.2.1, ?_, hb.t.2.2.2.1, hb.t.listed⟩
      by_cases hz : b.stop.verse = 0
      · simp only [hz, beq_self_eq_true, Bool.or_true]
        omega
      · have := firstNum_le_one e.data ((e.eff flags).verse0 || b.stop.verse == 0) b.stop.book b.stop.chap
        omega
    have hadd := add_canon h (v := b.stop) (flags := flags) rfl (ix_get h hv) 1
    rw [show (((1 : Nat) : Int)) = 1 from rfl, h3] at hadd
    have := (Option.filter_eq_some_iff.mp (Except.ok.inj hadd).symm).1
    exact (valid_of_get h this).mono
  have hlo := new_rok h ha.s hw h2
  have hup := new_rok h hu ha.t h4
  split at hd
  · cases hd
    intro r hr
    rcases List.mem_cons.mp hr with rfl | hr
    · exact hlo
    · rcases List.mem_cons.mp hr with rfl | hr
      · exact hup
      · cases hr
  split at hd <;> cases hd
  · simpa using hlo
  · simpa using hup

theorem diffInner_rok {bs : List BibleRange} (hbs : ∀ x ∈ bs, ROK e.data true x) {p : BibleRange} (hp : ROK e.data true p)
    {rest : List BibleRange} (hr : ∀ x ∈ rest, ROK e.data true x) {q : BibleRange × List BibleRange}
    (hd : RangeList.diffInner e flags p rest bs = .ok q) : ROK e.data true q.1 ∧ ∀ x ∈ q.2, ROK e.data true x := by
  induction bs generalizing p rest with
  | nil => cases hd; exact ⟨hp, hr⟩
  | cons b bs ih =>
    rw [RangeList.diffInner] at hd
    cases hx : p.difference e b flags with
    | error x => rw [hx] at hd; cases hd
    | ok l =>
      simp only [hx, bind, Except.bind] at hd
      have hok := difference_rok h hp (hbs b List.mem_cons_self) hx
      cases l with
      | nil => exact ih (fun x hx => hbs x (List.mem_cons_of_mem _ hx)) hp hr hd
      | cons y ys =>
        refine ih (fun x hx => hbs x (List.mem_cons_of_mem _ hx)) (hok y List.mem_cons_self) ?_ hd
        intro x hx
        rcases List.mem_append.mp hx with hx | hx
        · exact hok x (List.mem_cons_of_mem _ hx)
        · exact hr x hx

theorem diffOuter_rok {B : List BibleRange} (hB : ∀ x ∈ B, ROK e.data true x) {fuel : Nat} {l R : List BibleRange}
    (hl : ∀ r ∈ l, ROK e.data true r) (hd : RangeList.diffOuter e flags B fuel l = .ok R) : ∀ r ∈ R, ROK e.data true r := by
  induction fuel generalizing l R with
  | zero =>
    cases l with
    | nil => cases hd; simp
    | cons a l => cases hd
  | succ fuel ih =>
    cases l with
    | nil => cases hd; simp
    | cons a l =>
      rw [RangeList.diffOuter] at hd
      cases hx : RangeList.diffInner e flags a l B with
      | error x => rw [hx] at hd; cases hd
      | ok q =>
        simp only [hx, bind, Except.bind] at hd
        obtain ⟨h1, h2⟩ := diffInner_rok h hB (hl a List.mem_cons_self) (fun x hx => hl x (List.mem_cons_of_mem _ hx)) hx
        cases hy : RangeList.diffOuter e flags B fuel q.2 with
        | error x => simp only [hy] at hd; cases hd
        | ok done =>
          simp only [hy] at hd
          cases hd
          intro r hr
          rcases List.mem_cons.mp hr with rfl | hr
          · exact h1
          · exact ih h2 hy r hr

end

/-- A list is divided into groups by a relation: neighbours are in one group exactly if it holds between them. -/
def Spec.GroupedBy {α : Type} (R : α → α → Prop) (m : List (List α)) : Prop :=
  (∀ g ∈ m, g ≠ [] ∧ Neighbours R g) ∧ Neighbours (fun g g' => ∀ a ∈ g.getLast?, ∀ b ∈ g'.head?, ¬ R a b) m

theorem cut_groupedBy (x : Bool) (r : BibleRange) (l : List BibleRange) :
    GroupedBy StaysIn (Groups.cut ((x, r) :: marksAfter r l)) := by
  induction l generalizing x r with
  | nil => simp [marksAfter, Groups.cut, GroupedBy, Neighbours]
  | cons r' l ih =>
    rw [marksAfter]
    by_cases hs : StaysIn r r'
    · rw [decide_eq_true hs]
      obtain ⟨g, gs, hc⟩ := Groups.cut_cons false r' (marksAfter r' l)
      obtain ⟨h1, h2⟩ := ih false r'
      rw [hc] at h1 h2
      rw [Bool.not_true, Groups.cut, hc]
      constructor
      · intro k hk
        rcases List.mem_cons.mp hk with rfl | hk
        · exact ⟨by simp, hs, (h1 _ List.mem_cons_self).2⟩
        · exact h1 k (List.mem_cons_of_mem _ hk)
      · cases gs with
        | nil => trivial
        | cons k gs =>
          refine ⟨?_, h2.2⟩
          show ∀ a ∈ (r :: r' :: g).getLast?, ∀ b ∈ k.head?, ¬ StaysIn a b
          rw [List.getLast?_cons_cons]
          exact h2.1
    · rw [decide_eq_false hs]
      obtain ⟨g, gs, hc⟩ := Groups.cut_cons true r' (marksAfter r' l)
      obtain ⟨h1, h2⟩ := ih true r'
      rw [hc] at h1 h2
      rw [Bool.not_false, Groups.cut, hc]
      constructor
      · intro k hk
        rcases List.mem_cons.mp hk with rfl | hk
        · exact ⟨by simp, trivial⟩
        · exact h1 k hk
      · refine ⟨?_, h2⟩
        intro a ha b hb
        cases ha; cases hb
        exact hs

/-- The groups are determined by the elements and the relation. -/
theorem GroupedBy.unique {α : Type} {R : α → α → Prop} {m n : List (List α)} (hm : GroupedBy R m) (hn : GroupedBy R n)
    (heq : m.flatten = n.flatten) : m = n := by
  induction m generalizing n with
  | nil =>
    cases n with
    | nil => rfl
    | cons g n =>
      have := (hn.1 g List.mem_cons_self).1
      simp only [List.flatten_nil, List.flatten_cons] at heq
      exact absurd (List.append_eq_nil_iff.mp heq.symm).1 this
  | cons g m ih =>
    cases n with
    | nil =>
      have := (hm.1 g List.mem_cons_self).1
      simp only [List.flatten_nil, List.flatten_cons] at heq
      exact absurd (List.append_eq_nil_iff.mp heq).1 this
    | cons k n =>
      have tail : ∀ {g : List α} {m : List (List α)}, GroupedBy R (g :: m) → GroupedBy R m := by
        intro g m hg
        refine ⟨fun x hx => hg.1 x (List.mem_cons_of_mem _ hx), ?_⟩
        have := hg.2
        cases m with
        | nil => trivial
        | cons y m => exact this.2
      -- the first groups have the same length
      have key : ∀ {g k : List α} {m n : List (List α)}, GroupedBy R (g :: m) → GroupedBy R (k :: n) →
          (g :: m).flatten = (k :: n).flatten → ¬ g.length < k.length := by
        intro g k m n hg hk hgk hlt
        simp only [List.flatten_cons] at hgk
        have hgne := (hg.1 g List.mem_cons_self).1
        obtain ⟨t, ht⟩ : ∃ t, k = g ++ t := by
          have h1 := List.append_eq_append_iff.mp hgk
          rcases h1 with ⟨as, h2, _⟩ | ⟨cs, h2, _⟩
          · exact ⟨as, h2⟩
          · exfalso; rw [h2, List.length_append] at hlt; omega
        subst ht
        rw [List.append_assoc] at hgk
        have hrest := List.append_cancel_left hgk
        cases t with
        | nil => simp at hlt
        | cons b t =>
          cases m with
          | nil => cases hrest
          | cons g' m =>
            have hg'ne := (hg.1 g' (List.mem_cons_of_mem _ List.mem_cons_self)).1
            cases g' with
            | nil => exact absurd rfl hg'ne
            | cons b' g' =>
              have hb : b' = b := by
                simp only [List.flatten_cons, List.cons_append] at hrest
                exact (List.cons.inj hrest).1
              subst hb
              have hno := hg.2.1 (g.getLast hgne) (List.getLast?_eq_some_getLast hgne) b' rfl
              apply hno
              have hnb := (hk.1 _ List.mem_cons_self).2
              clear hgk hrest hg hlt hk hno
              induction g with
              | nil => exact absurd rfl hgne
              | cons a g ihg =>
                cases g with
                | nil => exact hnb.1
                | cons a' g =>
                  rw [List.getLast_cons (by simp)]
                  exact ihg (by simp) hnb.2
      have hlen : g.length = k.length := by
        have h1 := key hm hn heq
        have h2 := key hn hm heq.symm
        omega
      simp only [List.flatten_cons] at heq
      obtain ⟨h1, h2⟩ := List.append_inj heq hlen
      subst h1
      rw [ih (tail hm) (tail hn) h2]

theorem merge_grouped {e : Env} (h : e.data.WF) {flags : Option BibleFlag} {l m : RangeList} (hl : ∀ r ∈ l.flatten, ROK e.data true r)
    (hm : RangeList.merge e l flags = .ok m) : GroupedBy StaysIn m ∧ (∀ r ∈ m.flatten, ROK e.data true r) := by
  unfold RangeList.merge at hm
  cases hi : RangeList.mergeItems e flags l.flatten with
  | error x => rw [hi] at hm; cases hm
  | ok items =>
    rw [hi] at hm
    obtain ⟨h1, h2⟩ := mergeItems_sep h hl hi
    refine ⟨?_, ?_⟩
    · replace hm : RangeList.regroup e none items = .ok m := hm
      rw [regroup_sep h h1 h2] at hm
      cases items with
      | nil => cases hm; exact ⟨by simp, trivial⟩
      | cons r l => cases hm; exact cut_groupedBy true r l
    · have := RangeList.regroup_flatten (show RangeList.regroup e none items = .ok m from hm)
      rw [this.1]; exact h1

theorem union_grouped {e : Env} (h : e.data.WF) {flags : Option BibleFlag} {l k m : RangeList} (hl : ∀ r ∈ l.flatten, ROK e.data true r)
    (hk : ∀ r ∈ k.flatten, ROK e.data true r) (hm : RangeList.unionUpdate e l k flags = .ok m) :
    GroupedBy StaysIn m ∧ (∀ r ∈ m.flatten, ROK e.data true r) := by
  refine merge_grouped h (fun r hr => ?_) hm
  rw [Groups.flatten_extend] at hr
  rcases List.mem_append.mp hr with hr | hr
  · exact hl r hr
  · exact hk r hr

theorem intersection_grouped {e : Env} (h : e.data.WF) {flags : Option BibleFlag} {l k m : RangeList} (hl : ∀ r ∈ l.flatten, ROK e.data true r)
    (hk : ∀ r ∈ k.flatten, ROK e.data true r) (hm : RangeList.intersection e l k flags = .ok m) :
    GroupedBy StaysIn m ∧ (∀ r ∈ m.flatten, ROK e.data true r) := by
  unfold RangeList.intersection at hm
  cases hi : RangeList.intersectionItems e flags l.flatten k.flatten with
  | error x => rw [hi] at hm; cases hm
  | ok items =>
    rw [hi] at hm
    refine merge_grouped h (fun r hr => ?_) hm
    rw [RangeList.ofRanges_flatten] at hr
    exact intersectionItems_rok h hl hk hi r hr

theorem difference_grouped {e : Env} (h : e.data.WF) {flags : Option BibleFlag} {l k m : RangeList} {fuel : Nat}
    (hl : ∀ r ∈ l.flatten, ROK e.data true r) (hk : ∀ r ∈ k.flatten, ROK e.data true r)
    (hm : RangeList.differenceUpdate e l k flags fuel = .ok m) : GroupedBy StaysIn m ∧ (∀ r ∈ m.flatten, ROK e.data true r) := by
  unfold RangeList.differenceUpdate at hm
  cases hi : RangeList.diffOuter e flags k.flatten fuel l.flatten with
  | error x => rw [hi] at hm; cases hm
  | ok items =>
    rw [hi] at hm
    refine merge_grouped h (fun r hr => ?_) hm
    rw [RangeList.ofRanges_flatten] at hr
    exact diffOuter_rok h hk hl hi r hr

theorem symDifference_grouped {e : Env} (h : e.data.WF) {flags : Option BibleFlag} {l k m : RangeList} {fuel : Nat}
    (hl : ∀ r ∈ l.flatten, ROK e.data true r) (hk : ∀ r ∈ k.flatten, ROK e.data true r)
    (hm : RangeList.symDifference e l k flags fuel = .ok m) : GroupedBy StaysIn m := by
  have hcopy : ∀ r ∈ (RangeList.copy l).flatten, ROK e.data true r := fun r hr => hl r (by rwa [RangeList.copy_flatten] at hr)
  unfold RangeList.symDifference at hm
  cases hu : RangeList.union e l k flags with
  | error x => rw [hu] at hm; cases hm
  | ok u =>
  cases hi : RangeList.intersection e l k flags with
  | error x => simp only [hu, hi, bind, Except.bind] at hm; cases hm
  | ok i =>
  simp only [hu, hi, bind, Except.bind] at hm
  refine (difference_grouped h (fun r hr => ?_) (intersection_grouped h hl hk hi).2 hm).1
  rw [RangeList.copy_flatten] at hr
  exact (union_grouped h hcopy hk hu).2 r hr

/-- C72: the lists given by merging and by the operators are divided into groups in one way whatever the flags: neighbouring ranges are
in one group exactly if the second lies in the chapter in which the first ends. -/
theorem C72_groups (e : Env) (h : e.data.WF) (flags : Option BibleFlag) (l k m : RangeList) (fuel : Nat)
    (hl : ∀ r ∈ l.flatten, RangeOK e.data true r) (hk : ∀ r ∈ k.flatten, RangeOK e.data true r)
    (hm : RangeList.merge e l flags = .ok m ∨ RangeList.union e l k flags = .ok m ∨ RangeList.unionUpdate e l k flags = .ok m ∨
      RangeList.intersection e l k flags = .ok m ∨ RangeList.difference e l k flags fuel = .ok m ∨
      RangeList.differenceUpdate e l k flags fuel = .ok m ∨ RangeList.symDifference e l k flags fuel = .ok m) : GroupedBy StaysIn m := by
  have hl' : ∀ r ∈ l.flatten, ROK e.data true r := fun r hr => (rangeOK_iff h).mp (hl r hr)
  have hk' : ∀ r ∈ k.flatten, ROK e.data true r := fun r hr => (rangeOK_iff h).mp (hk r hr)
  have hcopy : ∀ r ∈ (RangeList.copy l).flatten, ROK e.data true r := fun r hr => hl' r (by rwa [RangeList.copy_flatten] at hr)
  rcases hm with hm | hm | hm | hm | hm | hm | hm
  · exact (merge_grouped h hl' hm).1
  · exact (union_grouped h hcopy hk' hm).1
  · exact (union_grouped h hl' hk' hm).1
  · exact (intersection_grouped h hl' hk' hm).1
  · exact (difference_grouped h hcopy hk' hm).1
  · exact (difference_grouped h hl' hk' hm).1
  · exact symDifference_grouped h hl' hk' hm

/-- C72: merged lists with the same ranges have the same groups, whatever flags they were merged under. -/
theorem C72_same_groups (e : Env) (h : e.data.WF) (flags flags' : Option BibleFlag) (g : BibleFlag) (l k m n : RangeList)
    (hl : ∀ r ∈ l.flatten, RangeOK e.data true r) (hk : ∀ r ∈ k.flatten, RangeOK e.data true r)
    (hm : RangeList.merge e l flags = .ok m) (hn : RangeList.merge (e.setFlags g) k flags' = .ok n) (heq : m.flatten = n.flatten) :
    m = n :=
  GroupedBy.unique (merge_grouped h (fun r hr => (rangeOK_iff h).mp (hl r hr)) hm).1
    (merge_grouped (e := e.setFlags g) h (fun r hr => (rangeOK_iff h).mp (hk r hr)) hn).1 heq

/-- Psalm 3:0-4, 3:6-8 and 4:1 to 5:2, with titles and without. -/
example : (∀ f ∈ [some BibleFlag.VERSE_0, none], RangeList.merge dfltAll [[⟨⟨.Psa, 4, 1⟩, ⟨.Psa, 5, 2⟩⟩, ⟨⟨.Psa, 3, 6⟩, ⟨.Psa, 3, 7⟩⟩, ⟨⟨.Psa, 3, 0⟩, ⟨.Psa, 3, 4⟩⟩]] f =
    .ok [[⟨⟨.Psa, 3, 0⟩, ⟨.Psa, 3, 4⟩⟩, ⟨⟨.Psa, 3, 6⟩, ⟨.Psa, 3, 7⟩⟩], [⟨⟨.Psa, 4, 1⟩, ⟨.Psa, 5, 2⟩⟩]]) ∧
    ¬ StaysIn ⟨⟨.Psa, 3, 6⟩, ⟨.Psa, 3, 7⟩⟩ ⟨⟨.Psa, 4, 1⟩, ⟨.Psa, 5, 2⟩⟩ := by decide +kernel

/-! ## C47 -/

theorem merge_setFlags {e : Env} (h : e.data.WF) {fl fl' : Option BibleFlag} {g : BibleFlag} (hf : (e.setFlags g).eff fl' = e.eff fl)
    {l : RangeList} (hl : ∀ r ∈ l.flatten, ROK e.data true r) : RangeList.merge (e.setFlags g) l fl' = RangeList.merge e l fl := by
  have h1 : RangeList.mergeItems (e.setFlags g) fl' l.flatten = RangeList.mergeItems e fl l.flatten :=
    mergeItems_congr (e := e.setFlags g) (e' := e) rfl hf _
  unfold RangeList.merge
  rw [h1]
  cases hi : RangeList.mergeItems e fl l.flatten with
  | error x => rfl
  | ok items =>
    obtain ⟨h1, h2⟩ := mergeItems_sep h hl hi
    show RangeList.regroup (e.setFlags g) none items = RangeList.regroup e none items
    rw [regroup_sep h h1 h2, regroup_sep (e := e.setFlags g) h h1 h2]
    cases items <;> rfl

/-- C47 for lists: what `merge`, `union` and `intersection` give or raise, groups included, and what `contains` answers or raises, is
decided by the flags in force whatever the global flags are. Missing: difference and symmetric difference, where it is false as for
ranges. -/
theorem C47_lists_partial (e : Env) (h : e.data.WF) (fl fl' : Option BibleFlag) (g : BibleFlag)
    (hf : inForce (e.setFlags g) fl' = inForce e fl) (l m : RangeList)
    (hl : ∀ r ∈ l.flatten, RangeOK e.data true r) (hm : ∀ r ∈ m.flatten, RangeOK e.data true r) :
    RangeList.merge (e.setFlags g) l fl' = RangeList.merge e l fl ∧
    RangeList.union (e.setFlags g) l m fl' = RangeList.union e l m fl ∧
    RangeList.intersection (e.setFlags g) l m fl' = RangeList.intersection e l m fl ∧
    RangeList.contains (e.setFlags g) l m fl' = RangeList.contains e l m fl := by
  rw [← eff_eq, ← eff_eq] at hf
  have hl' : ∀ r ∈ l.flatten, ROK e.data true r := fun r hr => (rangeOK_iff h).mp (hl r hr)
  have hm' : ∀ r ∈ m.flatten, ROK e.data true r := fun r hr => (rangeOK_iff h).mp (hm r hr)
  have hcopy : ∀ r ∈ (RangeList.copy l).flatten, ROK e.data true r := fun r hr => hl' r (by rwa [RangeList.copy_flatten] at hr)
  refine ⟨merge_setFlags h hf hl', merge_setFlags h hf fun r hr => ?_, ?_, ?_⟩
  · rw [Groups.flatten_extend] at hr
    rcases List.mem_append.mp hr with hr | hr
    · exact hcopy r hr
    · exact hm' r hr
  · unfold RangeList.intersection
    rw [intersectionItems_congr (e := e.setFlags g) (e' := e) rfl hf]
    cases hi : RangeList.intersectionItems e fl l.flatten m.flatten with
    | error x => rfl
    | ok items =>
      refine merge_setFlags h hf fun r hr => ?_
      rw [RangeList.ofRanges_flatten] at hr
      exact intersectionItems_rok h hl' hm' hi r hr
  · unfold RangeList.contains
    rw [merge_setFlags h hf hcopy]

example : RangeList.union dfltAll [[⟨⟨.Psa, 3, 1⟩, ⟨.Psa, 3, 4⟩⟩]] [[⟨⟨.Psa, 3, 7⟩, ⟨.Psa, 3, 8⟩⟩]] (some .VERSE_0) =
    .ok [[⟨⟨.Psa, 3, 1⟩, ⟨.Psa, 3, 4⟩⟩, ⟨⟨.Psa, 3, 7⟩, ⟨.Psa, 3, 8⟩⟩]] ∧
    inForce (dfltAll.setFlags .none) (some .VERSE_0) = inForce dfltAll (some .VERSE_0) := by decide +kernel

end Bibleref

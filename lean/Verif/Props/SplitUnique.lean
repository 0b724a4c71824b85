import Verif.Props.Ranges

/-!
# There is only one way of splitting (C19)
-/

namespace Bibleref

open Spec

/-- What `split` is asked for: ranges that together have the verses of the range one after the other, each within one book, one
chapter, so many verses, as asked for, and cut only where they had to be. -/
structure Spec.Pieces (d : BibleData) (v0 byBook byChap : Bool) (num : Option Int) (r : BibleRange) (l : List BibleRange) : Prop where
  ranges : ∀ x ∈ l, RangeOK d v0 x
  together : l.flatMap (versesOf d v0) = versesOf d v0 r
  books : byBook = true → ∀ x ∈ l, x.start.book = x.stop.book
  chaps : byChap = true → ∀ x ∈ l, x.start.book = x.stop.book ∧ x.start.chap = x.stop.chap
  size : ∀ n, num = some n → ∀ x ∈ l, ((versesOf d v0 x).length : Int) ≤ n
  reason : Neighbours (fun p q => (byBook = true ∧ p.stop.book ≠ q.start.book) ∨
    (byChap = true ∧ ¬ (p.stop.book = q.start.book ∧ p.stop.chap = q.start.chap)) ∨
    num = some ((versesOf d v0 p).length : Int)) l

theorem tiles_of_flatMap {d : BibleData} (h : d.WF) {v0 : Bool} : ∀ {l : List BibleRange} {i k : Nat}, l ≠ [] →
    (∀ x ∈ l, ROK d v0 x) → l.flatMap (versesOf d v0) = ((canon d v0).drop i).take (k + 1 - i) → i ≤ k →
    k < (canon d v0).length → Tiles d v0 i k l := by
  intro l
  induction l with
  | nil => intro i k hne; exact absurd rfl hne
  | cons p l ih =>
    intro i k _ hok hfl hik hk
    have hp := hok p (.head _)
    have hps := ix_get h hp.s
    have hpt := ix_get h hp.t
    have hple : ix d v0 p.start ≤ ix d v0 p.stop := (pos_le_ix h hp.s hp.t).mp hp.le
    have htl := (List.getElem?_eq_some_iff.mp hpt).1
    rw [List.flatMap_cons, versesOf_slice h hp.s hp.t] at hfl
    generalize ha : ix d v0 p.start = a at *
    generalize hb : ix d v0 p.stop = b at *
    have hia : i = a := by
      have h0 := congrArg (·[0]?) hfl
      simp only [List.getElem?_append, List.length_take, List.length_drop, List.getElem?_take, List.getElem?_drop] at h0
      rw [if_pos (by omega), if_pos (by omega), if_pos (by omega), Nat.add_zero, Nat.add_zero] at h0
      exact ((List.getElem?_inj (by omega) (h.nodup_canon v0)).mp h0).symm
    subst hia
    have hlen := congrArg List.length hfl
    simp only [List.length_append, List.length_take, List.length_drop] at hlen
    have hbk : b ≤ k := by omega
    have hrest : l.flatMap (versesOf d v0) = ((canon d v0).drop (b + 1)).take (k + 1 - (b + 1)) := by
      apply List.ext_getElem?
      intro m
      have h0 := congrArg (·[b + 1 - i + m]?) hfl
      simp only [List.getElem?_append, List.length_take, List.length_drop, List.getElem?_take, List.getElem?_drop] at h0 ⊢
      rw [if_neg (by omega), show b + 1 - i + m - min (b + 1 - i) ((canon d v0).length - i) = m by omega,
        show i + (b + 1 - i + m) = b + 1 + m by omega] at h0
      rw [h0]
      by_cases hm : b + 1 - i + m < k + 1 - i
      · rw [if_pos hm, if_pos (by omega)]
      · rw [if_neg hm, if_neg (by omega)]
    cases l with
    | nil =>
      simp only [List.flatMap_nil, List.length_nil] at hrest hlen
      have : b = k := by omega
      subst this
      exact .one hps hpt hple
    | cons q l =>
      have hq := hok q (.tail _ (.head _))
      have hlq : 0 < ((q :: l).flatMap (versesOf d v0)).length := by
        rw [List.flatMap_cons, List.length_append, length_versesOf h hq.s hq.t]
        have := (pos_le_ix h hq.s hq.t).mp hq.le
        omega
      exact .cons hps hpt hple (ih (by simp) (fun x hx => hok x (.tail _ hx)) hrest (by
        rw [hrest, List.length_take, List.length_drop] at hlq
        omega) hk)

section
variable {d : BibleData} {v0 : Bool} {byBook byChap : Bool} {num : Option Int}

/-- One piece, by places. -/
def UnitOK (d : BibleData) (v0 byBook byChap : Bool) (num : Option Int) (x : BibleRange) : Prop :=
  (byBook = true → x.start.book = x.stop.book) ∧ (byChap = true → x.start.book = x.stop.book ∧ x.start.chap = x.stop.chap) ∧
  (∀ n : Int, num = some n → ((versesOf d v0 x).length : Int) ≤ n)

def CutReason (d : BibleData) (v0 byBook byChap : Bool) (num : Option Int) (p q : BibleRange) : Prop :=
  (byBook = true ∧ p.stop.book ≠ q.start.book) ∨ (byChap = true ∧ ¬ (p.stop.book = q.start.book ∧ p.stop.chap = q.start.chap)) ∨
  num = some ((versesOf d v0 p).length : Int)

/-- A piece that had to be cut cannot go on. -/
theorem no_longer (h : d.WF) {i j k : Nat} {p q x : BibleRange} (hp1 : (canon d v0)[i]? = some p.start)
    (hp2 : (canon d v0)[j]? = some p.stop) (hij : i ≤ j) (hq : (canon d v0)[j + 1]? = some q.start) (hx1 : (canon d v0)[i]? = some x.start)
    (hx2 : (canon d v0)[k]? = some x.stop) (hjk : j < k) (hr : CutReason d v0 byBook byChap num p q)
    (hu : UnitOK d v0 byBook byChap num x) : False := by
  rcases hr with ⟨hb, hne⟩ | ⟨hb, hne⟩ | hn
  · have he := hu.1 hb
    exact hne ((book_between h hx1 hp2 hx2 hij (by omega) he).trans (book_between h hx1 hq hx2 (by omega) hjk he).symm)
  · have he := hu.2.1 hb
    have h1 := chap_between h hx1 hp2 hx2 hij (by omega) he.1 he.2
    have h2 := chap_between h hx1 hq hx2 (by omega) hjk he.1 he.2
    exact hne ⟨h1.1.trans h2.1.symm, h1.2.trans h2.2.symm⟩
  · have := hu.2.2 _ hn
    rw [length_versesOf h (valid_of_get h hx1) (valid_of_get h hx2), length_versesOf h (valid_of_get h hp1) (valid_of_get h hp2),
      ix_of_get h hx1, ix_of_get h hx2, ix_of_get h hp1, ix_of_get h hp2] at this
    omega

theorem same_piece {i k : Nat} {x y : BibleRange} (h1 : (canon d v0)[i]? = some x.start) (h2 : (canon d v0)[k]? = some x.stop)
    (h3 : (canon d v0)[i]? = some y.start) (h4 : (canon d v0)[k]? = some y.stop) : x = y := by
  rw [h1] at h3
  rw [h2] at h4
  cases x; cases y
  simp only [Option.some.injEq] at h3 h4
  subst h3; subst h4; rfl

theorem Tiles.unique (h : d.WF) {i k : Nat} {l l' : List BibleRange} (ht : Tiles d v0 i k l) (ht' : Tiles d v0 i k l')
    (hu : ∀ x ∈ l, UnitOK d v0 byBook byChap num x) (hu' : ∀ x ∈ l', UnitOK d v0 byBook byChap num x)
    (hr : Neighbours (CutReason d v0 byBook byChap num) l) (hr' : Neighbours (CutReason d v0 byBook byChap num) l') : l = l' := by
  have inv : ∀ {i j k : Nat} {p : BibleRange} {l : List BibleRange}, Tiles d v0 (j + 1) k l →
      Neighbours (CutReason d v0 byBook byChap num) (p :: l) →
      ∃ q, (canon d v0)[j + 1]? = some q.start ∧ CutReason d v0 byBook byChap num p q ∧
        Neighbours (CutReason d v0 byBook byChap num) l := by
    intro i j k p l ht hr
    cases l with
    | nil => cases ht
    | cons q l =>
      obtain ⟨q', h1, h2⟩ := ht.head
      cases h1
      exact ⟨q, h2, hr.1, hr.2⟩
  induction ht generalizing l' with
  | one h1 h2 h3 =>
    cases ht' with
    | one g1 g2 g3 => rw [same_piece h1 h2 g1 g2]
    | cons g1 g2 g3 gt =>
      obtain ⟨q, hq, hc, _⟩ := inv (i := 0) gt hr'
      exact (no_longer h g1 g2 g3 hq h1 h2 (by have := gt.le; omega) hc (hu _ (.head _))).elim
  | @cons i j k p l h1 h2 h3 ht ih =>
    obtain ⟨q, hq, hc, hr2⟩ := inv (i := 0) ht hr
    cases ht' with
    | one g1 g2 g3 => exact (no_longer h h1 h2 h3 hq g1 g2 (by have := ht.le; omega) hc (hu' _ (.head _))).elim
    | @cons _ j' _ p' l' g1 g2 g3 gt =>
      obtain ⟨q', hq', hc', hr2'⟩ := inv (i := 0) gt hr'
      rcases Nat.lt_trichotomy j j' with hlt | heq | hlt
      · exact (no_longer h h1 h2 h3 hq g1 g2 hlt hc (hu' _ (.head _))).elim
      · subst heq
        rw [same_piece h1 h2 g1 g2, ih gt (fun x hx => hu x (.tail _ hx)) (fun x hx => hu' x (.tail _ hx)) hr2 hr2']
      · exact (no_longer h g1 g2 g3 hq' h1 h2 hlt hc' (hu _ (.head _))).elim

end

/-- C19: there is only one list that meets the request. -/
theorem C19_unique (d : BibleData) (h : d.WF) (v0 byBook byChap : Bool) (num : Option Int) (r : BibleRange) (hr : RangeOK d v0 r)
    (l l' : List BibleRange) (hl : Pieces d v0 byBook byChap num r l) (hl' : Pieces d v0 byBook byChap num r l') : l = l' := by
  have hr' := (rangeOK_iff h).mp hr
  have hle := (pos_le_ix h hr'.s hr'.t).mp hr'.le
  have hlt := (List.getElem?_eq_some_iff.mp (ix_get h hr'.t)).1
  have tl : ∀ {l}, Pieces d v0 byBook byChap num r l → Tiles d v0 (ix d v0 r.start) (ix d v0 r.stop) l := by
    intro l hl
    refine tiles_of_flatMap h ?_ (fun x hx => (rangeOK_iff h).mp (hl.ranges x hx)) (hl.together.trans (versesOf_slice h hr'.s hr'.t)) hle hlt
    intro he
    have := congrArg List.length hl.together
    rw [he, length_versesOf h hr'.s hr'.t] at this
    simp at this
    omega
  exact (tl hl).unique h (tl hl') (fun x hx => ⟨fun hb => hl.books hb x hx, fun hb => hl.chaps hb x hx, fun n hn => hl.size n hn x hx⟩)
    (fun x hx => ⟨fun hb => hl'.books hb x hx, fun hb => hl'.chaps hb x hx, fun n hn => hl'.size n hn x hx⟩) hl.reason hl'.reason

/-- C19: `split` gives exactly that list. -/
theorem C19_exact (e : Env) (h : e.data.WF) (r : BibleRange) (hr : RangeOK e.data true r) (byBook byChap : Bool)
    (num : Option Int) (hn : ∀ n, num = some n → 1 ≤ n) (flags : Option BibleFlag) (v0 : Bool)
    (hv0 : v0 = ((inForce e flags).verse0 || r.start.verse == 0 || r.stop.verse == 0)) (fuel : Nat)
    (hfuel : e.data.totalVerses < fuel) (l : List BibleRange) :
    r.splitRaw e byBook byChap num flags fuel = .ok l ↔ Pieces e.data v0 byBook byChap num r l := by
  obtain ⟨m, m1, m2, m3, m4, m5, m6, m7, m8, m9⟩ := C19_split e h r hr byBook byChap num hn flags v0 hv0 fuel hfuel
  have hm : Pieces e.data v0 byBook byChap num r m := ⟨m3, m4, m6, m7, m8, m9⟩
  rw [m1]
  constructor
  · intro hh; cases hh; exact hm
  · intro hl
    have hrv : RangeOK e.data v0 r := by
      have hr' := (rangeOK_iff h).mp hr
      have hv0' : v0 = (r.splitFlags e flags).verse0 := by rw [splitFlags_verse0, eff_eq]; exact hv0
      rw [hv0']
      exact (rangeOK_iff h).mpr (hr'.splitFlags flags)
    rw [C19_unique e.data h v0 byBook byChap num r hrv m l hm hl]

example : ∃ l, Pieces dflt.data false false true (some 20) exMatt l := by
  obtain ⟨l, l1, _⟩ := C19_split dflt defaultData_wf exMatt (exMatt_ok true) false true (some 20) (by simp) none false (by decide) _
    (Nat.lt_succ_self _)
  exact ⟨l, (C19_exact dflt defaultData_wf exMatt (exMatt_ok true) false true (some 20) (by simp) none false (by decide) _
    (Nat.lt_succ_self _) l).mp l1⟩

end Bibleref

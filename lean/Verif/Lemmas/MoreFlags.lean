import Verif.SpecFlags
import Verif.SpecMeaning
import Verif.Lemmas.Args
import Verif.Lemmas.StrEval

/-! # Lemmas for C74 -/

namespace Bibleref
open Spec

theorem Spec.Lowered.refl (v : BibleVerse) : Lowered v v := .inl rfl

/-- What becomes of a first verse. -/
def Low (a b : Bool) (v w : BibleVerse) : Prop := Lowered v w ∧ (a = b → w = v)

theorem Low.refl (a b : Bool) (v : BibleVerse) : Low a b v v := ⟨.inl rfl, fun _ => rfl⟩

theorem firstNum_more (d : BibleData) (b c) {a a' : Bool} (ha : a = true → a' = true) :
    firstNum d a' b c = firstNum d a b c ∨ (a = false ∧ a' = true ∧ firstNum d a b c = 1 ∧ firstNum d a' b c = 0) := by
  cases a <;> cases a' <;> simp at ha ⊢
  rcases firstNum_cases d true b c with h | h <;> simp [h]

theorem Low.first (d : BibleData) (b : BibleBook) (c : Int) {a a' : Bool} (ha : a = true → a' = true) :
    Low a a' ⟨b, c, firstNum d a b c⟩ ⟨b, c, firstNum d a' b c⟩ := by
  rcases firstNum_more d b c ha with h | ⟨rfl, rfl, h1, h2⟩
  · rw [h]; exact .refl _ _ _
  · rw [h1, h2]; exact ⟨.inr ⟨rfl, rfl⟩, fun h => by cases h⟩

section
variable {d : BibleData} (h : d.WF)
include h

theorem firstOf_spec {v0 b c n s} (hs : firstOf d v0 b c n = some s) : Valid d v0 s ∧ Matches b c n s = true :=
  ⟨(mem_canon h).mp (List.mem_of_find?_eq_some hs), List.find?_some hs⟩

theorem lastOf_spec {v0 b c n s} (hs : lastOf d v0 b c n = some s) : Valid d v0 s ∧ Matches b c n s = true :=
  ⟨(mem_canon h).mp (List.mem_reverse.mp (List.mem_of_find?_eq_some hs)), List.find?_some hs⟩

omit h in
theorem Valid.more {a a' : Bool} (ha : a = true → a' = true) {v : BibleVerse} (hv : Valid d a v) : Valid d a' v := by
  have := firstNum_more d v.book v.chap ha
  have h1 := hv.2.2.1
  exact ⟨hv.1, hv.2.1, by omega, hv.2.2.2⟩

theorem firstOf_more {a a' : Bool} (ha : a = true → a' = true) {b c n s} (hs : firstOf d a b c n = some s) :
    ∃ s', firstOf d a' b c n = some s' ∧ Low a a' s s' := by
  obtain ⟨hv, hm⟩ := firstOf_spec h hs
  have hb : b ∈ d.bookOrder := (matches_iff.mp hm).1 ▸ hv.listed
  cases n with
  | none =>
    cases c with
    | none =>
      rw [firstOf_book h hb] at hs ⊢
      cases hs
      exact ⟨_, rfl, .first d b 1 ha⟩
    | some c =>
      rw [firstOf_chap h hb] at hs ⊢
      split at hs
      · rename_i hc
        cases hs
        exact ⟨_, if_pos hc, .first d b c ha⟩
      · cases hs
  | some n =>
    refine ⟨s, firstOf_eq h (hv.more ha) hm ?_, .refl _ _ _⟩
    intro y hy hmy
    have h1 := (matches_iff.mp hm).2.2 n rfl
    have h2 := (matches_iff.mp hmy).2.2 n rfl
    have hya : Valid d a y := by
      rcases Bool.eq_false_or_eq_true a with rfl | rfl
      · exact hy.mono
      · have : firstNum d false s.book s.chap ≤ s.verse := hv.2.2.1
        rw [firstNum_false] at this
        exact ⟨hy.1, hy.2.1, by rw [firstNum_false]; omega, hy.2.2.2⟩
    rcases find?_first (h.pairwise_canon a) hs ((mem_canon h).mpr hya) hmy with rfl | hlt
    · exact Nat.le_refl _
    · have := (h.lt_pos hv hya).mp hlt
      omega

theorem lastOf_more {a a' : Bool} (ha : a = true → a' = true) {b c n s} (hs : lastOf d a b c n = some s) :
    lastOf d a' b c n = some s := by
  obtain ⟨hv, hm⟩ := lastOf_spec h hs
  have hb : b ∈ d.bookOrder := (matches_iff.mp hm).1 ▸ hv.listed
  cases n with
  | none =>
    cases c with
    | none => rw [lastOf_book h hb] at hs ⊢; exact hs
    | some c => rw [lastOf_chap h hb] at hs ⊢; exact hs
  | some n =>
    refine lastOf_eq h (hv.more ha) hm ?_
    intro y hy hmy
    have h1 := (matches_iff.mp hm).2.2 n rfl
    have h2 := (matches_iff.mp hmy).2.2 n rfl
    have hya : Valid d a y := by
      rcases Bool.eq_false_or_eq_true a with rfl | rfl
      · exact hy.mono
      · have : firstNum d false s.book s.chap ≤ s.verse := hv.2.2.1
        rw [firstNum_false] at this
        exact ⟨hy.1, hy.2.1, by rw [firstNum_false]; omega, hy.2.2.2⟩
    rcases find?_first (List.pairwise_reverse.mpr (h.pairwise_canon a)) hs (List.mem_reverse.mpr ((mem_canon h).mpr hya)) hmy with rfl | hlt
    · exact Nat.le_refl _
    · have := (h.lt_pos hya hv).mp hlt
      omega

theorem low_le {v w : BibleVerse} {v0 w0 : Bool} (hv : Valid d v0 v) (hw : Valid d w0 w) (hl : Lowered v w) : pos d w ≤ pos d v := by
  rcases hl with rfl | ⟨h1, rfl⟩
  · exact Nat.le_refl _
  · rw [pos_le_parts h hw hv]
    right
    refine ⟨rfl, .inr ⟨rfl, ?_⟩⟩
    show (0 : Int) ≤ v.verse
    omega

/-- Single references. -/
theorem fullRange_more {a a' : Bool} (ha : a = true → a' = true) {w : Full} {r} (hr : fullRange d a w = some r) :
    Valid d a r.start ∧ Valid d a r.stop ∧
    ∃ r', fullRange d a' w = some r' ∧ Low a a' r.start r'.start ∧ r'.stop = r.stop ∧ Valid d a' r'.start := by
  unfold fullRange at hr
  cases hs : firstOf d a w.book w.chap w.verse with
  | none => rw [hs] at hr; cases hr
  | some s =>
    cases ht : lastOf d a w.book w.chap w.verse with
    | none => rw [hs, ht] at hr; cases hr
    | some t =>
      rw [hs, ht] at hr
      cases hr
      obtain ⟨s', hs', hl⟩ := firstOf_more h ha hs
      refine ⟨(firstOf_spec h hs).1, (lastOf_spec h ht).1, ⟨s', t⟩, ?_, hl, rfl, (firstOf_spec h hs').1⟩
      unfold fullRange
      rw [hs', lastOf_more h ha ht]

variable {u : Uni} {f g : BibleFlag} (hw : Within f g)
include hw

theorem singleMeaning_more {before x r} (hr : singleMeaning u d f before x = some r) :
    Valid d f.verse0 r.start ∧ Valid d f.verse0 r.stop ∧
    ∃ r', singleMeaning u d g before x = some r' ∧ Low f.verse0 g.verse0 r.start r'.start ∧ r'.stop = r.stop ∧
      Valid d g.verse0 r'.start := by
  unfold singleMeaning at hr ⊢
  cases hx : fullRef u d before x with
  | none => rw [hx] at hr; cases hr
  | some w => rw [hx] at hr; exact fullRange_more h hw.1 hr

omit h hw in
theorem Low.book {a b v w} (hl : Low a b v w) : w.book = v.book := by
  rcases hl.1 with rfl | ⟨_, rfl⟩ <;> rfl

theorem joined_more {r r' q x : BibleRange} (h1 : Valid d f.verse0 r.start) (h2 : Valid d f.verse0 r'.stop)
    (hl : Low f.verse0 g.verse0 r.start q.start) (hq : Valid d g.verse0 q.start) (hx : joined d f r r' = some x) {q' : BibleRange}
    (hq' : q'.stop = r'.stop) : ∃ x', joined d g q q' = some x' ∧ Kept f g x x' := by
  unfold joined at hx ⊢
  split at hx
  · rename_i hb
    rw [if_pos (by rw [hl.book, hq']; exact hb.imp hw.2 id)]
    refine ⟨_, rfl, ?_⟩
    rw [hq']
    have hle := low_le h h1 hq hl.1
    split at hx
    · cases hx
      rw [if_pos (by omega)]
      exact ⟨hl.1, .refl _, fun he => by rw [hl.2 he]⟩
    · rename_i hn
      cases hx
      have hn' : ¬ pos d q.start ≤ pos d r'.stop := by
        rcases hl.1 with he | ⟨hv1, he⟩
        · rw [he]; exact hn
        · intro hle'
          rw [he] at hq hle'
          rw [pos_le_parts h hq h2] at hle'
          rw [pos_le_parts h h1 h2] at hn
          have hf : f.verse0 = false := by
            cases hf : f.verse0
            · rfl
            · have := hl.2 (by rw [hf, hw.1 hf])
              rw [this] at he
              rw [he] at hv1
              simp at hv1
          have h3 : firstNum d f.verse0 r'.stop.book r'.stop.chap ≤ r'.stop.verse := h2.2.2.1
          rw [hf, firstNum_false] at h3
          simp only at hle'
          apply hn
          rcases hle' with h4 | ⟨h4, h5 | ⟨h5, h6⟩⟩
          · exact .inl h4
          · exact .inr ⟨h4, .inl h5⟩
          · exact .inr ⟨h4, .inr ⟨h5, by omega⟩⟩
      rw [if_neg hn']
      exact ⟨.refl _, hl.1, fun he => by rw [hl.2 he]⟩
  · cases hx

theorem refMeaning_more {before x r} (hr : refMeaning u d f before x = some r) :
    ∃ r', refMeaning u d g before x = some r' ∧ Kept f g r r' := by
  cases x with
  | single x =>
    obtain ⟨-, -, r', h1, h2, h3, -⟩ := singleMeaning_more h hw (r := r) (before := before) (x := x) hr
    refine ⟨r', h1, h2.1, h3 ▸ .refl _, fun he => ?_⟩
    cases r; cases r'
    have := h2.2 he
    simp_all
  | dual x y =>
    simp only [refMeaning] at hr ⊢
    cases h1 : singleMeaning u d f before x with
    | none => rw [h1] at hr; cases hr
    | some r1 =>
      cases h2 : singleMeaning u d f (.dash :: .ref x :: before) y with
      | none => rw [h1, h2] at hr; cases hr
      | some r2 =>
        rw [h1, h2] at hr
        obtain ⟨v1, -, q1, e1, l1, -, w1⟩ := singleMeaning_more h hw h1
        obtain ⟨-, v2, q2, e2, -, l2, -⟩ := singleMeaning_more h hw h2
        rw [e1, e2]
        exact joined_more h hw v1 v2 l1 w1 hr l2

theorem restMeaning_more {l : List (Bool × Ref)} : ∀ {before xs}, restMeaning u d f before l = some xs →
    ∃ ys, restMeaning u d g before l = some ys ∧ ys.map Prod.fst = xs.map Prod.fst ∧
      ∀ p ∈ (xs.map Prod.snd).zip (ys.map Prod.snd), Kept f g p.1 p.2 := by
  induction l with
  | nil => intro before xs hx; cases hx; exact ⟨[], rfl, rfl, fun p hp => by cases hp⟩
  | cons a l ih =>
    obtain ⟨major, r⟩ := a
    intro before xs hx
    unfold restMeaning at hx ⊢
    cases h1 : refMeaning u d f (.sep major :: before) r with
    | none => rw [h1] at hx; cases hx
    | some x =>
      cases h2 : restMeaning u d f (upTo (.sep major :: before) r) l with
      | none => rw [h1, h2] at hx; cases hx
      | some xs' =>
        rw [h1, h2] at hx
        cases hx
        obtain ⟨x', e1, k1⟩ := refMeaning_more h hw h1
        obtain ⟨ys, e2, s2, k2⟩ := ih h2
        rw [e1, e2]
        refine ⟨(major, x') :: ys, rfl, by simp [s2], ?_⟩
        intro p hp
        simp only [List.map_cons, List.zip_cons_cons, List.mem_cons] at hp
        rcases hp with rfl | hp
        · exact k1
        · exact k2 p hp

omit h hw in
theorem inGroups_flatten (x : BibleRange) (l : List (Bool × BibleRange)) : (inGroups x l).flatten = x :: l.map Prod.snd := by
  induction l generalizing x with
  | nil => rfl
  | cons a l ih =>
    obtain ⟨m, y⟩ := a
    cases m
    · unfold inGroups
      have := ih y
      split
      · rename_i he; rw [he] at this; cases this
      · rename_i he; rw [he] at this; simp only [List.flatten_cons] at this; simp [← this]
    · simp [inGroups, ih]

omit h hw in
theorem inGroups_lengths (x x' : BibleRange) (l l' : List (Bool × BibleRange)) (hl : l'.map Prod.fst = l.map Prod.fst) :
    (inGroups x' l').map List.length = (inGroups x l).map List.length := by
  induction l generalizing x x' l' with
  | nil => cases l' with
    | nil => rfl
    | cons _ _ => cases hl
  | cons a l ih =>
    cases l' with
    | nil => cases hl
    | cons a' l' =>
      obtain ⟨m, y⟩ := a
      obtain ⟨m', y'⟩ := a'
      simp only [List.map_cons, List.cons.injEq] at hl
      obtain ⟨rfl, hl⟩ := hl
      have := ih y y' l' hl
      cases m'
      · unfold inGroups
        cases h1 : inGroups y l <;> cases h2 : inGroups y' l' <;> rw [h1, h2] at this <;> simp at this ⊢
        exact this
      · simp [inGroups, this]

theorem meaning_more {before t l} (hl : meaning u d f before t = some l) :
    ∃ l', meaning u d g before t = some l' ∧ l'.map List.length = l.map List.length ∧
      ∀ p ∈ l.flatten.zip l'.flatten, Kept f g p.1 p.2 := by
  unfold meaning at hl ⊢
  cases h1 : refMeaning u d f before t.first with
  | none => rw [h1] at hl; cases hl
  | some x =>
    cases h2 : restMeaning u d f (upTo before t.first) t.rest with
    | none => rw [h1, h2] at hl; cases hl
    | some xs =>
      rw [h1, h2] at hl
      cases hl
      obtain ⟨x', e1, k1⟩ := refMeaning_more h hw h1
      obtain ⟨ys, e2, s2, k2⟩ := restMeaning_more h hw h2
      rw [e1, e2]
      refine ⟨_, rfl, inGroups_lengths _ _ _ _ s2, ?_⟩
      rw [inGroups_flatten, inGroups_flatten]
      intro p hp
      simp only [List.zip_cons_cons, List.mem_cons] at hp
      rcases hp with rfl | hp
      · exact k1
      · exact k2 p hp

end
end Bibleref

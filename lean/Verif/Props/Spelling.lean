import Verif.SpecSpelling
import Verif.Props.Grammar

/-!
# Ways of writing the same reference (C73)
-/

namespace Bibleref
open Spec

theorem isSpace_of_isWs {u : Uni} {c : Char} (h : isWs c = true) : isSpace u c = true := by
  simp only [isWs, Bool.or_eq_true, decide_eq_true_eq] at h
  rcases h with (((rfl | rfl) | rfl) | rfl) | rfl <;> rfl

theorem isSpace_of_isWord {u : Uni} {c : Char} (h : isWord u c = true) : isSpace u c = false := by
  unfold isWord at h
  unfold isSpace
  split at h
  · rename_i hc
    rw [if_pos hc]
    simp only [isDigit, isUpper, isLower, Bool.or_eq_true, Bool.and_eq_true, decide_eq_true_eq] at h
    have h95 : c = '_' → c.toNat = 95 := fun hh => by rw [hh]; rfl
    simp only [Bool.or_eq_false_iff, Bool.and_eq_false_iff, decide_eq_false_iff_not]
    rcases h with h | h
    · omega
    · have := h95 h; omega
  · rename_i hc
    rw [if_neg hc]
    simp only [Bool.and_eq_true, Bool.not_eq_true'] at h
    exact h.2

theorem isWord_of_isDigit {u : Uni} {c : Char} (h : isDigit c = true) : isWord u c = true := by
  unfold isWord
  have : c.toNat < 128 := by simp only [isDigit, Bool.and_eq_true, decide_eq_true_eq] at h; omega
  rw [if_pos this, h]; rfl

section
variable {u : Uni} {d : BibleData} (hd : PlainSeps u d)
include hd

theorem Spec.IsSep.not_word {c : Char} (h : IsSep d c) : isWord u c = false ∧ isSpace u c = false ∧ isWs c = false ∧ isDigit c = false := by
  obtain ⟨h1, h2⟩ := hd.plain c h
  refine ⟨h1, h2, ?_, ?_⟩
  · cases hw : isWs c with
    | false => rfl
    | true => rw [isSpace_of_isWs (u := u) hw] at h2; cases h2
  · cases hw : isDigit c with
    | false => rfl
    | true => rw [isWord_of_isDigit (u := u) hw] at h1; cases h1

omit hd in
theorem verseSep_isSep {c : Char} (h : c ∈ [d.verseSepStd, d.verseSepAlt]) : IsSep d c := by
  simp only [List.mem_cons, List.not_mem_nil, or_false] at h
  unfold IsSep
  rcases h with rfl | rfl <;> simp

/-- What is the same about characters that are written differently. -/
theorem Spec.SameChar.props {a b : Char} (h : SameChar u d a b) :
    isWord u a = isWord u b ∧ isSpace u a = isSpace u b ∧ isWs a = isWs b ∧ (IsSep d a ↔ IsSep d b) ∧
    (isDigit a = true → a = b) ∧ isDigit a = isDigit b ∧ (isSpace u a = false → ¬ IsSep d a → foldChar u a = foldChar u b) ∧
    (∀ x ∈ [d.rangeSep, d.majorListSep, d.minorListSep], a = x → b = x) ∧
    (a ∈ [d.verseSepStd, d.verseSepAlt] → b ∈ [d.verseSepStd, d.verseSepAlt]) := by
  rcases h with rfl | ⟨h1, h2⟩ | ⟨h1, h2, h3, h4, h5⟩
  · exact ⟨rfl, rfl, rfl, Iff.rfl, fun _ => rfl, rfl, fun _ _ => rfl, fun _ _ h => h, id⟩
  · have g1 := verseSep_isSep h1
    have g2 := verseSep_isSep h2
    obtain ⟨p1, p2, p3, p4⟩ := IsSep.not_word hd g1
    obtain ⟨q1, q2, q3, q4⟩ := IsSep.not_word hd g2
    refine ⟨by rw [p1, q1], by rw [p2, q2], by rw [p3, q3], iff_of_true g1 g2, fun h => ?_, by rw [p4, q4], fun _ h => absurd g1 h, ?_, fun _ => h2⟩
    · rw [p4] at h; cases h
    · intro x hx hax
      subst hax
      exfalso
      have m1 := hd.range
      have m2 := hd.major
      have m3 := hd.minor
      simp only [List.mem_cons, List.not_mem_nil, or_false, not_or] at hx h1 m1 m2 m3
      rcases hx with hx | hx | hx <;> rcases h1 with h1 | h1 <;> simp_all
  · have n1 : ¬ IsSep d a := fun h => by rw [(IsSep.not_word hd h).1] at h1; cases h1
    have n2 : ¬ IsSep d b := fun h => by rw [(IsSep.not_word hd h).1] at h2; cases h2
    have s1 := isSpace_of_isWord h1
    have s2 := isSpace_of_isWord h2
    have w1 : isWs a = false := by
      cases hw : isWs a with
      | false => rfl
      | true => rw [isSpace_of_isWs (u := u) hw] at s1; cases s1
    have w2 : isWs b = false := by
      cases hw : isWs b with
      | false => rfl
      | true => rw [isSpace_of_isWs (u := u) hw] at s2; cases s2
    refine ⟨by rw [h1, h2], by rw [s1, s2], by rw [w1, w2], iff_of_false n1 n2, fun h => ?_, by rw [h3, h4], fun _ _ => h5, ?_, ?_⟩
    · rw [h3] at h; cases h
    · intro x hx hax
      subst hax
      exfalso
      apply n1
      unfold IsSep
      simp only [List.mem_cons, List.not_mem_nil, or_false] at hx ⊢
      rcases hx with hx | hx | hx <;> simp [hx]
    · intro hx
      exact absurd (verseSep_isSep hx) n1

omit hd in
theorem Spec.SameChar.symm {a b : Char} (h : SameChar u d a b) : SameChar u d b a := by
  rcases h with rfl | ⟨h1, h2⟩ | ⟨h1, h2, h3, h4, h5⟩
  · exact .inl rfl
  · exact .inr (.inl ⟨h2, h1⟩)
  · exact .inr (.inr ⟨h2, h1, h4, h3, h5.symm⟩)

theorem Spec.Respelt.symm {p : Prop} {s t : List Char} (h : Respelt u d p s t) : Respelt u d p t s := by
  induction h with
  | done h1 h2 => exact .done h2 h1
  | char h1 h2 h3 h4 h5 _ ih =>
    have hp := SameChar.props hd h5
    refine .char h2 h1 (by rw [← hp.2.2.1]; exact h3) ?_ h5.symm ?_
    · rcases h4 with h4 | h4 | h4
      · exact .inl h4
      · exact .inr (.inl (hp.2.2.2.1.mp h4))
      · exact .inr (.inr h4.symm)
    · rw [← propext hp.2.2.2.1]; exact ih

omit hd in
/-- The decomposition of a string into white space and what follows is unique. -/
theorem blank_unique {w w₁ s s₁ : List Char} {a a₁ : Char} (hw : Blank w) (hw₁ : Blank w₁) (ha : isWs a = false) (ha₁ : isWs a₁ = false)
    (h : w ++ a :: s = w₁ ++ a₁ :: s₁) : w = w₁ ∧ a = a₁ ∧ s = s₁ := by
  induction w generalizing w₁ with
  | nil =>
    cases w₁ with
    | nil => cases h; exact ⟨rfl, rfl, rfl⟩
    | cons c w₁ =>
      cases h
      rw [hw₁ _ List.mem_cons_self] at ha; cases ha
  | cons c w ih =>
    cases w₁ with
    | nil =>
      cases h
      rw [hw _ List.mem_cons_self] at ha₁; cases ha₁
    | cons c₁ w₁ =>
      injection h with h1 h2
      obtain ⟨h3, h4, h5⟩ := ih (fun x hx => hw x (List.mem_cons_of_mem _ hx)) (fun x hx => hw₁ x (List.mem_cons_of_mem _ hx)) h2
      exact ⟨by rw [h1, h3], h4, h5⟩

omit hd in
theorem not_blank {w s : List Char} {a : Char} (ha : isWs a = false) (h : Blank (w ++ a :: s)) : False := by
  have := h a (by simp)
  rw [ha] at this; cases this

omit hd in
/-- Finding the counterpart of a character. -/
theorem Spec.Respelt.next {p : Prop} {w s t : List Char} {a : Char} (h : Respelt u d p (w ++ a :: s) t) (hw : Blank w) (ha : isWs a = false) :
    ∃ w' b t', t = w' ++ b :: t' ∧ Blank w' ∧ (p ∨ IsSep d a ∨ (w = [] ↔ w' = [])) ∧ SameChar u d a b ∧ Respelt u d (IsSep d a) s t' := by
  generalize hx : w ++ a :: s = x at h
  cases h with
  | done h1 h2 => exact absurd (hx ▸ h1) (not_blank ha)
  | char h1 h2 h3 h4 h5 h6 =>
    obtain ⟨rfl, rfl, rfl⟩ := blank_unique hw h1 ha h3 hx
    exact ⟨_, _, _, rfl, h2, h4, h5, h6⟩

omit hd in
theorem Spec.Respelt.blank {p : Prop} {w t : List Char} (h : Respelt u d p w t) (hw : Blank w) : Blank t := by
  cases h with
  | done h1 h2 => exact h2
  | char h1 h2 h3 h4 h5 h6 => exact absurd hw (not_blank h3)

omit hd in
theorem isWs_digit {c : Char} (h : isDigit c = true) : isWs c = false := by
  cases hw : isWs c with
  | false => rfl
  | true =>
    have h1 := isSpace_of_isWs (u := ⟨fun _ => false, fun _ => false, id⟩) hw
    rw [isSpace_of_isWord (isWord_of_isDigit h)] at h1; cases h1

theorem digit_notSep {c : Char} (h : isDigit c = true) : ¬ IsSep d c := fun hs => by
  rw [(IsSep.not_word hd hs).2.2.2] at h; cases h

/-- Digits are written in one way only. -/
theorem Spec.Respelt.digits {ds rest t : List Char} (h : Respelt u d False (ds ++ rest) t) (hds : ∀ c ∈ ds, isDigit c = true) :
    ∃ rest', t = ds ++ rest' ∧ Respelt u d False rest rest' := by
  induction ds generalizing t with
  | nil => exact ⟨t, rfl, h⟩
  | cons c ds ih =>
    have hc := hds c List.mem_cons_self
    have hns := digit_notSep hd hc
    obtain ⟨w', b, t', rfl, h1, h2, h3, h4⟩ := Respelt.next (w := []) h (by simp [Blank]) (isWs_digit hc)
    have hw : w' = [] := by
      rcases h2 with h2 | h2 | h2
      · exact h2.elim
      · exact absurd h2 hns
      · exact h2.mp rfl
    subst hw
    have hb := (SameChar.props hd h3).2.2.2.2.1 hc
    subst hb
    rw [eq_false hns] at h4
    obtain ⟨rest', rfl, h5⟩ := ih h4 (fun x hx => hds x (List.mem_cons_of_mem _ hx))
    exact ⟨rest', rfl, h5⟩

theorem Spec.Respelt.no_digit {s t : List Char} (h : Respelt u d False s t) (hs : ∀ c, s.head? = some c → isDigit c = false) :
    ∀ c, t.head? = some c → isDigit c = false := by
  intro c hc
  cases hdc : isDigit c with
  | false => rfl
  | true =>
    cases t with
    | nil => cases hc
    | cons x t =>
      cases hc
      obtain ⟨w', b, t', rfl, h1, h2, h3, h4⟩ := Respelt.next (w := []) (h.symm hd) (by simp [Blank]) (isWs_digit hdc)
      have hw : w' = [] := by
        rcases h2 with h2 | h2 | h2
        · exact h2.elim
        · exact absurd h2 (digit_notSep hd hdc)
        · exact h2.mp rfl
      subst hw
      have := (SameChar.props hd h3).2.2.2.2.1 hdc
      subst this
      have := hs _ rfl
      rw [hdc] at this; cases this

/-- A number in a string and in another spelling of it. -/
theorem Spec.NumTok.respelt {p : Prop} {s s1 t rest : List Char} {n : Nat} (h : Respelt u d p s t) (hs : Skips s s1) (hn : NumTok s1 n rest) :
    ∃ t1 rest', Skips t t1 ∧ NumTok t1 n rest' ∧ Respelt u d False rest rest' := by
  obtain ⟨w, hw, rfl⟩ := hs
  obtain ⟨ds, hne, hds, rfl, hr, rfl⟩ := hn
  cases ds with
  | nil => exact absurd rfl hne
  | cons c ds =>
    have hc := hds c List.mem_cons_self
    obtain ⟨w', b, t', rfl, h1, h2, h3, h4⟩ := Respelt.next (w := w) (a := c) h hw (isWs_digit hc)
    have hb := (SameChar.props hd h3).2.2.2.2.1 hc
    subst hb
    rw [eq_false (digit_notSep hd hc)] at h4
    obtain ⟨rest', rfl, h5⟩ := h4.digits hd (fun x hx => hds x (List.mem_cons_of_mem _ hx))
    exact ⟨c :: (ds ++ rest'), rest', ⟨w', h1, rfl⟩, ⟨c :: ds, hne, hds, rfl, h5.no_digit hd hr, rfl⟩, h5⟩

/-- A separator in a string and in another spelling of it. -/
theorem sep_respelt {p : Prop} {s s1 t : List Char} {x : Char} (h : Respelt u d p s t) (hs : Skips s (x :: s1)) (hx : IsSep d x) :
    ∃ y t1, Skips t (y :: t1) ∧ SameChar u d x y ∧ Respelt u d True s1 t1 := by
  obtain ⟨w, hw, rfl⟩ := hs
  obtain ⟨w', b, t', rfl, h1, h2, h3, h4⟩ := Respelt.next h hw (IsSep.not_word hd hx).2.2.1
  rw [eq_true hx] at h4
  exact ⟨b, t', ⟨w', h1, rfl⟩, h3, h4⟩

omit hd in
theorem shape_blank {w : List Char} (hw : Blank w) (m : List Char) :
    shape u (w ++ m) = if w = [] then shape u m else none :: (shape u m).dropWhile (· = none) := by
  induction w with
  | nil => rfl
  | cons c w ih =>
    have hc : isSpace u c = true := isSpace_of_isWs (hw c List.mem_cons_self)
    have ih := ih fun x hx => hw x (List.mem_cons_of_mem _ hx)
    rw [List.cons_append, shape, if_pos hc, ih, if_neg (show ¬ (c :: w = []) by simp)]
    by_cases hn : w = []
    · rw [if_pos hn]
    · rw [if_neg hn, List.dropWhile_cons_of_pos (by simp)]
      congr 1
      generalize shape u m = l
      induction l with
      | nil => rfl
      | cons x l ih =>
        by_cases hx : x = none
        · rw [List.dropWhile_cons_of_pos (by simpa using hx)]; exact ih
        · rw [List.dropWhile_cons_of_neg (by simpa using hx), List.dropWhile_cons_of_neg (by simpa using hx)]

theorem shape_cons_same {a b : Char} {m m' : List Char} (h : SameChar u d a b) (hs : ¬ IsSep d a) (hm : shape u m = shape u m') :
    shape u (a :: m) = shape u (b :: m') := by
  have hp := SameChar.props hd h
  rw [shape, shape, hm, ← hp.2.1]
  cases hsp : isSpace u a with
  | true => rfl
  | false => rw [hp.2.2.2.2.2.2.1 hsp hs]

theorem word_or_space_notSep {c : Char} (h : isWord u c = true ∨ isSpace u c = true) : ¬ IsSep d c := fun hs => by
  have := IsSep.not_word hd hs
  rcases h with h | h
  · rw [this.1] at h; cases h
  · rw [this.2.1] at h; cases h

omit hd in
theorem isWs_of_not_space {c : Char} (h : isSpace u c = false) : isWs c = false := by
  cases hw : isWs c with
  | false => rfl
  | true => rw [isSpace_of_isWs (u := u) hw] at h; cases h

/-- The part of a name after its first character, in another spelling. -/
theorem Spec.Respelt.nameTail (n : Nat) {mid r t : List Char} {x : Char} (hn : mid.length ≤ n) (h : Respelt u d False (mid ++ x :: r) t)
    (hm : ∀ y ∈ mid, isWord u y = true ∨ isSpace u y = true) (hx : isSpace u x = false) (hs : ¬ IsSep d x) :
    ∃ mid' x' r', t = mid' ++ x' :: r' ∧ (∀ y ∈ mid', isWord u y = true ∨ isSpace u y = true) ∧ SameChar u d x x' ∧
      Respelt u d False r r' ∧ shape u (mid ++ [x]) = shape u (mid' ++ [x']) := by
  induction n generalizing mid t with
  | zero =>
    have : mid = [] := List.eq_nil_of_length_eq_zero (by omega)
    subst this
    obtain ⟨w', b, t', rfl, h1, h2, h3, h4⟩ := Respelt.next (w := []) h (by simp [Blank]) (isWs_of_not_space hx)
    have hw : w' = [] := by
      rcases h2 with h2 | h2 | h2
      · exact h2.elim
      · exact absurd h2 hs
      · exact h2.mp rfl
    subst hw
    rw [eq_false hs] at h4
    exact ⟨[], b, t', rfl, by simp, h3, h4, shape_cons_same hd h3 hs rfl⟩
  | succ n ih =>
    -- the white space at the beginning
    have hsplit : mid = mid.takeWhile isWs ++ mid.dropWhile isWs := List.takeWhile_append_dropWhile.symm
    have hblank : Blank (mid.takeWhile isWs) := fun c hc => by
      have := List.all_takeWhile (l := mid) (p := isWs)
      exact List.all_eq_true.mp this c hc
    cases hrest : mid.dropWhile isWs with
    | nil =>
      rw [hrest, List.append_nil] at hsplit
      rw [← hsplit] at hblank
      obtain ⟨w', b, t', rfl, h1, h2, h3, h4⟩ := Respelt.next h hblank (isWs_of_not_space hx)
      have hw : mid = [] ↔ w' = [] := by
        rcases h2 with h2 | h2 | h2
        · exact h2.elim
        · exact absurd h2 hs
        · exact h2
      rw [eq_false hs] at h4
      refine ⟨w', b, t', rfl, fun y hy => .inr (isSpace_of_isWs (h1 y hy)), h3, h4, ?_⟩
      rw [shape_blank hblank, shape_blank h1, shape_cons_same hd h3 hs (m' := []) rfl]
      by_cases hm : mid = []
      · rw [if_pos hm, if_pos (hw.mp hm)]
      · rw [if_neg hm, if_neg (fun hh => hm (hw.mpr hh))]
    | cons a mid1 =>
      have ha : isWs a = false := by
        have := List.head?_dropWhile_not isWs mid
        rw [hrest] at this
        simpa using this
      rw [hrest] at hsplit
      generalize mid.takeWhile isWs = w at hsplit hblank
      subst hsplit
      have hmem : isWord u a = true ∨ isSpace u a = true := hm a (by simp)
      have hns := word_or_space_notSep hd hmem
      rw [List.append_assoc, List.cons_append] at h
      obtain ⟨w', b, t', rfl, h1, h2, h3, h4⟩ := Respelt.next h hblank ha
      have hw : w = [] ↔ w' = [] := by
        rcases h2 with h2 | h2 | h2
        · exact h2.elim
        · exact absurd h2 hns
        · exact h2
      rw [eq_false hns] at h4
      obtain ⟨mid', x', r', rfl, g1, g2, g3, g4⟩ := ih (mid := mid1) (by rw [List.length_append, List.length_cons] at hn; omega) h4
        (fun y hy => hm y (by simp [hy]))
      have hp := SameChar.props hd h3
      refine ⟨w' ++ b :: mid', x', r', by simp, ?_, g2, g3, ?_⟩
      · intro y hy
        rcases List.mem_append.mp hy with hy | hy
        · exact .inr (isSpace_of_isWs (h1 y hy))
        · rcases List.mem_cons.mp hy with rfl | hy
          · rw [← hp.1, ← hp.2.1]; exact hmem
          · exact g1 y hy
      · rw [List.append_assoc, List.cons_append, List.append_assoc, List.cons_append, shape_blank hblank, shape_blank h1,
          shape_cons_same hd h3 hns g4]
        by_cases hm : w = []
        · rw [if_pos hm, if_pos (hw.mp hm)]
        · rw [if_neg hm, if_neg (fun hh => hm (hw.mpr hh))]

/-- A name in a string and in another spelling of it. -/
theorem Spec.NameTok.respelt {p : Prop} {s s1 t name rest : List Char} (h : Respelt u d p s t) (hs : Skips s s1) (hn : NameTok u d s1 name rest) :
    ∃ t1 name' rest', Skips t t1 ∧ NameTok u d t1 name' rest' ∧ Respelt u d False rest rest' ∧ shape u name = shape u name' := by
  obtain ⟨w, hw, rfl⟩ := hs
  obtain ⟨⟨c, mid, x, rfl, i1, i2, i3, i4, i5⟩, rfl, hmax⟩ := hn
  have hcs := word_or_space_notSep hd (.inl i1)
  have hlist : ∀ y, y ∈ [d.verseSepStd, d.verseSepAlt, d.majorListSep, d.minorListSep, d.rangeSep] ↔ IsSep d y := by
    intro y
    unfold IsSep
    simp only [List.mem_cons, List.not_mem_nil, or_false]
    constructor <;> rintro (hh | hh | hh | hh | hh) <;> simp [hh]
  rw [hlist] at i5
  have e1 : w ++ (c :: (mid ++ [x]) ++ rest) = w ++ c :: (mid ++ x :: rest) := by simp
  rw [e1] at h
  obtain ⟨w', b, t', rfl, h1, h2, h3, h4⟩ := Respelt.next h hw (isWs_of_not_space (isSpace_of_isWord i1))
  rw [eq_false hcs] at h4
  obtain ⟨mid', x', rest', rfl, g1, g2, g3, g4⟩ := Respelt.nameTail hd mid.length (Nat.le_refl _) h4 i2 i4 i5
  have hp := SameChar.props hd h3
  have hq := SameChar.props hd g2
  have hname : IsName u d (b :: (mid' ++ [x'])) := by
    refine ⟨b, mid', x', rfl, by rw [← hp.1]; exact i1, g1, by rw [← hq.2.2.2.2.2.1]; exact i3, by rw [← hq.2.1]; exact i4, ?_⟩
    rw [hlist, ← hq.2.2.2.1]; exact i5
  refine ⟨b :: (mid' ++ x' :: rest'), b :: (mid' ++ [x']), rest', ⟨w', h1, rfl⟩, ⟨hname, by simp, ?_⟩, g3, ?_⟩
  · rintro name2 rest2 ⟨c2, mid2, x2, rfl, j1, j2, j3, j4, j5⟩ heq
    simp only [List.cons_append, List.append_assoc, List.nil_append, List.cons.injEq] at heq
    obtain ⟨rfl, heq⟩ := heq
    simp only [List.length_cons, List.length_append, List.length_nil]
    apply Classical.byContradiction
    intro hlt
    -- the longer name goes on in the rest
    obtain ⟨m3, rfl, hrest⟩ : ∃ m3, mid2 = mid' ++ x' :: m3 ∧ rest' = m3 ++ x2 :: rest2 := by
      rcases List.append_eq_append_iff.mp heq with ⟨as, k1, k2⟩ | ⟨as, k1, k2⟩
      · cases as with
        | nil => rw [List.append_nil] at k1; subst k1; omega
        | cons y as =>
          simp only [List.cons_append, List.cons.injEq] at k2
          exact ⟨as, by rw [k1, k2.1], k2.2⟩
      · exfalso
        rw [k1, List.length_append] at hlt
        omega
    subst hrest
    rw [hlist] at j5
    have hx' : isWord u x' = true := by
      rcases j2 x' (by simp) with hh | hh
      · exact hh
      · rw [← hq.2.1, i4] at hh; cases hh
    obtain ⟨m4, x4, r4, rfl, k1, k2, _, _⟩ := Respelt.nameTail hd m3.length (Nat.le_refl _) (g3.symm hd)
      (fun y hy => j2 y (by simp [hy])) j4 j5
    have hr := SameChar.props hd k2
    have := hmax (c :: ((mid ++ x :: m4) ++ [x4])) r4 ⟨c, mid ++ x :: m4, x4, rfl, i1, ?_, by rw [← hr.2.2.2.2.2.1]; exact j3,
      by rw [← hr.2.1]; exact j4, by rw [hlist, ← hr.2.2.2.1]; exact j5⟩ (by simp)
    · simp only [List.length_cons, List.length_append, List.length_nil] at this
      omega
    · intro y hy
      rcases List.mem_append.mp hy with hy | hy
      · exact i2 y hy
      · rcases List.mem_cons.mp hy with rfl | hy
        · left; rw [hq.1]; exact hx'
        · exact k1 y hy
  · exact shape_cons_same hd h3 hcs g4

/-- References that differ only in the spelling of names. -/
def LikeSingle (u : Uni) : Single → Single → Prop
  | .book n, .book n' => shape u n = shape u n'
  | .bookNum n k, .bookNum n' k' => shape u n = shape u n' ∧ k = k'
  | .bookChapVerse n c v, .bookChapVerse n' c' v' => shape u n = shape u n' ∧ c = c' ∧ v = v'
  | .chapVerse c v, .chapVerse c' v' => c = c' ∧ v = v'
  | .num k, .num k' => k = k'
  | _, _ => False

def LikeRef (u : Uni) : Ref → Ref → Prop
  | .single a, .single b => LikeSingle u a b
  | .dual a a', .dual b b' => LikeSingle u a b ∧ LikeSingle u a' b'
  | _, _ => False

def LikeRest (u : Uni) : List (Bool × Ref) → List (Bool × Ref) → Prop
  | [], [] => True
  | (m, r) :: l, (m', r') :: l' => m = m' ∧ LikeRef u r r' ∧ LikeRest u l l'
  | _, _ => False

theorem Spec.SingleRule.respelt {p : Prop} {s t rest : List Char} {a : Single} (h : Respelt u d p s t) (hr : SingleRule u d s a rest) :
    ∃ b rest', SingleRule u d t b rest' ∧ LikeSingle u a b ∧ Respelt u d False rest rest' := by
  cases hr with
  | book h1 h2 =>
    obtain ⟨t1, name', rest', g1, g2, g3, g4⟩ := NameTok.respelt hd h h1 h2
    exact ⟨_, _, .book g1 g2, g4, g3⟩
  | bookNum h1 h2 h3 h4 =>
    obtain ⟨t1, name', rest', g1, g2, g3, g4⟩ := NameTok.respelt hd h h1 h2
    obtain ⟨t2, r2, k1, k2, k3⟩ := NumTok.respelt hd g3 h3 h4
    exact ⟨_, _, .bookNum g1 g2 k1 k2, ⟨g4, rfl⟩, k3⟩
  | bookChapVerse h1 h2 h3 h4 h5 h6 h7 h8 =>
    obtain ⟨t1, name', rest', g1, g2, g3, g4⟩ := NameTok.respelt hd h h1 h2
    obtain ⟨t2, r2, k1, k2, k3⟩ := NumTok.respelt hd g3 h3 h4
    have hv := (show _ ∈ [d.verseSepStd, d.verseSepAlt] by simpa using h6)
    obtain ⟨y, t3, l1, l2, l3⟩ := sep_respelt hd k3 h5 (verseSep_isSep hv)
    obtain ⟨t4, r4, m1, m2, m3⟩ := NumTok.respelt hd l3 h7 h8
    have hy := (SameChar.props hd l2).2.2.2.2.2.2.2.2 hv
    exact ⟨_, _, .bookChapVerse g1 g2 k1 k2 l1 (by simpa using hy) m1 m2, ⟨g4, rfl, rfl⟩, m3⟩
  | chapVerse h3 h4 h5 h6 h7 h8 =>
    obtain ⟨t2, r2, k1, k2, k3⟩ := NumTok.respelt hd h h3 h4
    have hv := (show _ ∈ [d.verseSepStd, d.verseSepAlt] by simpa using h6)
    obtain ⟨y, t3, l1, l2, l3⟩ := sep_respelt hd k3 h5 (verseSep_isSep hv)
    obtain ⟨t4, r4, m1, m2, m3⟩ := NumTok.respelt hd l3 h7 h8
    have hy := (SameChar.props hd l2).2.2.2.2.2.2.2.2 hv
    exact ⟨_, _, .chapVerse k1 k2 l1 (by simpa using hy) m1 m2, ⟨rfl, rfl⟩, m3⟩
  | num h3 h4 =>
    obtain ⟨t2, r2, k1, k2, k3⟩ := NumTok.respelt hd h h3 h4
    exact ⟨_, _, .num k1 k2, rfl, k3⟩

theorem Spec.RefRule.respelt {p : Prop} {s t rest : List Char} {a : Ref} (h : Respelt u d p s t) (hr : RefRule u d s a rest) :
    ∃ b rest', RefRule u d t b rest' ∧ LikeRef u a b ∧ Respelt u d False rest rest' := by
  cases hr with
  | single h1 =>
    obtain ⟨b, rest', g1, g2, g3⟩ := SingleRule.respelt hd h h1
    exact ⟨.single b, rest', .single g1, g2, g3⟩
  | dual h1 h2 h3 =>
    obtain ⟨b, rest', g1, g2, g3⟩ := SingleRule.respelt hd h h1
    obtain ⟨y, t3, l1, l2, l3⟩ := sep_respelt hd g3 h2 (by simp [IsSep])
    have hy := (SameChar.props hd l2).2.2.2.2.2.2.2.1 d.rangeSep (by simp) rfl
    subst hy
    obtain ⟨b', rest2, k1, k2, k3⟩ := SingleRule.respelt hd l3 h3
    exact ⟨.dual b b', rest2, .dual g1 l1 k1, ⟨g2, k2⟩, k3⟩

theorem listSep_respelt {m : Bool} {y : Char} (h : SameChar u d (listSep d m) y) : y = listSep d m := by
  refine (SameChar.props hd h).2.2.2.2.2.2.2.1 (listSep d m) ?_ rfl
  unfold listSep
  cases m <;> simp

omit hd in
theorem listSep_isSep (m : Bool) : IsSep d (listSep d m) := by
  unfold listSep IsSep
  cases m <;> simp

theorem Spec.RestRule.respelt {s t : List Char} {l : List (Bool × Ref)} {x : Option Bool} (h : Respelt u d False s t)
    (hr : RestRule u d s l x) : ∃ l', RestRule u d t l' x ∧ LikeRest u l l' := by
  induction hr generalizing t with
  | done h1 =>
    obtain ⟨w, hw, h1⟩ := h1
    rw [List.append_nil] at h1
    subst h1
    exact ⟨[], .done ⟨t, h.blank hw, by simp⟩, trivial⟩
  | trailing h1 h2 =>
    obtain ⟨y, t3, l1, l2, l3⟩ := sep_respelt hd h h1 (listSep_isSep _)
    have := listSep_respelt hd l2
    subst this
    obtain ⟨w, hw, h2⟩ := h2
    rw [List.append_nil] at h2
    subst h2
    exact ⟨[], .trailing l1 ⟨t3, l3.blank hw, by simp⟩, trivial⟩
  | cons h1 h2 _ ih =>
    obtain ⟨y, t3, l1, l2, l3⟩ := sep_respelt hd h h1 (listSep_isSep _)
    have := listSep_respelt hd l2
    subst this
    obtain ⟨b, rest', g1, g2, g3⟩ := RefRule.respelt hd l3 h2
    obtain ⟨l', k1, k2⟩ := ih g3
    exact ⟨(_, b) :: l', .cons l1 g1 k1, rfl, g2, k2⟩

theorem Spec.ListRule.respelt {s t : List Char} {x : Tree} (h : Respelt u d True s t) (hr : ListRule u d s x) :
    ∃ y, ListRule u d t y ∧ LikeRef u x.first y.first ∧ LikeRest u x.rest y.rest ∧ x.trailing = y.trailing := by
  obtain ⟨s1, h1, h2⟩ := hr
  obtain ⟨b, rest', g1, g2, g3⟩ := RefRule.respelt hd h h1
  obtain ⟨l', k1, k2⟩ := RestRule.respelt hd g3 h2
  exact ⟨⟨b, l', x.trailing⟩, ⟨rest', g1, k1⟩, g2, k2, rfl⟩

end

/-- A name is recognised by its shape. -/
theorem fromStr_shape {u : Uni} {d : BibleData} (hn : ∀ b n, d.nameData b = some n → PlainNames n) {s t : List Char}
    (h : shape u s = shape u t) : BibleBook.fromStr u d s = BibleBook.fromStr u d t := by
  unfold BibleBook.fromStr
  congr 1
  funext b
  cases hb : d.nameData b with
  | none => simp only [BibleBook.matchesName, hb]
  | some n =>
    rw [Bool.eq_iff_iff, matchesName_iff hb (hn b n hb), matchesName_iff hb (hn b n hb), shape_strip, shape_strip, h]

section
variable {u : Uni} {e : Env} (hn : ∀ b n, e.data.nameData b = some n → PlainNames n)
include hn

theorem evalSingle_like {f : BibleFlag} {a b : Single} (h : LikeSingle u a b) : evalSingle u e f a = evalSingle u e f b := by
  have key : ∀ {x y : List Char}, shape u x = shape u y → nameCallback u e.data x = nameCallback u e.data y := by
    intro x y hxy
    unfold nameCallback
    rw [fromStr_shape hn hxy]
  cases a <;> cases b <;> first | exact h.elim | skip
  · simp only [evalSingle, key h]
  · obtain ⟨h1, rfl⟩ := h; simp only [evalSingle, key h1]
  · obtain ⟨h1, rfl, rfl⟩ := h; simp only [evalSingle, key h1]
  · obtain ⟨rfl, rfl⟩ := h; rfl
  · cases h; rfl

theorem evalRef_like {f : BibleFlag} {a b : Ref} (h : LikeRef u a b) : evalRef u e f a = evalRef u e f b := by
  cases a <;> cases b <;> first | exact h.elim | skip
  · exact evalSingle_like hn h
  · simp only [evalRef, evalSingle_like hn h.1, evalSingle_like hn h.2]

theorem evalRest_like {f : BibleFlag} {a b : List (Bool × Ref)} (h : LikeRest u a b) : evalRest u e f a = evalRest u e f b := by
  induction a generalizing b with
  | nil => cases b with
    | nil => rfl
    | cons y b => exact h.elim
  | cons x a ih =>
    cases b with
    | nil => exact h.elim
    | cons y b =>
      obtain ⟨m, r⟩ := x
      obtain ⟨m', r'⟩ := y
      obtain ⟨rfl, h2, h3⟩ := h
      simp only [evalRest, evalRef_like hn h2, ih h3]

theorem parse_respelt (hd : PlainSeps u e.data) {flags : Option BibleFlag} {s t : List Char} (h : Respelt u e.data True s t) :
    parse u e flags s = parse u e flags t := by
  unfold parse
  cases hs : parseTree u e.data s with
  | none =>
    cases ht : parseTree u e.data t with
    | none => rfl
    | some y =>
      obtain ⟨x, hx, _⟩ := ListRule.respelt hd (h.symm hd) (tree_sound ht)
      rw [tree_complete hd hx] at hs; cases hs
  | some x =>
    obtain ⟨y, hy, h1, h2, h3⟩ := ListRule.respelt hd h (tree_sound hs)
    rw [tree_complete hd hy]
    simp only [evalTree, evalRef_like hn h1, evalRest_like hn h2, h3]

end

/-- C73: strings that differ only in letter case, in the verse separators used, and in white space around separators, at the ends
and in its amount elsewhere mean the same: making a list, a range or a verse from them has the same outcome, and leaves the parser
in the same state. -/
theorem C73_spelling (u : Uni) (e : Env) (hd : PlainSeps u e.data) (hn : ∀ b n, e.data.nameData b = some n → PlainNames n)
    (s t : List Char) (h : Respelt u e.data True s t) (flags : Option BibleFlag) (st : PState) :
    RangeList.ofStr u e flags s st = RangeList.ofStr u e flags t st ∧ BibleRange.ofStr u e flags s st = BibleRange.ofStr u e flags t st ∧
    BibleVerse.ofStr u e flags s st = BibleVerse.ofStr u e flags t st := by
  have hl : ∀ fl, RangeList.ofStr u e fl s = RangeList.ofStr u e fl t := by
    intro fl
    unfold RangeList.ofStr
    rw [parse_respelt hn hd h]
  refine ⟨by rw [hl], ?_, ?_⟩
  · unfold BibleRange.ofStr; rw [hl]
  · unfold BibleVerse.ofStr; rw [hl]

theorem respelt_map {u : Uni} {d : BibleData} {f : Char → Char} (hf : ∀ c, isWs c = false → SameChar u d c (f c)) (hw : ∀ c, isWs c = true → f c = c)
    (p : Prop) (s : List Char) : Respelt u d p s (s.map f) := by
  have key : ∀ n, ∀ s : List Char, s.length ≤ n → ∀ p, Respelt u d p s (s.map f) := by
    intro n
    induction n with
    | zero =>
      intro s hs p
      have : s = [] := List.eq_nil_of_length_eq_zero (by omega)
      subst this
      exact .done (by simp [Blank]) (by simp [Blank])
    | succ n ih =>
      intro s hs p
      have hsplit : s = s.takeWhile isWs ++ s.dropWhile isWs := List.takeWhile_append_dropWhile.symm
      have hblank : Blank (s.takeWhile isWs) := fun c hc => List.all_eq_true.mp (List.all_takeWhile (l := s) (p := isWs)) c hc
      have hmap : ∀ w : List Char, Blank w → w.map f = w := by
        intro w hw'
        have : w.map f = w.map id := List.map_congr_left fun c hc => hw c (hw' c hc)
        rw [this, List.map_id]
      cases hrest : s.dropWhile isWs with
      | nil =>
        rw [hrest, List.append_nil] at hsplit
        rw [← hsplit] at hblank
        rw [hmap s hblank]
        exact .done hblank hblank
      | cons a s1 =>
        have ha : isWs a = false := by
          have := List.head?_dropWhile_not isWs s
          rw [hrest] at this
          simpa using this
        rw [hrest] at hsplit
        generalize s.takeWhile isWs = w at hsplit hblank
        subst hsplit
        rw [List.map_append, List.map_cons, hmap w hblank]
        refine .char hblank hblank ha (.inr (.inr Iff.rfl)) (hf a ha) (ih s1 ?_ _)
        rw [List.length_append, List.length_cons] at hs
        omega
  exact key s.length s (Nat.le_refl _) p

theorem Spec.Respelt.refl (u : Uni) (d : BibleData) (p : Prop) (s : List Char) : Respelt u d p s s := by
  have := respelt_map (u := u) (d := d) (f := id) (fun _ _ => .inl rfl) (fun _ _ => rfl) p s
  rwa [List.map_id] at this

theorem Spec.Respelt.before {u : Uni} {d : BibleData} {w s t : List Char} (h : Respelt u d True s t) (hw : Blank w) :
    Respelt u d True (w ++ s) t := by
  have happ : ∀ w₁, Blank w₁ → Blank (w ++ w₁) := fun w₁ h₁ c hc => (List.mem_append.mp hc).elim (hw c) (h₁ c)
  generalize hp : True = p at h
  cases h with
  | done h1 h2 => exact .done (happ _ h1) h2
  | char h1 h2 h3 h4 h5 h6 =>
    rw [← List.append_assoc]
    exact .char (happ _ h1) h2 h3 (.inl (hp ▸ trivial)) h5 h6

theorem Spec.Respelt.after {u : Uni} {d : BibleData} {p : Prop} {w s t : List Char} (h : Respelt u d p s t) (hw : Blank w) :
    Respelt u d p (s ++ w) t := by
  induction h with
  | done h1 h2 => exact .done (fun c hc => (List.mem_append.mp hc).elim (h1 c) (hw c)) h2
  | char h1 h2 h3 h4 h5 _ ih =>
    rw [List.append_assoc, List.cons_append]
    exact .char h1 h2 h3 h4 h5 ih

/-- " 1  JOHN 2.3 - 4" and "1 John 2:3-4 " are two ways of writing the same reference. -/
example : Respelt exampleUni defaultData True [' ', '1', ' ', ' ', 'J', 'O', 'H', 'N', ' ', '2', '.', '3', ' ', '-', ' ', '4']
      ['1', ' ', 'J', 'o', 'h', 'n', ' ', '2', ':', '3', '-', '4', ' '] ∧
    PlainSeps exampleUni defaultData ∧ (∀ b n, defaultData.nameData b = some n → PlainNames n) ∧
    (RangeList.ofStr exampleUni ⟨defaultData, .none⟩ none "1 John 2:3-4 ".toList .init).1 = .ok [[⟨⟨.IJn, 2, 3⟩, ⟨.IJn, 2, 4⟩⟩]] := by
  refine ⟨?_, default_plainSeps _, ?_, by decide +kernel⟩
  · refine .char (w := [' ']) (w' := []) (by decide) (by decide) (by decide) (by decide) (by decide +kernel) ?_
    refine .char (w := [' ', ' ']) (w' := [' ']) (by decide) (by decide) (by decide) (by decide) (by decide +kernel) ?_
    refine .char (w := []) (w' := []) (by decide) (by decide) (by decide) (by decide) (by decide +kernel) ?_
    refine .char (w := []) (w' := []) (by decide) (by decide) (by decide) (by decide) (by decide +kernel) ?_
    refine .char (w := []) (w' := []) (by decide) (by decide) (by decide) (by decide) (by decide +kernel) ?_
    refine .char (w := [' ']) (w' := [' ']) (by decide) (by decide) (by decide) (by decide) (by decide +kernel) ?_
    refine .char (w := []) (w' := []) (by decide) (by decide) (by decide) (by decide) (by decide +kernel) ?_
    refine .char (w := []) (w' := []) (by decide) (by decide) (by decide) (by decide) (by decide +kernel) ?_
    refine .char (w := [' ']) (w' := []) (by decide) (by decide) (by decide) (by decide) (by decide +kernel) ?_
    refine .char (w := [' ']) (w' := []) (by decide) (by decide) (by decide) (by decide) (by decide +kernel) ?_
    exact .done (w := []) (w' := [' ']) (by decide) (by decide)
  · intro b n hn
    obtain ⟨n', hn', hp, _⟩ := defaultNames b
    have : defaultNameData b = some n := hn
    rw [hn'] at this
    cases this
    exact hp

/-- C73, letter case: a string means the same in small letters. -/
theorem C73_case (u : Uni) (e : Env) (hd : PlainSeps u e.data) (hn : ∀ b n, e.data.nameData b = some n → PlainNames n)
    (s : List Char) (flags : Option BibleFlag) (st : PState) :
    RangeList.ofStr u e flags (s.map lower) st = RangeList.ofStr u e flags s st := by
  refine ((C73_spelling u e hd hn s (s.map lower) (respelt_map ?_ ?_ _ s) flags st).1).symm
  · intro c _
    by_cases hc : isUpper c = true
    · right; right
      have h1 : (lower c).toNat = c.toNat + 32 := by
        unfold lower
        rw [if_pos hc]
        simp only [isUpper, Bool.and_eq_true, decide_eq_true_eq] at hc
        have hv : (c.toNat + 32).isValidChar := .inl (by omega)
        unfold Char.ofNat
        rw [dif_pos hv]
        show (UInt32.ofNatLT (c.toNat + 32) _).toNat = _
        rfl
      simp only [isUpper, Bool.and_eq_true, decide_eq_true_eq] at hc
      refine ⟨?_, ?_, ?_, ?_, ?_⟩
      · unfold isWord; rw [if_pos (by omega)]; simp [isUpper, hc]
      · unfold isWord; rw [if_pos (by omega)]
        have : isLower (lower c) = true := by simp only [isLower, h1, Bool.and_eq_true, decide_eq_true_eq]; omega
        simp [this]
      · simp only [isDigit, Bool.and_eq_false_iff, decide_eq_false_iff_not]; omega
      · simp only [isDigit, h1, Bool.and_eq_false_iff, decide_eq_false_iff_not]; omega
      · unfold foldChar
        rw [if_pos (by omega), if_pos (by omega)]
        have : isUpper (lower c) = false := by simp only [isUpper, h1, Bool.and_eq_false_iff, decide_eq_false_iff_not]; omega
        have h2 : ∀ x, isUpper x = false → lower x = x := fun x hx => by unfold lower; rw [if_neg (by rw [hx]; decide)]
        rw [h2 (lower c) this]
    · left; unfold lower; rw [if_neg hc]
  · intro c hc
    unfold lower
    rw [if_neg]
    simp only [isWs, Bool.or_eq_true, decide_eq_true_eq] at hc
    rcases hc with (((rfl | rfl) | rfl) | rfl) | rfl <;> decide

/-- C73, verse separators: a string means the same with the standard separator in place of the alternative one. -/
theorem C73_verse_separator (u : Uni) (e : Env) (hd : PlainSeps u e.data) (hn : ∀ b n, e.data.nameData b = some n → PlainNames n)
    (s : List Char) (flags : Option BibleFlag) (st : PState) :
    RangeList.ofStr u e flags (s.map fun c => if c = e.data.verseSepAlt then e.data.verseSepStd else c) st = RangeList.ofStr u e flags s st := by
  refine ((C73_spelling u e hd hn s _ (respelt_map ?_ ?_ _ s) flags st).1).symm
  · intro c _
    by_cases hc : c = e.data.verseSepAlt
    · right; left; rw [if_pos hc]; simp [hc]
    · left; rw [if_neg hc]
  · intro c hc
    rw [if_neg]
    rintro rfl
    have := (IsSep.not_word hd (show IsSep e.data e.data.verseSepAlt by simp [IsSep])).2.2.1
    rw [this] at hc; cases hc

/-- C73, white space at the ends. -/
theorem C73_ends (u : Uni) (e : Env) (hd : PlainSeps u e.data) (hn : ∀ b n, e.data.nameData b = some n → PlainNames n)
    (w s w' : List Char) (hw : Blank w) (hw' : Blank w') (flags : Option BibleFlag) (st : PState) :
    RangeList.ofStr u e flags (w ++ s ++ w') st = RangeList.ofStr u e flags s st :=
  (C73_spelling u e hd hn _ s (((Respelt.refl u e.data True s).before hw).after hw') flags st).1

/-- C73, white space beside a separator. -/
theorem C73_separators (u : Uni) (e : Env) (hd : PlainSeps u e.data) (hn : ∀ b n, e.data.nameData b = some n → PlainNames n)
    (s t w w' : List Char) (hw : Blank w) (hw' : Blank w') (c : Char) (hc : IsSep e.data c) (flags : Option BibleFlag) (st : PState) :
    RangeList.ofStr u e flags (s ++ w ++ c :: (w' ++ t)) st = RangeList.ofStr u e flags (s ++ c :: t) st := by
  refine (C73_spelling u e hd hn _ _ ?_ flags st).1
  rw [List.append_assoc]
  have key : ∀ n, ∀ s : List Char, s.length ≤ n → ∀ p, Respelt u e.data p (s ++ (w ++ c :: (w' ++ t))) (s ++ c :: t) := by
    have last : ∀ w₀, Blank w₀ → ∀ p, Respelt u e.data p (w₀ ++ (w ++ c :: (w' ++ t))) (w₀ ++ c :: t) := by
      intro w₀ h₀ p
      rw [← List.append_assoc]
      refine .char (fun x hx => (List.mem_append.mp hx).elim (h₀ x) (hw x)) h₀ (IsSep.not_word hd hc).2.2.1 (.inr (.inl hc)) (.inl rfl) ?_
      rw [eq_true hc]
      exact (Respelt.refl u e.data True t).before hw'
    intro n
    induction n with
    | zero =>
      intro s hs p
      have : s = [] := List.eq_nil_of_length_eq_zero (by omega)
      subst this
      exact last [] (by simp [Blank]) p
    | succ n ih =>
      intro s hs p
      have hsplit : s = s.takeWhile isWs ++ s.dropWhile isWs := List.takeWhile_append_dropWhile.symm
      have hblank : Blank (s.takeWhile isWs) := fun c hc => List.all_eq_true.mp (List.all_takeWhile (l := s) (p := isWs)) c hc
      cases hrest : s.dropWhile isWs with
      | nil =>
        rw [hrest, List.append_nil] at hsplit
        rw [← hsplit] at hblank
        exact last s hblank p
      | cons a s1 =>
        have ha : isWs a = false := by
          have := List.head?_dropWhile_not isWs s
          rw [hrest] at this
          simpa using this
        rw [hrest] at hsplit
        generalize s.takeWhile isWs = w₀ at hsplit hblank
        subst hsplit
        rw [List.append_assoc, List.append_assoc, List.cons_append, List.cons_append]
        refine .char hblank hblank ha (.inr (.inr Iff.rfl)) (.inl rfl) (ih s1 ?_ _)
        rw [List.length_append, List.length_cons] at hs
        omega
  exact key s.length s (Nat.le_refl _) True

end Bibleref

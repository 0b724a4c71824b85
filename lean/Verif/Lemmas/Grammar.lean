import Verif.SpecText

/-!
# The parser finds exactly the derivations of the grammar
-/

namespace Bibleref
open Spec

variable {u : Uni} {d : BibleData}

/-! ## Characters -/

theorem isWs_space {c : Char} (h : isWs c = true) : isSpace u c = true := by
  simp only [isWs, Bool.or_eq_true, decide_eq_true_eq] at h
  rcases h with (((h | h) | h) | h) | h <;> subst h <;> rfl

theorem isDigit_lt {c : Char} (h : isDigit c = true) : c.toNat < 128 := by
  simp only [isDigit, Bool.and_eq_true, decide_eq_true_eq] at h
  omega

theorem isDigit_word {c : Char} (h : isDigit c = true) : isWord u c = true := by
  unfold isWord
  rw [if_pos (isDigit_lt h)]
  simp [h]

theorem isWord_space {c : Char} (h : isWord u c = true) : isSpace u c = false := by
  unfold isWord at h
  unfold isSpace
  by_cases hc : c.toNat < 128
  · rw [if_pos hc] at h ⊢
    simp only [isDigit, isUpper, isLower, Bool.or_eq_true, Bool.and_eq_true, decide_eq_true_eq] at h
    have h' : 48 ≤ c.toNat := by
      rcases h with ((h | h) | h) | h
      · omega
      · omega
      · omega
      · subst h; decide
    simp only [Bool.or_eq_false_iff, Bool.and_eq_false_iff, decide_eq_false_iff_not]
    omega
  · rw [if_neg hc] at h ⊢
    simp only [Bool.and_eq_true, Bool.not_eq_true'] at h
    exact h.2

theorem isWord_ws {c : Char} (h : isWord u c = true) : isWs c = false := by
  cases hw : isWs c with
  | false => rfl
  | true => exact absurd (isWs_space (u := u) hw) (by rw [isWord_space h]; simp)

theorem isDigit_ws {c : Char} (h : isDigit c = true) : isWs c = false := isWord_ws (u := ⟨fun _ => true, fun _ => true, id⟩) (isDigit_word h)

/-! ## White space -/

theorem skips_self (s : List Char) : Skips s s := ⟨[], by simp, rfl⟩

theorem skips_skipWs (s : List Char) : Skips s (skipWs s) :=
  ⟨s.takeWhile isWs, fun c hc => List.all_eq_true.1 List.all_takeWhile c hc, (List.takeWhile_append_dropWhile).symm⟩

theorem skipWs_append {w s : List Char} (h : ∀ c ∈ w, isWs c = true) : skipWs (w ++ s) = skipWs s := by
  unfold skipWs
  induction w with
  | nil => rfl
  | cons c w ih => 
    rw [List.cons_append, List.dropWhile_cons_of_pos (h c (by simp))]
    exact ih fun x hx => h x (by simp [hx])

theorem skipWs_cons {c : Char} {s : List Char} (h : isWs c = false) : skipWs (c :: s) = c :: s :=
  List.dropWhile_cons_of_neg (by simp [h])

theorem Spec.Skips.skipWs_eq {s s' : List Char} (h : Skips s s') : skipWs s = skipWs s' := by
  obtain ⟨w, hw, rfl⟩ := h
  exact skipWs_append hw

theorem Spec.Skips.cons {s : List Char} {c : Char} {s' : List Char} (h : Skips s (c :: s')) (hc : isWs c = false) :
    skipWs s = c :: s' := by rw [h.skipWs_eq, skipWs_cons hc]

theorem Spec.Skips.length {s s' : List Char} (h : Skips s s') : s'.length ≤ s.length := by
  obtain ⟨w, _, rfl⟩ := h
  simp

/-! ## Numbers -/

theorem lexNum_iff {s : List Char} {n : Nat} {rest : List Char} : lexNum s = some (n, rest) ↔ NumTok s n rest := by
  unfold lexNum
  constructor
  · intro h
    split at h
    · cases h
    · rename_i hne
      cases h
      refine ⟨s.takeWhile isDigit, by simpa using hne, fun c hc => List.all_eq_true.1 List.all_takeWhile c hc,
        List.takeWhile_append_dropWhile.symm, ?_, rfl⟩
      intro c hc
      have := List.head?_dropWhile_not (p := isDigit) (l := s)
      rw [hc] at this
      simpa using this
  · rintro ⟨ds, hne, hds, rfl, hr, rfl⟩
    have h1 : (ds ++ rest).takeWhile isDigit = ds := by
      rw [List.takeWhile_append_of_pos hds]
      cases rest with
      | nil => simp
      | cons c r => rw [List.takeWhile_cons_of_neg (by simp [hr c rfl])]; simp
    have h2 : (ds ++ rest).dropWhile isDigit = rest := by
      rw [List.dropWhile_append_of_pos hds]
      cases rest with
      | nil => rfl
      | cons c r => rw [List.dropWhile_cons_of_neg (by simp [hr c rfl])]
    rw [h1, h2]
    simp [hne]

theorem lexNum_none {c : Char} {s : List Char} (h : isDigit c = false) : lexNum (c :: s) = none := by
  unfold lexNum
  rw [List.takeWhile_cons_of_neg (by simp [h])]
  rfl

theorem Spec.NumTok.head {s : List Char} {n : Nat} {rest : List Char} (h : NumTok s n rest) :
    ∃ c s', s = c :: s' ∧ isDigit c = true := by
  obtain ⟨ds, hne, hds, rfl, _, _⟩ := h
  cases ds with
  | nil => exact absurd rfl hne
  | cons c ds => exact ⟨c, ds ++ rest, rfl, hds c (by simp)⟩

theorem Spec.NumTok.length {s : List Char} {n : Nat} {rest : List Char} (h : NumTok s n rest) : rest.length ≤ s.length := by
  obtain ⟨ds, hne, hds, rfl, _, _⟩ := h
  simp

/-! ## Names -/

theorem isNameEnd_iff {c : Char} : isNameEnd u d c = true ↔ isDigit c = false ∧ isSpace u c = false ∧
    c ∉ [d.verseSepStd, d.verseSepAlt, d.majorListSep, d.minorListSep, d.rangeSep] := by
  unfold isNameEnd
  simp only [Bool.and_eq_true, Bool.not_eq_true', decide_eq_true_eq, List.mem_cons, List.not_mem_nil, or_false, not_or]
  grind

/-- What comes after the first character of a name. -/
def IsTail (u : Uni) (d : BibleData) (name : List Char) : Prop :=
  ∃ mid x, name = mid ++ [x] ∧ (∀ y ∈ mid, isWord u y = true ∨ isSpace u y = true) ∧ isNameEnd u d x = true

theorem isName_cons {c : Char} {s : List Char} : IsName u d (c :: s) ↔ isWord u c = true ∧ IsTail u d s := by
  unfold IsName IsTail
  constructor
  · rintro ⟨c', mid, x, h, hc, hm, hx⟩
    cases h
    exact ⟨hc, mid, x, rfl, hm, isNameEnd_iff.2 hx⟩
  · rintro ⟨hc, mid, x, rfl, hm, hx⟩
    exact ⟨c, mid, x, rfl, hc, hm, isNameEnd_iff.1 hx⟩

theorem isTail_one {x : Char} : IsTail u d [x] ↔ isNameEnd u d x = true := by
  constructor
  · rintro ⟨mid, y, h, _, hy⟩
    cases mid with
    | nil => cases h; exact hy
    | cons a m => simp at h
  · intro h; exact ⟨[], x, rfl, by simp, h⟩

theorem isTail_cons {c y : Char} {s : List Char} :
    IsTail u d (c :: y :: s) ↔ (isWord u c = true ∨ isSpace u c = true) ∧ IsTail u d (y :: s) := by
  constructor
  · rintro ⟨mid, x, h, hm, hx⟩
    cases mid with
    | nil => simp at h
    | cons a m =>
      simp only [List.cons_append, List.cons.injEq] at h
      obtain ⟨rfl, h⟩ := h
      exact ⟨hm _ (by simp), m, x, h, fun z hz => hm z (by simp [hz]), hx⟩
  · rintro ⟨hc, mid, x, h, hm, hx⟩
    refine ⟨c :: mid, x, by rw [h]; rfl, ?_, hx⟩
    intro z hz
    rcases List.mem_cons.1 hz with rfl | hz
    · exact hc
    · exact hm z hz

theorem not_isTail_nil : ¬ IsTail u d [] := by
  rintro ⟨mid, x, h, _⟩
  simp at h

/-- `lexNameTail` finds the longest one. -/
theorem lexNameTail_spec (s : List Char) : match lexNameTail u d s with
    | none => ∀ t rest, s = t ++ rest → ¬ IsTail u d t
    | some (t, rest) => IsTail u d t ∧ s = t ++ rest ∧ ∀ t' rest', s = t' ++ rest' → IsTail u d t' → t'.length ≤ t.length := by
  induction s with
  | nil =>
    intro t rest h
    simp at h
    rw [h.1]
    exact not_isTail_nil
  | cons c s ih =>
    unfold lexNameTail
    by_cases hw : isWord u c = true ∨ isSpace u c = true
    · have hw' : (isWord u c || isSpace u c) = true := by simpa using hw
      simp only [hw', if_true]
      cases hl : lexNameTail u d s with
      | some p =>
        obtain ⟨t, rest⟩ := p
        rw [hl] at ih
        obtain ⟨h1, h2, h3⟩ := ih
        refine ⟨?_, by simp [h2], ?_⟩
        · cases t with
          | nil => exact absurd h1 not_isTail_nil
          | cons y t => exact isTail_cons.2 ⟨hw, h1⟩
        · intro t' rest' h ht'
          cases t' with
          | nil => simp
          | cons y t' =>
            simp only [List.cons_append, List.cons.injEq] at h
            cases t' with
            | nil => simp
            | cons z t' =>
              have := h3 _ _ h.2 (isTail_cons.1 ht').2
              simpa using this
      | none =>
        rw [hl] at ih
        have hno : ∀ y t' rest', c :: s = y :: t' ++ rest' → IsTail u d (y :: t') → t' = [] := by
          intro y t' rest' h ht'
          simp only [List.cons_append, List.cons.injEq] at h
          cases t' with
          | nil => rfl
          | cons z t' => exact absurd (isTail_cons.1 ht').2 (ih _ _ h.2)
        by_cases he : isNameEnd u d c = true
        · simp only [he, if_true]
          refine ⟨isTail_one.2 he, rfl, ?_⟩
          intro t' rest' h ht'
          cases t' with
          | nil => simp
          | cons y t' => rw [hno y t' rest' h ht']; simp
        · simp only [he]
          intro t rest h ht
          cases t with
          | nil => exact not_isTail_nil ht
          | cons y t =>
            have := hno y t rest h ht
            subst this
            simp only [List.cons_append, List.nil_append, List.cons.injEq] at h
            rw [← h.1] at ht
            exact he (isTail_one.1 ht)
    · have hw' : (isWord u c || isSpace u c) = false := by simpa using hw
      simp only [hw']
      have hno : ∀ y t' rest', c :: s = y :: t' ++ rest' → IsTail u d (y :: t') → t' = [] := by
        intro y t' rest' h ht'
        simp only [List.cons_append, List.cons.injEq] at h
        cases t' with
        | nil => rfl
        | cons z t' => exact absurd (h.1 ▸ (isTail_cons.1 ht').1) hw
      by_cases he : isNameEnd u d c = true
      · simp only [he, if_true]
        refine ⟨isTail_one.2 he, rfl, ?_⟩
        intro t' rest' h ht'
        cases t' with
        | nil => simp
        | cons y t' => rw [hno y t' rest' h ht']; simp
      · simp only [he]
        intro t rest h ht
        cases t with
        | nil => exact not_isTail_nil ht
        | cons y t =>
          have := hno y t rest h ht
          subst this
          simp only [List.cons_append, List.nil_append, List.cons.injEq] at h
          rw [← h.1] at ht
          exact he (isTail_one.1 ht)

theorem nameTok_unique {s name rest name' rest' : List Char} (h : NameTok u d s name rest) (h' : NameTok u d s name' rest') :
    name = name' ∧ rest = rest' := by
  have hl : name.length = name'.length := Nat.le_antisymm (h'.2.2 _ _ h.1 h.2.1) (h.2.2 _ _ h'.1 h'.2.1)
  have := h.2.1.symm.trans h'.2.1
  exact List.append_inj this hl

theorem lexName_some {s name rest : List Char} (h : lexName u d s = some (name, rest)) : NameTok u d s name rest := by
  cases s with
  | nil => cases h
  | cons c s =>
    unfold lexName at h
    by_cases hc : isWord u c = true
    · simp only [hc, if_true] at h
      have hs := lexNameTail_spec (u := u) (d := d) s
      cases hl : lexNameTail u d s with
      | none => rw [hl] at h; cases h
      | some p =>
        obtain ⟨t, r⟩ := p
        rw [hl] at h hs
        cases h
        refine ⟨isName_cons.2 ⟨hc, hs.1⟩, by simp [hs.2.1], ?_⟩
        intro name' rest' hn hs'
        cases name' with
        | nil => simp
        | cons y n' =>
          simp only [List.cons_append, List.cons.injEq] at hs'
          have := hs.2.2 n' rest' hs'.2 (isName_cons.1 hn).2
          simpa using this
    · simp only [hc] at h
      cases h

theorem lexName_none {s : List Char} (h : lexName u d s = none) (name rest : List Char) : ¬ NameTok u d s name rest := by
  rintro ⟨h1, rfl, _⟩
  cases name with
  | nil => obtain ⟨c, mid, x, h, _⟩ := h1; cases h
  | cons c n =>
    obtain ⟨hc, ht⟩ := isName_cons.1 h1
    rw [List.cons_append] at h
    unfold lexName at h
    simp only [hc, if_true] at h
    have hs := lexNameTail_spec (u := u) (d := d) (n ++ rest)
    cases hl : lexNameTail u d (n ++ rest) with
    | none => rw [hl] at hs; exact hs _ _ rfl ht
    | some p => rw [hl] at h; cases h

theorem lexName_iff {s name rest : List Char} : lexName u d s = some (name, rest) ↔ NameTok u d s name rest := by
  constructor
  · exact lexName_some
  · intro h
    cases hl : lexName u d s with
    | none => exact absurd h (lexName_none hl _ _)
    | some p =>
      obtain ⟨n, r⟩ := p
      obtain ⟨rfl, rfl⟩ := nameTok_unique (lexName_some hl) h
      rfl

theorem Spec.NameTok.head {s name rest : List Char} (h : NameTok u d s name rest) : ∃ c s', s = c :: s' ∧ isWord u c = true := by
  obtain ⟨⟨c, mid, x, rfl, hc, _⟩, rfl, _⟩ := h
  exact ⟨c, mid ++ [x] ++ rest, rfl, hc⟩

theorem Spec.NameTok.length {s name rest : List Char} (h : NameTok u d s name rest) : rest.length ≤ s.length := by
  rw [h.2.1]; simp

theorem lexNameTail_stop {s : List Char} (hs : s = [] ∨ ∃ c t, s = c :: t ∧ isWord u c = false ∧ isSpace u c = false ∧
    isNameEnd u d c = false) : ∀ w : List Char, (∀ c ∈ w, isDigit c = true ∨ isSpace u c = true) →
    lexNameTail u d (w ++ s) = none := by
  have h0 : lexNameTail u d s = none := by
    rcases hs with rfl | ⟨c, t, rfl, h1, h2, h3⟩
    · rfl
    · unfold lexNameTail; simp [h1, h2, h3]
  intro w
  induction w with
  | nil => intro _; exact h0
  | cons c w ih =>
    intro hw
    have he : isNameEnd u d c = false := by
      cases hh : isNameEnd u d c with
      | false => rfl
      | true =>
        have := isNameEnd_iff.1 hh
        rcases hw c (by simp) with h | h
        · rw [h] at this; simp at this
        · rw [h] at this; simp at this
    rw [List.cons_append]
    unfold lexNameTail
    rw [ih fun x hx => hw x (by simp [hx])]
    simp [he]

/-! ## References -/

/-- What may come after a single reference. -/
def RefEnd (d : BibleData) (s : List Char) : Prop := skipWs s = [] ∨ ∃ c t, skipWs s = c :: t ∧
  c ∈ [d.rangeSep, d.majorListSep, d.minorListSep]

/-- What may come after one or two references. -/
def ListEnd (d : BibleData) (s : List Char) : Prop := skipWs s = [] ∨ ∃ c t, skipWs s = c :: t ∧
  c ∈ [d.majorListSep, d.minorListSep]

theorem ListEnd.refEnd {s : List Char} (h : ListEnd d s) : RefEnd d s := by
  rcases h with h | ⟨c, t, h, hc⟩
  · exact .inl h
  · exact .inr ⟨c, t, h, List.mem_cons_of_mem _ hc⟩

theorem skipWs_idem (s : List Char) : skipWs (skipWs s) = skipWs s := ((skips_skipWs s).skipWs_eq).symm

section
variable (hd : PlainSeps u d)
include hd

theorem sep_plain {c : Char} (hc : c ∈ [d.rangeSep, d.majorListSep, d.minorListSep, d.verseSepStd, d.verseSepAlt]) :
    isWord u c = false ∧ isSpace u c = false ∧ isDigit c = false ∧ isWs c = false ∧ isNameEnd u d c = false := by
  obtain ⟨h1, h2⟩ := hd.plain c hc
  refine ⟨h1, h2, ?_, ?_, ?_⟩
  · cases h : isDigit c with
    | false => rfl
    | true => rw [isDigit_word h] at h1; cases h1
  · cases h : isWs c with
    | false => rfl
    | true => rw [isWs_space h] at h2; cases h2
  · cases h : isNameEnd u d c with
    | false => rfl
    | true =>
      have := (isNameEnd_iff.1 h).2.2
      exfalso
      apply this
      simp only [List.mem_cons, List.not_mem_nil, or_false] at hc ⊢
      grind

/-- A number, and after it a separator or the end, is not taken for a name. -/
theorem lexName_num {s : List Char} {n : Nat} {rest : List Char} (h : NumTok s n rest)
    (hr : skipWs rest = [] ∨ ∃ c t, skipWs rest = c :: t ∧
      c ∈ [d.rangeSep, d.majorListSep, d.minorListSep, d.verseSepStd, d.verseSepAlt]) : lexName u d s = none := by
  obtain ⟨ds, hne, hds, rfl, _, _⟩ := h
  obtain ⟨w, hw, hrw⟩ := skips_skipWs rest
  cases ds with
  | nil => exact absurd rfl hne
  | cons c ds =>
    have := lexNameTail_stop (u := u) (d := d) (s := skipWs rest) (by
      rcases hr with h | ⟨c, t, h, hc⟩
      · exact .inl h
      · obtain ⟨h1, h2, _, _, h5⟩ := sep_plain hd hc
        exact .inr ⟨c, t, h, h1, h2, h5⟩) (ds ++ w) (by
      intro x hx
      rcases List.mem_append.1 hx with hx | hx
      · exact .inl (hds x (by simp [hx]))
      · exact .inr (isWs_space (hw x hx)))
    rw [List.append_assoc, ← hrw] at this
    rw [List.cons_append]
    unfold lexName
    simp only [this]
    simp

theorem lexNum_end {s : List Char} (h : RefEnd d s) : lexNum (skipWs s) = none := by
  rcases h with h | ⟨c, t, h, hc⟩
  · rw [h]; rfl
  · rw [h]; exact lexNum_none (sep_plain hd (by simp only [List.mem_cons, List.not_mem_nil, or_false] at hc ⊢; grind)).2.2.1

theorem parseVerse_end {s : List Char} (h : RefEnd d s) : parseVerse d s = some (none, s) := by
  have : lexChar (isVerseSep d) (skipWs s) = none := by
    rcases h with h | ⟨c, t, h, hc⟩
    · rw [h]; rfl
    · rw [h]
      have : isVerseSep d c = false := by
        have h1 := hd.range
        have h2 := hd.major
        have h3 := hd.minor
        unfold isVerseSep
        simp only [List.mem_cons, List.not_mem_nil, or_false, not_or] at hc h1 h2 h3
        simp only [Bool.or_eq_false_iff, decide_eq_false_iff_not]
        grind
      simp [lexChar, this]
  unfold parseVerse
  rw [this]

theorem parseVerse_some {s : List Char} {x : Char} {s5 s6 : List Char} {v : Nat} {rest : List Char} (h1 : Skips s (x :: s5))
    (hx : x = d.verseSepStd ∨ x = d.verseSepAlt) (h2 : Skips s5 s6) (h3 : NumTok s6 v rest) :
    parseVerse d s = some (some v, rest) := by
  have hm : x ∈ [d.rangeSep, d.majorListSep, d.minorListSep, d.verseSepStd, d.verseSepAlt] := by
    simp only [List.mem_cons, List.not_mem_nil, or_false]; grind
  have hp : isVerseSep d x = true := by
    unfold isVerseSep
    simp only [Bool.or_eq_true, decide_eq_true_eq]
    exact hx
  obtain ⟨c, s', rfl, hc⟩ := h3.head
  unfold parseVerse
  rw [h1.cons (sep_plain hd hm).2.2.2.1]
  simp only [lexChar, hp, if_true]
  rw [h2.cons (isDigit_ws hc), lexNum_iff.2 h3]
  rfl

theorem single_complete {s : List Char} {a : Single} {rest : List Char} (h : SingleRule u d s a rest) (hr : RefEnd d rest) :
    parseSingle u d s = some (a, rest) := by
  have hr' : skipWs rest = [] ∨ ∃ c t, skipWs rest = c :: t ∧
      c ∈ [d.rangeSep, d.majorListSep, d.minorListSep, d.verseSepStd, d.verseSepAlt] := by
    rcases hr with h | ⟨c, t, h, hc⟩
    · exact .inl h
    · exact .inr ⟨c, t, h, by simp only [List.mem_cons, List.not_mem_nil, or_false] at hc ⊢; grind⟩
  cases h with
  | book h1 h2 =>
    obtain ⟨c, s', rfl, hc⟩ := h2.head
    unfold parseSingle
    rw [h1.cons (isWord_ws hc), lexName_iff.2 h2]
    simp only
    rw [lexNum_end hd hr]
  | bookNum h1 h2 h3 h4 =>
    obtain ⟨c, s', rfl, hc⟩ := h2.head
    obtain ⟨c', s'', rfl, hc'⟩ := h4.head
    unfold parseSingle
    rw [h1.cons (isWord_ws hc), lexName_iff.2 h2]
    simp only
    rw [h3.cons (isDigit_ws hc'), lexNum_iff.2 h4]
    simp only
    rw [parseVerse_end hd hr]
    rfl
  | bookChapVerse h1 h2 h3 h4 h5 hx h6 h7 =>
    obtain ⟨c, s', rfl, hc⟩ := h2.head
    obtain ⟨c', s'', rfl, hc'⟩ := h4.head
    unfold parseSingle
    rw [h1.cons (isWord_ws hc), lexName_iff.2 h2]
    simp only
    rw [h3.cons (isDigit_ws hc'), lexNum_iff.2 h4]
    simp only
    rw [parseVerse_some hd h5 hx h6 h7]
    rfl
  | chapVerse h3 h4 h5 hx h6 h7 =>
    obtain ⟨c', s'', rfl, hc'⟩ := h4.head
    have hm : ∀ x, x = d.verseSepStd ∨ x = d.verseSepAlt →
        x ∈ [d.rangeSep, d.majorListSep, d.minorListSep, d.verseSepStd, d.verseSepAlt] := by
      intro x hx; simp only [List.mem_cons, List.not_mem_nil, or_false]; grind
    have hn := lexName_num hd h4 (.inr ⟨_, _, h5.cons (sep_plain hd (hm _ hx)).2.2.2.1, hm _ hx⟩)
    unfold parseSingle
    rw [h3.cons (isDigit_ws hc'), hn, lexNum_iff.2 h4]
    simp only
    rw [parseVerse_some hd h5 hx h6 h7]
    rfl
  | num h3 h4 =>
    obtain ⟨c', s'', rfl, hc'⟩ := h4.head
    unfold parseSingle
    rw [h3.cons (isDigit_ws hc'), lexName_num hd h4 hr', lexNum_iff.2 h4]
    simp only
    rw [parseVerse_end hd hr]
    rfl

theorem ref_complete {s : List Char} {a : Ref} {rest : List Char} (h : RefRule u d s a rest) (hr : ListEnd d rest) :
    parseRef u d s = some (a, rest) := by
  cases h with
  | single h1 =>
    unfold parseRef
    rw [single_complete hd h1 hr.refEnd]
    simp only
    have : lexChar (fun x => decide (x = d.rangeSep)) (skipWs rest) = none := by
      rcases hr with h | ⟨c, t, h, hc⟩
      · rw [h]; rfl
      · rw [h]
        have h1 := hd.range
        have : c ≠ d.rangeSep := by
          simp only [List.mem_cons, List.not_mem_nil, or_false, not_or] at hc h1
          grind
        simp [lexChar, this]
    rw [this]
  | dual h1 h2 h3 =>
    have hs := h2.cons (sep_plain hd (by simp)).2.2.2.1
    unfold parseRef
    rw [single_complete hd h1 (.inr ⟨_, _, hs, by simp⟩)]
    simp only
    rw [hs]
    simp only [lexChar, decide_true, if_true]
    rw [single_complete hd h3 hr.refEnd]
    rfl

omit hd in
theorem single_length {s : List Char} {a : Single} {rest : List Char} (h : SingleRule u d s a rest) :
    rest.length ≤ s.length ∧ skipWs s ≠ [] := by
  cases h with
  | book h1 h2 =>
    have := h1.length; have := h2.length
    obtain ⟨c, s', rfl, hc⟩ := h2.head
    exact ⟨by omega, by rw [h1.cons (isWord_ws hc)]; simp⟩
  | bookNum h1 h2 h3 h4 =>
    have := h1.length; have := h2.length; have := h3.length; have := h4.length
    obtain ⟨c, s', rfl, hc⟩ := h2.head
    exact ⟨by omega, by rw [h1.cons (isWord_ws hc)]; simp⟩
  | bookChapVerse h1 h2 h3 h4 h5 hx h6 h7 =>
    have := h1.length; have := h2.length; have := h3.length; have := h4.length
    have := h5.length; have := h6.length; have := h7.length
    obtain ⟨c, s', rfl, hc⟩ := h2.head
    simp only [List.length_cons] at *
    exact ⟨by omega, by rw [h1.cons (isWord_ws hc)]; simp⟩
  | chapVerse h3 h4 h5 hx h6 h7 =>
    have := h3.length; have := h4.length
    have := h5.length; have := h6.length; have := h7.length
    obtain ⟨c, s', rfl, hc⟩ := h4.head
    simp only [List.length_cons] at *
    exact ⟨by omega, by rw [h3.cons (isDigit_ws hc)]; simp⟩
  | num h3 h4 =>
    have := h3.length; have := h4.length
    obtain ⟨c, s', rfl, hc⟩ := h4.head
    exact ⟨by omega, by rw [h3.cons (isDigit_ws hc)]; simp⟩

omit hd in
theorem ref_length {s : List Char} {a : Ref} {rest : List Char} (h : RefRule u d s a rest) :
    rest.length ≤ s.length ∧ skipWs s ≠ [] := by
  cases h with
  | single h1 => exact single_length h1
  | dual h1 h2 h3 =>
    have := (single_length h1).1; have := h2.length; have := (single_length h3).1
    simp only [List.length_cons] at *
    exact ⟨by omega, (single_length h1).2⟩

omit hd in
theorem listSep_mem (m : Bool) : listSep d m ∈ [d.rangeSep, d.majorListSep, d.minorListSep, d.verseSepStd, d.verseSepAlt] ∧
    listSep d m ∈ [d.majorListSep, d.minorListSep] := by
  cases m <;> simp [listSep]

theorem rest_listEnd {s : List Char} {l : List (Bool × Ref)} {t : Option Bool} (h : RestRule u d s l t) : ListEnd d s := by
  cases h with
  | done h => exact .inl (by rw [h.skipWs_eq]; rfl)
  | trailing h _ => exact .inr ⟨_, _, h.cons (sep_plain hd (listSep_mem _).1).2.2.2.1, (listSep_mem _).2⟩
  | cons h _ _ => exact .inr ⟨_, _, h.cons (sep_plain hd (listSep_mem _).1).2.2.2.1, (listSep_mem _).2⟩

theorem lexListSep_sep (m : Bool) (s : List Char) : lexListSep d (listSep d m :: s) = some (m, s) := by
  have h2 := hd.major
  simp only [List.mem_cons, List.not_mem_nil, or_false, not_or] at h2
  cases m with
  | true => simp [lexListSep, listSep, lexChar]
  | false => simp [lexListSep, listSep, lexChar, Ne.symm h2.1]

theorem rest_complete {s : List Char} {l : List (Bool × Ref)} {t : Option Bool} (h : RestRule u d s l t) :
    ∀ fuel, s.length ≤ fuel → parseRest u d fuel s = some (l, t) := by
  induction h with
  | done h =>
    intro fuel _
    unfold parseRest
    rw [h.skipWs_eq]
    rfl
  | @trailing s m s1 h h' =>
    intro fuel hf
    have hs := h.cons (sep_plain hd (listSep_mem _).1).2.2.2.1
    have := h.length
    simp only [List.length_cons] at this
    obtain ⟨fuel, rfl⟩ : ∃ k, fuel = k + 1 := ⟨fuel - 1, by omega⟩
    unfold parseRest
    rw [hs]
    simp only
    rw [lexListSep_sep hd]
    simp only
    rw [h'.skipWs_eq]
    rfl
  | @cons s m s1 r s2 l t h h1 h2 ih =>
    intro fuel hf
    have hs := h.cons (sep_plain hd (listSep_mem _).1).2.2.2.1
    have := h.length
    have := (ref_length h1).1
    simp only [List.length_cons] at *
    obtain ⟨fuel, rfl⟩ : ∃ k, fuel = k + 1 := ⟨fuel - 1, by omega⟩
    unfold parseRest
    rw [hs]
    simp only
    rw [lexListSep_sep hd]
    simp only
    cases hk : skipWs s1 with
    | nil => exact absurd hk (ref_length h1).2
    | cons c s' =>
      simp only
      rw [ref_complete hd h1 (rest_listEnd hd h2)]
      simp only
      rw [ih fuel (by omega)]
      rfl

theorem tree_complete {s : List Char} {t : Tree} (h : ListRule u d s t) : parseTree u d s = some t := by
  obtain ⟨s1, h1, h2⟩ := h
  unfold parseTree
  rw [ref_complete hd h1 (rest_listEnd hd h2)]
  simp only
  rw [rest_complete hd h2 _ (Nat.le_refl _)]
  rfl

end

/-! ## What is found is a derivation -/

theorem parseVerse_sound {s : List Char} {v : Option Nat} {rest : List Char} (h : parseVerse d s = some (v, rest)) :
    match v with
    | none => rest = s
    | some v => ∃ x s5 s6, Skips s (x :: s5) ∧ (x = d.verseSepStd ∨ x = d.verseSepAlt) ∧ Skips s5 s6 ∧ NumTok s6 v rest := by
  unfold parseVerse at h
  have hsk := skips_skipWs s
  cases hs : skipWs s with
  | nil => rw [hs] at h; cases h; exact rfl
  | cons x s5 =>
    rw [hs] at h hsk
    by_cases hx : isVerseSep d x = true
    · simp only [lexChar, hx, if_true] at h
      cases hl : lexNum (skipWs s5) with
      | none => rw [hl] at h; cases h
      | some p =>
        obtain ⟨n, r⟩ := p
        rw [hl] at h
        cases h
        refine ⟨x, s5, skipWs s5, hsk, ?_, skips_skipWs s5, lexNum_iff.1 hl⟩
        simpa [isVerseSep] using hx
    · simp only [lexChar, hx] at h
      cases h
      exact rfl

theorem single_sound {s : List Char} {a : Single} {rest : List Char} (h : parseSingle u d s = some (a, rest)) :
    SingleRule u d s a rest := by
  unfold parseSingle at h
  cases hn : lexName u d (skipWs s) with
  | some p =>
    obtain ⟨name, s2⟩ := p
    rw [hn] at h
    simp only at h
    have h2 := lexName_iff.1 hn
    cases hl : lexNum (skipWs s2) with
    | none =>
      rw [hl] at h
      cases h
      exact .book (skips_skipWs s) h2
    | some p =>
      obtain ⟨n, s4⟩ := p
      rw [hl] at h
      simp only at h
      have h4 := lexNum_iff.1 hl
      cases hv : parseVerse d s4 with
      | none => rw [hv] at h; cases h
      | some p =>
        obtain ⟨v, r⟩ := p
        have hs := parseVerse_sound hv
        rw [hv] at h
        cases v with
        | none =>
          cases h
          simp only at hs
          subst hs
          exact .bookNum (skips_skipWs s) h2 (skips_skipWs s2) h4
        | some v =>
          cases h
          obtain ⟨x, s5, s6, h5, hx, h6, h7⟩ := hs
          exact .bookChapVerse (skips_skipWs s) h2 (skips_skipWs s2) h4 h5 hx h6 h7
  | none =>
    rw [hn] at h
    simp only at h
    cases hl : lexNum (skipWs s) with
    | none => rw [hl] at h; cases h
    | some p =>
      obtain ⟨n, s4⟩ := p
      rw [hl] at h
      simp only at h
      have h4 := lexNum_iff.1 hl
      cases hv : parseVerse d s4 with
      | none => rw [hv] at h; cases h
      | some p =>
        obtain ⟨v, r⟩ := p
        have hs := parseVerse_sound hv
        rw [hv] at h
        cases v with
        | none =>
          cases h
          simp only at hs
          subst hs
          exact .num (skips_skipWs s) h4
        | some v =>
          cases h
          obtain ⟨x, s5, s6, h5, hx, h6, h7⟩ := hs
          exact .chapVerse (skips_skipWs s) h4 h5 hx h6 h7

theorem ref_sound {s : List Char} {a : Ref} {rest : List Char} (h : parseRef u d s = some (a, rest)) : RefRule u d s a rest := by
  unfold parseRef at h
  cases ha : parseSingle u d s with
  | none => rw [ha] at h; cases h
  | some p =>
    obtain ⟨x, s1⟩ := p
    rw [ha] at h
    simp only at h
    have h1 := single_sound ha
    have hsk := skips_skipWs s1
    cases hs : skipWs s1 with
    | nil => rw [hs] at h; cases h; exact .single h1
    | cons c s2 =>
      rw [hs] at h hsk
      by_cases hc : c = d.rangeSep
      · simp only [lexChar, hc, decide_true, if_true] at h
        cases hb : parseSingle u d s2 with
        | none => rw [hb] at h; cases h
        | some p =>
          obtain ⟨y, r⟩ := p
          rw [hb] at h
          cases h
          exact .dual h1 (hc ▸ hsk) (single_sound hb)
      · simp only [lexChar, hc, decide_false] at h
        cases h
        exact .single h1

theorem lexListSep_sound {s : List Char} {m : Bool} {rest : List Char} (h : lexListSep d s = some (m, rest)) :
    s = listSep d m :: rest := by
  cases s with
  | nil => cases h
  | cons c s =>
    unfold lexListSep at h
    simp only [lexChar] at h
    by_cases h1 : c = d.majorListSep
    · simp only [h1, decide_true, if_true] at h
      cases h
      rw [h1]; rfl
    · simp only [h1, decide_false] at h
      by_cases h2 : c = d.minorListSep
      · simp only [h2, decide_true, if_true] at h
        cases h
        rw [h2]; rfl
      · simp [h2] at h

theorem rest_sound (fuel : Nat) (s : List Char) (l : List (Bool × Ref)) (t : Option Bool)
    (h : parseRest u d fuel s = some (l, t)) : RestRule u d s l t := by
  induction fuel generalizing s l t with
  | zero =>
    unfold parseRest at h
    have hsk := skips_skipWs s
    cases hs : skipWs s with
    | nil => rw [hs] at h hsk; cases h; exact .done hsk
    | cons c s1 =>
      rw [hs] at h
      simp only at h
      cases hl : lexListSep d (c :: s1) with
      | none => rw [hl] at h; cases h
      | some p => rw [hl] at h; cases h
  | succ fuel ih =>
    unfold parseRest at h
    have hsk := skips_skipWs s
    cases hs : skipWs s with
    | nil => rw [hs] at h hsk; cases h; exact .done hsk
    | cons c s1 =>
      rw [hs] at h hsk
      simp only at h
      cases hl : lexListSep d (c :: s1) with
      | none => rw [hl] at h; cases h
      | some p =>
        obtain ⟨m, s2⟩ := p
        rw [hl] at h
        simp only at h
        rw [lexListSep_sound hl] at hsk
        have hsk2 := skips_skipWs s2
        cases hs2 : skipWs s2 with
        | nil =>
          rw [hs2] at h hsk2
          cases h
          exact .trailing hsk hsk2
        | cons c' s3 =>
          rw [hs2] at h
          simp only at h
          cases hr : parseRef u d s2 with
          | none => rw [hr] at h; cases h
          | some p =>
            obtain ⟨r, s4⟩ := p
            rw [hr] at h
            simp only at h
            cases hk : parseRest u d fuel s4 with
            | none => rw [hk] at h; cases h
            | some p =>
              obtain ⟨l', t'⟩ := p
              rw [hk] at h
              cases h
              exact .cons hsk (ref_sound hr) (ih _ _ _ hk)

theorem tree_sound {s : List Char} {t : Tree} (h : parseTree u d s = some t) : ListRule u d s t := by
  unfold parseTree at h
  cases hr : parseRef u d s with
  | none => rw [hr] at h; cases h
  | some p =>
    obtain ⟨r, s1⟩ := p
    rw [hr] at h
    simp only at h
    cases hk : parseRest u d s1.length s1 with
    | none => rw [hk] at h; cases h
    | some p =>
      obtain ⟨l, t'⟩ := p
      rw [hk] at h
      cases h
      exact ⟨s1, ref_sound hr, rest_sound _ _ _ _ hk⟩

end Bibleref

import Verif.Lemmas.Grammar
import Verif.Lemmas.Basic

/-!
# The texts that `str` makes, and how they are read
-/

namespace Bibleref
open Spec

variable {u : Uni} {d : BibleData}

/-! ## Numbers -/

theorem digitsVal_append (s : List Char) (c : Char) : digitsVal (s ++ [c]) = 10 * digitsVal s + digitVal c := by
  simp [digitsVal]

theorem digitChar (n : Nat) (h : n < 10) : isDigit (Char.ofNat (48 + n)) = true ∧ digitVal (Char.ofNat (48 + n)) = n := by
  have : ∀ n : Fin 10, isDigit (Char.ofNat (48 + n.val)) = true ∧ digitVal (Char.ofNat (48 + n.val)) = n.val := by decide
  exact this ⟨n, h⟩

theorem digitsRev_spec (fuel n : Nat) (h : n < fuel) : digitsRev fuel n ≠ [] ∧ (∀ c ∈ digitsRev fuel n, isDigit c = true) ∧
    digitsVal (digitsRev fuel n).reverse = n := by
  induction fuel generalizing n with
  | zero => omega
  | succ fuel ih =>
    have hd := digitChar (n % 10) (by omega)
    unfold digitsRev
    by_cases h0 : n / 10 = 0
    · rw [if_pos h0]
      refine ⟨by simp, ?_, ?_⟩
      · intro c hc
        rw [List.mem_singleton.1 hc]; exact hd.1
      · have : digitsVal [Char.ofNat (48 + n % 10)] = digitVal (Char.ofNat (48 + n % 10)) := by simp [digitsVal]
        rw [List.reverse_singleton, this, hd.2]; omega
    · rw [if_neg h0]
      have := ih (n / 10) (by omega)
      refine ⟨by simp, ?_, ?_⟩
      · intro c hc
        rcases List.mem_cons.1 hc with rfl | hc
        · exact hd.1
        · exact this.2.1 c hc
      · rw [List.reverse_cons, digitsVal_append, this.2.2, hd.2]; omega

theorem natStr_spec (n : Nat) : natStr n ≠ [] ∧ (∀ c ∈ natStr n, isDigit c = true) ∧ digitsVal (natStr n) = n := by
  obtain ⟨h1, h2, h3⟩ := digitsRev_spec (n + 1) n (by omega)
  refine ⟨by simpa [natStr] using h1, fun c hc => h2 c (by simpa [natStr] using hc), h3⟩

theorem intStr_natStr {n : Int} (h : 0 ≤ n) : intStr n = natStr n.toNat := by
  unfold intStr
  rw [if_neg (by omega)]
  congr 1
  omega

theorem numTok_natStr (n : Nat) {rest : List Char} (hr : ∀ c, rest.head? = some c → isDigit c = false) :
    NumTok (natStr n ++ rest) n rest :=
  ⟨natStr n, (natStr_spec n).1, (natStr_spec n).2.1, rfl, hr, (natStr_spec n).2.2.symm⟩

/-! ## Stripping -/

/-- No white space at either end. -/
def Clean (u : Uni) (s : List Char) : Prop :=
  (∀ c, s.head? = some c → isSpace u c = false) ∧ (∀ c, s.getLast? = some c → isSpace u c = false)

theorem dropWhile_head {s : List Char} (h : ∀ c, s.head? = some c → isSpace u c = false) : s.dropWhile (isSpace u) = s := by
  cases s with
  | nil => rfl
  | cons c s => exact List.dropWhile_cons_of_neg (by simp [h c rfl])

theorem strip_clean {s : List Char} (h : Clean u s) : strip u s = s := by
  unfold strip
  rw [dropWhile_head h.1, dropWhile_head (s := s.reverse), List.reverse_reverse]
  intro c hc
  rw [List.head?_reverse] at hc
  exact h.2 c hc

theorem strip_blank_cons (s : List Char) : strip u (' ' :: s) = strip u s := by
  unfold strip
  rw [List.dropWhile_cons_of_pos (by rfl)]

theorem strip_blank_append {s : List Char} (h : Clean u s) : strip u (s ++ [' ']) = s := by
  cases s with
  | nil => rfl
  | cons c s =>
    unfold strip
    rw [dropWhile_head (s := c :: s ++ [' ']) (fun x hx => h.1 x (by simpa using hx)), List.reverse_append]
    rw [show [' '].reverse ++ (c :: s).reverse = ' ' :: (c :: s).reverse from rfl, List.dropWhile_cons_of_pos (by rfl)]
    rw [dropWhile_head (s := (c :: s).reverse), List.reverse_reverse]
    intro c hc
    rw [List.head?_reverse] at hc
    exact h.2 c hc

theorem clean_nil : Clean u [] := ⟨by simp, by simp⟩

theorem clean_of_forall {s : List Char} (h : ∀ c ∈ s, isSpace u c = false) : Clean u s :=
  ⟨fun c hc => h c (List.mem_of_head? hc), fun c hc => h c (List.mem_of_getLast? hc)⟩

theorem Clean.append {a b : List Char} (ha : Clean u a) (hb : Clean u b) : Clean u (a ++ b) := by
  constructor
  · intro c hc
    cases a with
    | nil => exact hb.1 c hc
    | cons x a => exact ha.1 c hc
  · intro c hc
    rw [List.getLast?_append] at hc
    cases hl : b.getLast? with
    | none => rw [hl] at hc; exact ha.2 c hc
    | some x => rw [hl] at hc; cases hc; exact hb.2 _ hl

theorem Clean.around {a b : List Char} (m : List Char) (ha : Clean u a) (ha' : a ≠ []) (hb : Clean u b) (hb' : b ≠ []) :
    Clean u (a ++ m ++ b) := by
  constructor
  · intro c hc
    cases a with
    | nil => exact absurd rfl ha'
    | cons x a => exact ha.1 c hc
  · intro c hc
    rw [List.getLast?_append] at hc
    cases hl : b.getLast? with
    | none => rw [List.getLast?_eq_none_iff] at hl; exact absurd hl hb'
    | some x => rw [hl] at hc; cases hc; exact hb.2 _ hl

theorem removeBlanks_append (a b : List Char) : removeBlanks (a ++ b) = removeBlanks a ++ removeBlanks b := by
  simp [removeBlanks]

theorem removeBlanks_none {s : List Char} (h : ' ' ∉ s) : removeBlanks s = s := by
  unfold removeBlanks
  rw [List.filter_eq_self]
  intro c hc
  simp only [decide_eq_true_eq]
  rintro rfl
  exact h hc

theorem not_mem_removeBlanks (s : List Char) : ' ' ∉ removeBlanks s := by
  simp [removeBlanks]

theorem natStr_blank (n : Nat) : ' ' ∉ natStr n := by
  intro h
  have := (natStr_spec n).2.1 _ h
  exact absurd this (by decide)

theorem natStr_clean (n : Nat) : Clean u (natStr n) :=
  clean_of_forall fun c hc => isWord_space (isDigit_word ((natStr_spec n).2.1 c hc))

/-! ## Names -/

theorem lexNameTail_append {t rest : List Char} (ht : IsTail u d t) (hr : lexNameTail u d rest = none) :
    lexNameTail u d (t ++ rest) = some (t, rest) := by
  induction t with
  | nil => exact absurd ht not_isTail_nil
  | cons c t ih =>
    cases t with
    | nil =>
      have he := isTail_one.1 ht
      rw [List.cons_append, List.nil_append]
      unfold lexNameTail
      simp only [hr, he, if_true]
      split <;> rfl
    | cons y t =>
      obtain ⟨hc, ht'⟩ := isTail_cons.1 ht
      rw [List.cons_append]
      unfold lexNameTail
      rw [ih ht']
      have : (isWord u c || isSpace u c) = true := by simpa using hc
      simp [this]

theorem nameTok_append {name rest : List Char} (hn : IsName u d name) (hr : lexNameTail u d rest = none) :
    NameTok u d (name ++ rest) name rest := by
  rw [← lexName_iff]
  cases name with
  | nil => obtain ⟨c, mid, x, h, _⟩ := hn; cases h
  | cons c n =>
    obtain ⟨hc, ht⟩ := isName_cons.1 hn
    rw [List.cons_append]
    unfold lexName
    simp only [hc, if_true, lexNameTail_append ht hr]
    rfl

theorem isName_clean {name : List Char} (hn : IsName u d name) : Clean u name ∧ name ≠ [] := by
  obtain ⟨c, mid, x, rfl, hc, _, _, hx, _⟩ := hn
  refine ⟨⟨?_, ?_⟩, by simp⟩
  · intro y hy; cases hy; exact isWord_space hc
  · intro y hy
    rw [← List.cons_append, List.getLast?_concat] at hy
    cases hy; exact hx

/-! ## The text of a verse -/

/-- The parts that are shown: no chapter if the book has only one. -/
def partsShown (d : BibleData) (p : Parts) (v : BibleVerse) : Parts :=
  if v.book.chapCount d = 1 then { p with chap := false } else p

/-- The separator between chapter and verse. -/
def verseSep (d : BibleData) (o : StrOpts) : Char := if o.altSep then d.verseSepAlt else d.verseSepStd

/-- The numbers shown. -/
def numText (d : BibleData) (o : StrOpts) (p : Parts) (v : BibleVerse) : List Char :=
  match p.chap, p.verse with
  | true, true => natStr v.chap.toNat ++ [verseSep d o] ++ natStr v.verse.toNat
  | true, false => natStr v.chap.toNat
  | false, true => natStr v.verse.toNat
  | false, false => []

/-- Between a name and a number. -/
def gap (o : StrOpts) : List Char := if o.nospace then [] else [' ']

/-- The text of a verse, put together. -/
def verseText (d : BibleData) (o : StrOpts) (p : Parts) (v : BibleVerse) : List Char :=
  match p.book, p.chap || p.verse with
  | true, true => shownAs d o v.book ++ gap o ++ numText d o p v
  | true, false => shownAs d o v.book
  | false, _ => numText d o p v

theorem verseSep_mem (o : StrOpts) :
    verseSep d o ∈ [d.rangeSep, d.majorListSep, d.minorListSep, d.verseSepStd, d.verseSepAlt] ∧
    (verseSep d o = d.verseSepStd ∨ verseSep d o = d.verseSepAlt) := by
  unfold verseSep
  cases o.altSep <;> simp

section
variable (hd : PlainSeps u d)
include hd

theorem numText_spec (o : StrOpts) (p : Parts) (v : BibleVerse) : Clean u (numText d o p v) ∧ ' ' ∉ numText d o p v ∧
    ((p.chap || p.verse) = true → numText d o p v ≠ []) := by
  have hs := sep_plain hd (verseSep_mem o).1
  have hb : ' ' ≠ verseSep d o := by
    intro h
    rw [← h] at hs
    exact absurd hs.2.1 (by rw [show isSpace u ' ' = true from rfl]; simp)
  unfold numText
  cases p.chap <;> cases p.verse
  · exact ⟨clean_nil, by simp, by simp⟩
  · exact ⟨natStr_clean _, natStr_blank _, fun _ => (natStr_spec _).1⟩
  · exact ⟨natStr_clean _, natStr_blank _, fun _ => (natStr_spec _).1⟩
  · refine ⟨((natStr_clean _).append (clean_of_forall ?_)).append (natStr_clean _), ?_, fun _ => by simp⟩
    · intro c hc
      rw [List.mem_singleton.1 hc]; exact hs.2.1
    · simp only [List.mem_append, List.mem_singleton, not_or]
      exact ⟨⟨natStr_blank _, hb⟩, natStr_blank _⟩

theorem str_eq_text (o : StrOpts) (p : Parts) {v : BibleVerse} (hc : 0 ≤ v.chap) (hv : 0 ≤ v.verse)
    (hn : p.book = true → IsName u d (shownAs d o v.book)) :
    v.str u d o p = verseText d o (partsShown d p v) v := by
  have hp : (partsShown d p v).book = p.book := by unfold partsShown; split <;> rfl
  have hstr : v.str u d o p =
      let q := partsShown d p v
      let result := (if q.book then v.book.shownName d o else []) ++ [' '] ++ numText d o q v
      if o.nospace then removeBlanks result else strip u result := by
    have key : ∀ q : Parts, (if o.nospace then removeBlanks ((if q.book then v.book.shownName d o else []) ++ [' '] ++
          (if q.chap then intStr v.chap else []) ++
          (if q.chap && q.verse then [if o.altSep then d.verseSepAlt else d.verseSepStd] else []) ++
          (if q.verse then intStr v.verse else []))
        else strip u ((if q.book then v.book.shownName d o else []) ++ [' '] ++
          (if q.chap then intStr v.chap else []) ++
          (if q.chap && q.verse then [if o.altSep then d.verseSepAlt else d.verseSepStd] else []) ++
          (if q.verse then intStr v.verse else []))) =
        (if o.nospace then removeBlanks ((if q.book then v.book.shownName d o else []) ++ [' '] ++ numText d o q v)
        else strip u ((if q.book then v.book.shownName d o else []) ++ [' '] ++ numText d o q v)) := by
      intro q
      rw [intStr_natStr hc, intStr_natStr hv]
      unfold numText verseSep
      cases q.chap <;> cases q.verse <;> simp
    exact key (partsShown d p v)
  rw [hstr]
  simp only
  generalize hq : partsShown d p v = q at *
  have hnum := numText_spec hd o q v
  unfold verseText
  cases hb : q.book with
  | false =>
    simp only [Bool.false_eq_true, if_false, List.nil_append]
    cases o.nospace with
    | true =>
      simp only [if_true]
      rw [removeBlanks_append, removeBlanks_none hnum.2.1]
      rfl
    | false =>
      simp only [Bool.false_eq_true, if_false]
      rw [List.cons_append, List.nil_append, strip_blank_cons, strip_clean hnum.1]
  | true =>
    have hname := isName_clean (hn (hp ▸ hb))
    unfold shownAs at hname
    unfold gap shownAs
    cases hns : o.nospace with
    | true =>
      simp only [if_true]
      rw [removeBlanks_append, removeBlanks_append, removeBlanks_none hnum.2.1]
      cases hcv : q.chap || q.verse with
      | true => simp [removeBlanks]
      | false =>
        have : numText d o q v = [] := by
          unfold numText
          simp only [Bool.or_eq_false_iff] at hcv
          simp [hcv.1, hcv.2]
        rw [this]
        simp [removeBlanks]
    | false =>
      rw [hns] at hname
      simp only [Bool.false_eq_true, if_false, if_true] at hname ⊢
      cases hcv : q.chap || q.verse with
      | true =>
        simp only
        exact strip_clean (Clean.around _ hname.1 hname.2 hnum.1 (hnum.2.2 hcv))
      | false =>
        have : numText d o q v = [] := by
          unfold numText
          simp only [Bool.or_eq_false_iff] at hcv
          simp [hcv.1, hcv.2]
        rw [this, List.append_nil]
        simp only
        exact strip_blank_append hname.1

/-- The tree of the text. -/
def treeOf (name : List Char) (p : Parts) (v : BibleVerse) : Single :=
  match p.book, p.chap, p.verse with
  | true, true, true => .bookChapVerse name v.chap.toNat v.verse.toNat
  | true, true, false => .bookNum name v.chap.toNat
  | true, false, true => .bookNum name v.verse.toNat
  | true, false, false => .book name
  | false, true, true => .chapVerse v.chap.toNat v.verse.toNat
  | false, true, false => .num v.chap.toNat
  | false, false, _ => .num v.verse.toNat

/-- What follows the text of a verse. -/
def AfterRef (d : BibleData) (s : List Char) : Prop := s = [] ∨ ∃ c t, s = c :: t ∧
  c ∈ [d.rangeSep, d.majorListSep, d.minorListSep]

theorem AfterRef.stop {s : List Char} (h : AfterRef d s) : s = [] ∨ ∃ c t, s = c :: t ∧ isWord u c = false ∧ isSpace u c = false ∧
    isNameEnd u d c = false := by
  rcases h with h | ⟨c, t, h, hc⟩
  · exact .inl h
  · have := sep_plain hd (c := c) (by simp only [List.mem_cons, List.not_mem_nil, or_false] at hc ⊢; grind)
    exact .inr ⟨c, t, h, this.1, this.2.1, this.2.2.2.2⟩

theorem AfterRef.digit {s : List Char} (h : AfterRef d s) : ∀ c, s.head? = some c → isDigit c = false := by
  intro x hx
  rcases h with h | ⟨c, t, h, hc⟩
  · rw [h] at hx; cases hx
  · rw [h] at hx; cases hx
    exact (sep_plain hd (by simp only [List.mem_cons, List.not_mem_nil, or_false] at hc ⊢; grind)).2.2.1

omit hd in
theorem skips_gap (o : StrOpts) (s : List Char) : Skips (gap o ++ s) s := by
  refine ⟨gap o, ?_, rfl⟩
  unfold gap
  cases o.nospace <;> simp [isWs]

omit hd in
theorem gap_digits (o : StrOpts) (n : Nat) : ∀ c ∈ gap o ++ natStr n, isDigit c = true ∨ isSpace u c = true := by
  intro c hc
  rcases List.mem_append.1 hc with hc | hc
  · right
    unfold gap at hc
    simp at hc
    rw [hc.2]; rfl
  · exact .inl ((natStr_spec n).2.1 c hc)

/-- The text of a verse is read as its tree, whatever follows. -/
theorem text_rule (o : StrOpts) (p : Parts) (v : BibleVerse) {rest : List Char} (hr : AfterRef d rest)
    (hp : p ≠ ⟨false, false, false⟩) (hn : p.book = true → IsName u d (shownAs d o v.book)) :
    SingleRule u d (verseText d o p v ++ rest) (treeOf (shownAs d o v.book) p v) rest := by
  have hs := sep_plain hd (verseSep_mem o).1
  have hsx := (verseSep_mem (d := d) o).2
  have hdig : ∀ c, (verseSep d o :: (natStr v.verse.toNat ++ rest)).head? = some c → isDigit c = false := by
    intro c hc; cases hc; exact hs.2.2.1
  obtain ⟨b, c, w⟩ := p
  unfold verseText treeOf numText
  cases b <;> cases c <;> cases w <;> simp only [Bool.or_false, Bool.or_true, Bool.or_self]
  · exact absurd rfl hp
  · exact .num (skips_self _) (numTok_natStr _ (hr.digit hd))
  · exact .num (skips_self _) (numTok_natStr _ (hr.digit hd))
  · simp only [List.append_assoc, List.cons_append, List.nil_append]
    exact .chapVerse (skips_self _) (numTok_natStr _ hdig) (skips_self _) hsx (skips_self _) (numTok_natStr _ (hr.digit hd))
  · refine .book (skips_self _) (nameTok_append (hn rfl) ?_)
    simpa using lexNameTail_stop (hr.stop hd) [] (by simp)
  · have h1 := lexNameTail_stop (hr.stop hd) _ (gap_digits (u := u) o v.verse.toNat)
    simp only [List.append_assoc] at h1 ⊢
    exact .bookNum (skips_self _) (nameTok_append (hn rfl) h1) (skips_gap _ _) (numTok_natStr _ (hr.digit hd))
  · have h1 := lexNameTail_stop (hr.stop hd) _ (gap_digits (u := u) o v.chap.toNat)
    simp only [List.append_assoc] at h1 ⊢
    exact .bookNum (skips_self _) (nameTok_append (hn rfl) h1) (skips_gap _ _) (numTok_natStr _ (hr.digit hd))
  · have h1 := lexNameTail_stop (u := u) (d := d) (s := verseSep d o :: (natStr v.verse.toNat ++ rest))
      (.inr ⟨_, _, rfl, hs.1, hs.2.1, hs.2.2.2.2⟩) _ (gap_digits (u := u) o v.chap.toNat)
    simp only [List.append_assoc, List.cons_append, List.nil_append] at h1 ⊢
    exact .bookChapVerse (skips_self _) (nameTok_append (hn rfl) h1) (skips_gap _ _) (numTok_natStr _ hdig) (skips_self _) hsx
      (skips_self _) (numTok_natStr _ (hr.digit hd))

end

/-- White space before a reference makes no difference. -/
theorem singleRule_skip {s s' : List Char} {a : Single} {rest : List Char} (hs : Skips s s') (h : SingleRule u d s' a rest) :
    SingleRule u d s a rest := by
  have tr : ∀ {s1}, Skips s' s1 → Skips s s1 := by
    rintro s1 ⟨w, hw, rfl⟩
    obtain ⟨w', hw', rfl⟩ := hs
    refine ⟨w' ++ w, ?_, by simp⟩
    intro c hc
    rcases List.mem_append.1 hc with hc | hc
    · exact hw' c hc
    · exact hw c hc
  cases h with
  | book h1 h2 => exact .book (tr h1) h2
  | bookNum h1 h2 h3 h4 => exact .bookNum (tr h1) h2 h3 h4
  | bookChapVerse h1 h2 h3 h4 h5 hx h6 h7 => exact .bookChapVerse (tr h1) h2 h3 h4 h5 hx h6 h7
  | chapVerse h3 h4 h5 hx h6 h7 => exact .chapVerse (tr h3) h4 h5 hx h6 h7
  | num h3 h4 => exact .num (tr h3) h4

end Bibleref

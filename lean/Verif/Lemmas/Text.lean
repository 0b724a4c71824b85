import Verif.SpecText

/-! # Lemmas about names: the regular expressions match exactly the accepted names -/

namespace Bibleref
open Spec

/-- The shape matches the string piece by piece: a letter one character, a blank one or more spaces. -/
inductive Covers (u : Uni) : List (Option Char) → List Char → Prop
  | nil : Covers u [] []
  | char {c p w s} : isSpace u c = false → foldChar u c = p → Covers u w s → Covers u (some p :: w) (c :: s)
  | last {c w s} : isSpace u c = true → Covers u w s → Covers u (none :: w) (c :: s)
  | more {c w s} : isSpace u c = true → Covers u (none :: w) s → Covers u (none :: w) (c :: s)

theorem Covers.append {u w w' s s'} (h : Covers u w s) (h' : Covers u w' s') : Covers u (w ++ w') (s ++ s') := by
  induction h with
  | nil => simpa
  | char h1 h2 _ ih => exact .char h1 h2 ih
  | last h1 _ ih => exact .last h1 ih
  | more h1 _ ih => exact .more h1 ih

/-- The words of a regular expression: `\s*` is nothing or a blank, `\s+` is a blank. -/
def Rx.lang (f : Char → Char) : Rx → List (List (Option Char))
  | .eps => [[]]
  | .char c => [[some (f c)]]
  | .spaces => [[], [none]]
  | .spaces1 => [[none]]
  | .seq a b => (a.lang f).flatMap fun w => (b.lang f).map fun w' => w ++ w'
  | .alt a b => a.lang f ++ b.lang f
  | .opt a => a.lang f ++ [[]]

theorem runSpaces_iff {u k s} : runSpaces u k s = true ↔
    ∃ s1 s2, s = s1 ++ s2 ∧ (s1 = [] ∨ Covers u [none] s1) ∧ k s2 = true := by
  induction s with
  | nil =>
    simp only [runSpaces]
    constructor
    · intro h; exact ⟨[], [], rfl, .inl rfl, h⟩
    · rintro ⟨s1, s2, h, _, hk⟩
      obtain ⟨rfl, rfl⟩ := List.append_eq_nil_iff.mp h.symm
      exact hk
  | cons c s ih =>
    simp only [runSpaces, Bool.or_eq_true, Bool.and_eq_true, ih]
    constructor
    · rintro (h | ⟨hc, s1, s2, rfl, h1, hk⟩)
      · exact ⟨[], _, rfl, .inl rfl, h⟩
      · refine ⟨c :: s1, s2, rfl, .inr ?_, hk⟩
        rcases h1 with rfl | h1
        · exact .last hc .nil
        · exact .more hc h1
    · rintro ⟨s1, s2, h, h1, hk⟩
      rcases h1 with rfl | h1
      · left; rw [List.nil_append] at h; rwa [h]
      · cases h1 with
        | last hc h2 =>
          cases h2
          simp only [List.cons_append, List.nil_append, List.cons.injEq] at h
          obtain ⟨rfl, rfl⟩ := h
          exact .inr ⟨hc, [], s, rfl, .inl rfl, hk⟩
        | more hc h2 =>
          simp only [List.cons_append, List.cons.injEq] at h
          obtain ⟨rfl, rfl⟩ := h
          exact .inr ⟨hc, _, s2, rfl, .inr h2, hk⟩

theorem Rx.run_iff {u : Uni} (r : Rx) : ∀ {k s}, r.run u k s = true ↔
    ∃ w ∈ r.lang (foldChar u), ∃ s1 s2, s = s1 ++ s2 ∧ Covers u w s1 ∧ k s2 = true := by
  induction r with
  | eps =>
    intro k s
    simp only [run, lang, List.mem_singleton, exists_eq_left]
    constructor
    · intro h; exact ⟨[], s, rfl, .nil, h⟩
    · rintro ⟨s1, s2, rfl, h, hk⟩
      cases h; exact hk
  | char p =>
    intro k s
    simp only [lang, List.mem_singleton, exists_eq_left]
    cases s with
    | nil =>
      simp only [run, Bool.false_eq_true, false_iff, not_exists, not_and]
      rintro s1 s2 h hc
      obtain ⟨rfl, rfl⟩ := List.append_eq_nil_iff.mp h.symm
      cases hc
    | cons c s =>
      simp only [run, Bool.and_eq_true, Bool.not_eq_true', decide_eq_true_eq]
      constructor
      · rintro ⟨⟨h1, h2⟩, hk⟩
        exact ⟨[c], s, rfl, .char h1 h2 .nil, hk⟩
      · rintro ⟨s1, s2, h, hc, hk⟩
        cases hc with
        | char h1 h2 h3 =>
          cases h3
          simp only [List.cons_append, List.nil_append, List.cons.injEq] at h
          obtain ⟨rfl, rfl⟩ := h
          exact ⟨⟨h1, h2⟩, hk⟩
  | spaces =>
    intro k s
    simp only [run, lang, runSpaces_iff, List.mem_cons, List.not_mem_nil, or_false]
    constructor
    · rintro ⟨s1, s2, h, h1 | h1, hk⟩
      · exact ⟨[], .inl rfl, s1, s2, h, h1 ▸ .nil, hk⟩
      · exact ⟨_, .inr rfl, s1, s2, h, h1, hk⟩
    · rintro ⟨w, rfl | rfl, s1, s2, h, h1, hk⟩
      · cases h1; exact ⟨[], s2, h, .inl rfl, hk⟩
      · exact ⟨s1, s2, h, .inr h1, hk⟩
  | spaces1 =>
    intro k s
    simp only [lang, List.mem_singleton, exists_eq_left]
    cases s with
    | nil =>
      simp only [run, Bool.false_eq_true, false_iff, not_exists, not_and]
      rintro s1 s2 h hc
      obtain ⟨rfl, rfl⟩ := List.append_eq_nil_iff.mp h.symm
      cases hc
    | cons c s =>
      simp only [run, Bool.and_eq_true, runSpaces_iff]
      constructor
      · rintro ⟨hc, s1, s2, rfl, h1, hk⟩
        refine ⟨c :: s1, s2, rfl, ?_, hk⟩
        rcases h1 with rfl | h1
        · exact .last hc .nil
        · exact .more hc h1
      · rintro ⟨s1, s2, h, h1, hk⟩
        cases h1 with
        | last hc h2 =>
          cases h2
          simp only [List.cons_append, List.nil_append, List.cons.injEq] at h
          obtain ⟨rfl, rfl⟩ := h
          exact ⟨hc, [], s, rfl, .inl rfl, hk⟩
        | more hc h2 =>
          simp only [List.cons_append, List.cons.injEq] at h
          obtain ⟨rfl, rfl⟩ := h
          exact ⟨hc, _, s2, rfl, .inr h2, hk⟩
  | seq a b iha ihb =>
    intro k s
    simp only [run, lang, iha, ihb, List.mem_flatMap, List.mem_map]
    constructor
    · rintro ⟨w, hw, s1, s2, rfl, h1, w', hw', s3, s4, rfl, h2, hk⟩
      exact ⟨w ++ w', ⟨w, hw, w', hw', rfl⟩, s1 ++ s3, s4, by rw [List.append_assoc], h1.append h2, hk⟩
    · rintro ⟨_, ⟨w, hw, w', hw', rfl⟩, s1, s2, rfl, h1, hk⟩
      have : ∃ t t', s1 = t ++ t' ∧ Covers u w t ∧ Covers u w' t' := by
        clear hw hk ihb iha
        generalize hx : w ++ w' = x at h1
        induction h1 generalizing w with
        | nil =>
          obtain ⟨rfl, rfl⟩ := List.append_eq_nil_iff.mp hx
          exact ⟨[], [], rfl, .nil, .nil⟩
        | @char c p v t hc hp h ih =>
          cases w with
          | nil => exact ⟨[], c :: t, rfl, .nil, by rw [List.nil_append] at hx; exact hx ▸ .char hc hp h⟩
          | cons y w =>
            simp only [List.cons_append, List.cons.injEq] at hx
            obtain ⟨rfl, rfl⟩ := hx
            obtain ⟨t1, t2, rfl, h1, h2⟩ := ih w rfl
            exact ⟨c :: t1, t2, rfl, .char hc hp h1, h2⟩
        | @last c v t hc h ih =>
          cases w with
          | nil => exact ⟨[], c :: t, rfl, .nil, by rw [List.nil_append] at hx; exact hx ▸ .last hc h⟩
          | cons y w =>
            simp only [List.cons_append, List.cons.injEq] at hx
            obtain ⟨rfl, rfl⟩ := hx
            obtain ⟨t1, t2, rfl, h1, h2⟩ := ih w rfl
            exact ⟨c :: t1, t2, rfl, .last hc h1, h2⟩
        | @more c v t hc h ih =>
          cases w with
          | nil => exact ⟨[], c :: t, rfl, .nil, by rw [List.nil_append] at hx; exact hx ▸ .more hc h⟩
          | cons y w =>
            simp only [List.cons_append, List.cons.injEq] at hx
            obtain ⟨rfl, rfl⟩ := hx
            obtain ⟨t1, t2, rfl, h1, h2⟩ := ih (none :: w) rfl
            exact ⟨c :: t1, t2, rfl, .more hc h1, h2⟩
      obtain ⟨t, t', rfl, ht, ht'⟩ := this
      exact ⟨w, hw, t, t' ++ s2, by rw [List.append_assoc], ht, w', hw', t', s2, rfl, ht', hk⟩
  | alt a b iha ihb =>
    intro k s
    simp only [run, lang, Bool.or_eq_true, iha, ihb, List.mem_append]
    constructor
    · rintro (⟨w, hw, h⟩ | ⟨w, hw, h⟩)
      · exact ⟨w, .inl hw, h⟩
      · exact ⟨w, .inr hw, h⟩
    · rintro ⟨w, hw | hw, h⟩
      · exact .inl ⟨w, hw, h⟩
      · exact .inr ⟨w, hw, h⟩
  | opt a iha =>
    intro k s
    simp only [run, lang, Bool.or_eq_true, iha, List.mem_append, List.mem_singleton]
    constructor
    · rintro (⟨w, hw, h⟩ | h)
      · exact ⟨w, .inl hw, h⟩
      · exact ⟨[], .inr rfl, [], s, rfl, .nil, h⟩
    · rintro ⟨w, hw | rfl, s1, s2, rfl, h1, hk⟩
      · exact .inl ⟨w, hw, s1, s2, rfl, h1, hk⟩
      · cases h1; exact .inr hk

theorem Rx.fullmatch_iff {u : Uni} {r : Rx} {s : List Char} :
    r.fullmatch u s = true ↔ ∃ w ∈ r.lang (foldChar u), Covers u w s := by
  unfold fullmatch
  rw [run_iff]
  constructor
  · rintro ⟨w, hw, s1, s2, rfl, h, hk⟩
    rw [List.isEmpty_iff] at hk
    subst hk
    exact ⟨w, hw, by simpa using h⟩
  · rintro ⟨w, hw, h⟩
    exact ⟨w, hw, s, [], by simp, h, rfl⟩

/-! ## Shapes -/

/-- No two blanks next to each other in a shape. -/
def PlainShape : List (Option Char) → Prop
  | a :: b :: s => ¬ (a = none ∧ b = none) ∧ PlainShape (b :: s)
  | _ => True

theorem PlainShape.tail {a w} (h : PlainShape (a :: w)) : PlainShape w := by
  cases w with
  | nil => trivial
  | cons b w => exact h.2

theorem Covers.shape {u w s} (h : Covers u w s) : PlainShape w → Spec.shape u s = w := by
  induction h with
  | nil => intro; rfl
  | char hc hp h ih => intro hw; simp only [Spec.shape, hc, hp, ih hw.tail]; rfl
  | @last c w s hc h ih =>
    intro hw
    simp only [Spec.shape, hc, if_true, ih hw.tail]
    cases w with
    | nil => rfl
    | cons b w =>
      cases b with
      | none => exact absurd ⟨rfl, rfl⟩ hw.1
      | some p => rfl
  | @more c w s hc h ih =>
    intro hw
    simp only [Spec.shape, hc, if_true, ih hw]
    cases w with
    | nil => rfl
    | cons b w =>
      cases b with
      | none => exact absurd ⟨rfl, rfl⟩ hw.1
      | some p => rfl

theorem shape_plain (u : Uni) (s : List Char) : PlainShape (Spec.shape u s) := by
  induction s with
  | nil => trivial
  | cons c s ih =>
    have hd : ∀ w : List (Option Char), PlainShape w → PlainShape (w.dropWhile (· = none)) := by
      intro w hw
      induction w with
      | nil => trivial
      | cons a w ihw =>
        cases a with
        | none => simpa using ihw hw.tail
        | some p => simpa using hw
    unfold Spec.shape
    by_cases hc : isSpace u c = true
    · rw [if_pos hc]
      have h2 := hd _ ih
      cases hw : (Spec.shape u s).dropWhile (· = none) with
      | nil => trivial
      | cons b w =>
        rw [hw] at h2
        refine ⟨?_, h2⟩
        rintro ⟨_, rfl⟩
        have := List.head?_dropWhile_not (p := fun x : Option Char => decide (x = none)) (Spec.shape u s)
        rw [hw] at this
        simp at this
    · rw [if_neg hc]
      cases hw : Spec.shape u s with
      | nil => trivial
      | cons b w => rw [hw] at ih; exact ⟨by simp, ih⟩

theorem covers_shape (u : Uni) (s : List Char) : Covers u (Spec.shape u s) s := by
  induction s with
  | nil => exact .nil
  | cons c s ih =>
    unfold Spec.shape
    by_cases hc : isSpace u c = true
    · rw [if_pos hc]
      cases hw : Spec.shape u s with
      | nil => rw [hw] at ih; exact .last hc ih
      | cons b w =>
        rw [hw] at ih
        cases b with
        | none =>
          have hp := shape_plain u s
          rw [hw] at hp
          have : ((none :: w).dropWhile (· = none)) = w := by
            cases w with
            | nil => rfl
            | cons b w =>
              cases b with
              | none => exact absurd ⟨rfl, rfl⟩ hp.1
              | some p => rfl
          rw [this]
          exact .more hc ih
        | some p => exact .last hc ih
    · rw [if_neg hc]
      exact .char (by simpa using hc) rfl ih

/-- When no word of the expression has two blanks in a row, matching is about the shape of the string only. -/
theorem Rx.fullmatch_shape {u : Uni} {r : Rx} (hp : ∀ w ∈ r.lang (foldChar u), PlainShape w) {s : List Char} :
    r.fullmatch u s = true ↔ Spec.shape u s ∈ r.lang (foldChar u) := by
  rw [fullmatch_iff]
  constructor
  · rintro ⟨w, hw, h⟩
    rw [h.shape (hp w hw)]
    exact hw
  · intro h
    exact ⟨_, h, covers_shape u s⟩

/-! ## The words of a book's regular expression -/

theorem lang_titleChar (f : Char → Char) (c : Char) :
    (titleChar c).lang f = [[if c = ' ' then none else some (f c)]] := by
  unfold titleChar
  split <;> rfl

theorem lang_extraChar (f : Char → Char) (c : Char) :
    (extraChar c).lang f = if c = ' ' then [[], [none]] else [[some (f c)]] := by
  unfold extraChar
  split <;> rfl

theorem lang_optTail (u : Uni) (s : List Char) (w) :
    w ∈ (optTail s).lang (foldChar u) ↔ ∃ k, w = nameShape u (s.take k) := by
  induction s generalizing w with
  | nil => simp [optTail, Rx.lang, nameShape]
  | cons c s ih =>
    simp only [optTail, Rx.lang, lang_titleChar, List.flatMap_cons, List.flatMap_nil, List.append_nil, List.mem_append,
      List.mem_map, List.mem_singleton, ih]
    constructor
    · rintro (⟨_, ⟨k, rfl⟩, rfl⟩ | rfl)
      · exact ⟨k + 1, by simp [nameShape]⟩
      · exact ⟨0, by simp [nameShape]⟩
    · rintro ⟨k, rfl⟩
      cases k with
      | zero => right; simp [nameShape]
      | succ k => left; exact ⟨_, ⟨k, rfl⟩, by simp [nameShape]⟩

theorem lang_seqTitle (u : Uni) (s : List Char) : (seqOf titleChar s).lang (foldChar u) = [nameShape u s] := by
  induction s with
  | nil => rfl
  | cons c s ih => simp [seqOf, Rx.lang, lang_titleChar, ih, nameShape]

theorem lang_seqExtra (u : Uni) (s : List Char) (w) :
    w ∈ (seqOf extraChar s).lang (foldChar u) ↔ FewerBlanks w (nameShape u s) := by
  induction s generalizing w with
  | nil =>
    simp only [seqOf, Rx.lang, List.mem_singleton, nameShape, List.map_nil]
    constructor
    · rintro rfl; exact .nil
    · intro h; cases h; rfl
  | cons c s ih =>
    simp only [seqOf, Rx.lang, lang_extraChar, nameShape, List.map_cons, List.mem_flatMap, List.mem_map, ih]
    by_cases hc : c = ' '
    · simp only [hc, if_true]
      constructor
      · rintro ⟨v, hv, w', hw', rfl⟩
        simp only [List.mem_cons, List.not_mem_nil, or_false] at hv
        rcases hv with rfl | rfl
        · exact .drop hw'
        · exact .cons hw'
      · intro h
        cases h with
        | cons h => exact ⟨[none], by simp, _, h, rfl⟩
        | drop h => exact ⟨[], by simp, _, h, rfl⟩
    · simp only [hc, if_false]
      constructor
      · rintro ⟨v, hv, w', hw', rfl⟩
        simp only [List.mem_singleton] at hv
        subst hv
        exact .cons hw'
      · intro h
        cases h with
        | cons h => exact ⟨_, List.mem_singleton_self _, _, h, rfl⟩

theorem lang_titlePrefix (u : Uni) (t : List Char) :
    (titlePrefix t).1.lang (foldChar u) = (splitTitle u t).1 ∧ (titlePrefix t).2 = (splitTitle u t).2 := by
  unfold titlePrefix splitTitle
  split <;> simp [Rx.lang, nameShape]

theorem lang_title (u : Uni) (t : List Char) (m : Nat) (w) :
    w ∈ (titleRx t m).lang (foldChar u) ↔
      ∃ p ∈ (splitTitle u t).1, ∃ k, m ≤ k ∧ w = p ++ nameShape u ((splitTitle u t).2.take k) := by
  have h := lang_titlePrefix u t
  unfold titleRx
  simp only [Rx.lang, h.1, h.2, lang_seqTitle, List.mem_flatMap, List.mem_map, List.flatMap_cons, List.flatMap_nil, List.append_nil,
    lang_optTail]
  have key : ∀ s : List Char, ∀ k, nameShape u (s.take m) ++ nameShape u ((s.drop m).take k) = nameShape u (s.take (m + k)) := by
    intro s k
    rw [List.take_add]
    simp [nameShape]
  constructor
  · rintro ⟨p, hp, _, ⟨_, ⟨k, rfl⟩, rfl⟩, rfl⟩
    exact ⟨p, hp, m + k, by omega, by rw [key]⟩
  · rintro ⟨p, hp, k, hk, rfl⟩
    refine ⟨p, hp, _, ⟨_, ⟨k - m, rfl⟩, rfl⟩, ?_⟩
    rw [key]
    congr 3
    omega

/-- The words of a book's regular expression are the accepted names. -/
theorem lang_nameRx (u : Uni) (n : NameData) (w) : w ∈ (nameRx n).lang (foldChar u) ↔ Accepted u n w := by
  unfold nameRx Accepted
  have : ∀ (l : List (List Char)) (r : Rx), w ∈ (l.foldl (fun r a => Rx.alt r (seqOf extraChar a)) r).lang (foldChar u) ↔
      w ∈ r.lang (foldChar u) ∨ ∃ a ∈ l, FewerBlanks w (nameShape u a) := by
    intro l
    induction l with
    | nil => simp
    | cons a l ih =>
      intro r
      rw [List.foldl_cons, ih]
      simp only [Rx.lang, List.mem_append, lang_seqExtra, List.mem_cons, exists_eq_or_imp, or_assoc]
  rw [this, lang_title]

/-! ## Plain name data -/

theorem nameShape_plain {u : Uni} {s : List Char} (h : NoDoubleBlank s) : PlainShape (nameShape u s) := by
  induction s with
  | nil => trivial
  | cons a s ih =>
    cases s with
    | nil => trivial
    | cons b s =>
      refine ⟨?_, ih h.2⟩
      rintro ⟨h1, h2⟩
      refine h.1 ⟨?_, ?_⟩
      · exact Classical.byContradiction fun hne => by simp [hne] at h1
      · exact Classical.byContradiction fun hne => by simp [hne] at h2

theorem Spec.FewerBlanks.plain {w w' : List (Option Char)} (h : FewerBlanks w w') (hp : PlainShape w') :
    PlainShape w ∧ (w.head? = some none → w'.head? = some none) := by
  induction h with
  | nil => exact ⟨hp, id⟩
  | @cons x w w' h ih =>
    obtain ⟨h1, h2⟩ := ih hp.tail
    refine ⟨?_, fun h => h⟩
    cases w with
    | nil => trivial
    | cons y w =>
      refine ⟨?_, h1⟩
      rintro ⟨rfl, rfl⟩
      have := h2 rfl
      cases w' with
      | nil => simp at this
      | cons z w' => simp at this; exact hp.1 ⟨rfl, this⟩
  | @drop w w' h ih =>
    obtain ⟨h1, h2⟩ := ih hp.tail
    exact ⟨h1, fun _ => rfl⟩

theorem Spec.NoDoubleBlank.take {s : List Char} (h : NoDoubleBlank s) (k : Nat) : NoDoubleBlank (s.take k) := by
  induction s generalizing k with
  | nil => simpa using h
  | cons a s ih =>
    cases k with
    | zero => trivial
    | succ k =>
      cases s with
      | nil => simp [NoDoubleBlank]
      | cons b s =>
        cases k with
        | zero => simp [NoDoubleBlank]
        | succ k => exact ⟨h.1, ih h.2 (k + 1)⟩

theorem PlainShape.some_cons {c w} (h : PlainShape w) : PlainShape (some c :: w) := by
  cases w with
  | nil => trivial
  | cons a w => exact ⟨by simp, h⟩

theorem accepted_plain {u : Uni} {n : NameData} (hn : PlainNames n) {w} (h : Accepted u n w) : PlainShape w := by
  rcases h with ⟨p, hp, k, _, rfl⟩ | ⟨a, ha, hw⟩
  · have key : ∀ (x : Char) s, NoDoubleBlank (x :: ' ' :: s) → ∀ k,
        PlainShape (nameShape u (s.take k)) ∧ PlainShape (none :: nameShape u (s.take k)) := by
      intro x s hs k
      have h2 : NoDoubleBlank (' ' :: s) := hs.2
      have := nameShape_plain (u := u) (h2.take (k + 1))
      simp only [List.take_succ_cons] at this
      refine ⟨?_, by simpa [nameShape] using this⟩
      exact PlainShape.tail (a := none) (by simpa [nameShape] using this)
    have ht := hn.title
    unfold splitTitle at hp ⊢
    split at hp
    · rename_i s heq
      rw [heq] at ht
      have := key _ _ ht k
      simp only [List.mem_cons, List.not_mem_nil, or_false] at hp
      rcases hp with rfl | rfl | rfl
      · exact this.1.some_cons
      · exact this.2.some_cons
      · exact this.2.some_cons
    · rename_i s heq
      rw [heq] at ht
      have := key _ _ ht k
      simp only [List.mem_cons, List.not_mem_nil, or_false] at hp
      rcases hp with rfl | rfl | rfl
      · exact this.1.some_cons
      · exact this.2.some_cons
      · exact this.2.some_cons.some_cons
    · rename_i s heq
      rw [heq] at ht
      have := key _ _ ht k
      simp only [List.mem_cons, List.not_mem_nil, or_false] at hp
      rcases hp with rfl | rfl | rfl
      · exact this.1.some_cons
      · exact this.2.some_cons
      · exact this.2.some_cons.some_cons.some_cons
    · simp only [List.mem_singleton] at hp
      subst hp
      exact nameShape_plain (ht.take k)
  · exact (hw.plain (nameShape_plain (hn.extra a ha))).1

/-- A book's regular expression matches the strings whose shape is accepted. -/
theorem matchesName_iff {u : Uni} {d : BibleData} {b : BibleBook} {n : NameData} (hd : d.nameData b = some n)
    (hn : PlainNames n) {s : List Char} : b.matchesName u d s = true ↔ Accepted u n (Spec.shape u s) := by
  unfold BibleBook.matchesName
  rw [hd]
  simp only
  rw [Rx.fullmatch_shape (fun w hw => accepted_plain hn ((lang_nameRx u n w).mp hw)), lang_nameRx]

end Bibleref

import Verif.Lemmas.NameTable
import Verif.Lemmas.Basic

/-! # Lemmas about `from_str` and the default names -/

namespace Bibleref
open Spec

/-! ## Stripping -/

theorem shape_dropWhile (u : Uni) (s : List Char) :
    shape u (s.dropWhile (isSpace u)) = (shape u s).dropWhile (· = none) := by
  induction s with
  | nil => rfl
  | cons c s ih =>
    by_cases hc : isSpace u c = true
    · rw [List.dropWhile_cons_of_pos hc, ih]
      conv => rhs; unfold shape
      rw [if_pos hc, List.dropWhile_cons_of_pos (by simp)]
      generalize shape u s = w
      induction w with
      | nil => rfl
      | cons a w ihw =>
        cases a with
        | none => simpa using ihw
        | some p => simp
    · rw [List.dropWhile_cons_of_neg hc]
      conv => rhs; unfold shape
      rw [if_neg hc, List.dropWhile_cons_of_neg (by simp)]
      conv => lhs; unfold shape
      rw [if_neg hc]

theorem Covers.reverse {u w s} (h : Covers u w s) : Covers u w.reverse s.reverse := by
  induction h with
  | nil => exact .nil
  | char h1 h2 _ ih => simp only [List.reverse_cons]; exact ih.append (.char h1 h2 .nil)
  | last h1 _ ih => simp only [List.reverse_cons]; exact ih.append (.last h1 .nil)
  | @more c w s h1 h2 ih =>
    simp only [List.reverse_cons] at ih ⊢
    have : ∀ {v : List (Option Char)} {t}, Covers u (v ++ [none]) t → Covers u (v ++ [none]) (t ++ [c]) := by
      intro v t h
      generalize hx : v ++ [none] = x at h
      induction h generalizing v with
      | nil => simp at hx
      | @char c' p x' t' hc hp hcov ih' =>
        cases v with
        | nil => simp at hx
        | cons y v =>
          simp only [List.cons_append, List.cons.injEq] at hx
          exact .char hc hp (ih' hx.2)
      | @last c' x' t' hc hcov ih' =>
        cases v with
        | nil =>
          simp only [List.nil_append, List.cons.injEq, true_and] at hx
          subst hx
          cases hcov
          exact .more hc (.last h1 .nil)
        | cons y v =>
          simp only [List.cons_append, List.cons.injEq] at hx
          exact .last hc (ih' hx.2)
      | @more c' x' t' hc hcov ih' => exact .more hc (ih' hx)
    exact this ih

theorem PlainShape.append_single {w : List (Option Char)} {x : Option Char} (h : PlainShape w)
    (hx : ¬ (w.getLast? = some none ∧ x = none)) : PlainShape (w ++ [x]) := by
  induction w with
  | nil => trivial
  | cons a w ih =>
    cases w with
    | nil =>
      refine ⟨?_, trivial⟩
      rintro ⟨rfl, rfl⟩
      exact hx ⟨rfl, rfl⟩
    | cons b w =>
      refine ⟨h.1, ih h.2 ?_⟩
      rintro ⟨h1, h2⟩
      exact hx ⟨by simpa using h1, h2⟩

theorem PlainShape.reverse {w : List (Option Char)} (h : PlainShape w) : PlainShape w.reverse := by
  induction w with
  | nil => trivial
  | cons a w ih =>
    rw [List.reverse_cons]
    refine (ih h.tail).append_single ?_
    rintro ⟨h1, rfl⟩
    rw [List.getLast?_reverse] at h1
    cases w with
    | nil => simp at h1
    | cons b w => simp at h1; exact h.1 ⟨rfl, h1⟩

theorem shape_reverse (u : Uni) (s : List Char) : shape u s.reverse = (shape u s).reverse :=
  (covers_shape u s).reverse.shape (shape_plain u s).reverse

/-- Stripping a string strips its shape. -/
theorem shape_strip (u : Uni) (s : List Char) : shape u (strip u s) = trim (shape u s) := by
  unfold strip trim
  rw [shape_reverse, shape_dropWhile, shape_reverse, shape_dropWhile]

/-! ## The default names -/

/-- Whether all characters of the expression are below 128. -/
def Rx.ascii : Rx → Bool
  | .char c => decide (c.toNat < 128)
  | .seq a b => a.ascii && b.ascii
  | .alt a b => a.ascii && b.ascii
  | .opt a => a.ascii
  | _ => true

theorem Rx.lang_ascii (u : Uni) {r : Rx} (h : r.ascii = true) : r.lang (foldChar u) = r.lang lower := by
  induction r with
  | char c => simp only [ascii, decide_eq_true_eq] at h; simp [lang, foldChar, h]
  | seq a b iha ihb => simp only [ascii, Bool.and_eq_true] at h; simp [lang, iha h.1, ihb h.2]
  | alt a b iha ihb => simp only [ascii, Bool.and_eq_true] at h; simp [lang, iha h.1, ihb h.2]
  | opt a iha => simp only [ascii] at h; simp [lang, iha h]
  | _ => rfl

theorem defaultNames_ascii : (BibleBook.all.all fun b => match defaultNameData b with
    | none => false
    | some n => (nameRx n).ascii && decide (NoDoubleBlank n.title) && n.extra.all fun a => decide (NoDoubleBlank a)) = true := by
  decide +kernel

theorem apart_iff {x y : List Nat} : apart x y = true ↔ ∀ a ∈ x, a ∉ y := by
  simp only [apart, List.all_eq_true, Bool.not_eq_true']
  constructor
  · intro h a ha hb
    have := h a ha a hb
    simp at this
  · intro h a ha b hb
    cases hbeq : Nat.beq a b with
    | false => rfl
    | true =>
      have := Nat.eq_of_beq_eq_true hbeq
      subst this
      exact absurd hb (h a ha)

theorem allApart_map {α : Type} {f : α → List Nat} {l : List α} (h : allApart (l.map f) = true) :
    ∀ a ∈ l, ∀ b ∈ l, a ≠ b → ∀ x ∈ f a, x ∉ f b := by
  induction l with
  | nil => simp
  | cons c l ih =>
    simp only [List.map_cons, allApart, Bool.and_eq_true, List.all_eq_true, List.mem_map, forall_exists_index, and_imp,
      forall_apply_eq_imp_iff₂, apart_iff] at h
    intro a ha b hb hne x hx hx'
    simp only [List.mem_cons] at ha hb
    rcases ha with rfl | ha <;> rcases hb with rfl | hb
    · exact hne rfl
    · exact h.1 b hb x hx hx'
    · exact h.1 a ha x hx' hx
    · exact ih h.2 a ha b hb hne x hx hx'

theorem defaultNames (b : BibleBook) : ∃ n, defaultNameData b = some n ∧ PlainNames n ∧ (nameRx n).ascii = true := by
  have h := List.all_eq_true.mp defaultNames_ascii b b.mem_all
  cases hn : defaultNameData b with
  | none => simp [hn] at h
  | some n =>
    simp only [hn, Bool.and_eq_true, decide_eq_true_eq, List.all_eq_true] at h
    exact ⟨n, rfl, ⟨h.1.2, h.2⟩, h.1.1⟩

/-- No shape is accepted for two books. -/
theorem accepted_unique {u : Uni} {b b' : BibleBook} {n n' : NameData} (hn : defaultNameData b = some n)
    (hn' : defaultNameData b' = some n') {w} (h : Accepted u n w) (h' : Accepted u n' w) : b = b' := by
  refine Classical.byContradiction fun hne => ?_
  obtain ⟨m, hm, _, ha⟩ := defaultNames b
  obtain ⟨m', hm', _, ha'⟩ := defaultNames b'
  rw [hn] at hm; rw [hn'] at hm'
  cases hm; cases hm'
  rw [← lang_nameRx, Rx.lang_ascii u ha] at h
  rw [← lang_nameRx, Rx.lang_ascii u ha'] at h'
  refine allApart_map bookCodes_apart b b.mem_all b' b'.mem_all hne (wordCode w) ?_ ?_
  · simp only [bookCodes, hn]; exact List.mem_map_of_mem h
  · simp only [bookCodes, hn']; exact List.mem_map_of_mem h'

/-! ## `from_str` -/

theorem fromStr_some {u : Uni} {d : BibleData} {s : List Char} {b : BibleBook} (h : BibleBook.fromStr u d s = some b) :
    b.matchesName u d (strip u s) = true := by
  unfold BibleBook.fromStr at h
  have := List.find?_some h
  simpa using this

theorem fromStr_isSome {u : Uni} {d : BibleData} {s : List Char} {b : BibleBook}
    (h : b.matchesName u d (strip u s) = true) : ∃ b', BibleBook.fromStr u d s = some b' := by
  unfold BibleBook.fromStr
  cases hf : BibleBook.all.find? fun b => b.matchesName u d (strip u s) with
  | some b' => exact ⟨b', rfl⟩
  | none =>
    have := List.find?_eq_none.mp hf b b.mem_all
    exact absurd h this

end Bibleref

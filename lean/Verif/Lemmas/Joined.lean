import Verif.Lemmas.Positions
import Verif.Lemmas.Culprit
import Verif.SpecJoined
import Verif.Props.Meaning

/-!
# Lemmas: reading one string of references after another (C75)
-/

namespace Bibleref
open Spec

variable {u : Uni} {d : BibleData}

/-! ## Putting a separator and more after a reference -/

theorem listSep_plain (hd : PlainSeps u d) (m : Bool) : isWord u (listSep d m) = false ∧ isSpace u (listSep d m) = false := by
  apply hd.plain
  cases m <;> simp [listSep]

theorem listSep_digit (hd : PlainSeps u d) (m : Bool) : isDigit (listSep d m) = false := by
  cases h : isDigit (listSep d m) with
  | false => rfl
  | true => have := (listSep_plain hd m).1; rw [isDigit_word h] at this; cases this

theorem listSep_ws (hd : PlainSeps u d) (m : Bool) : isWs (listSep d m) = false := by
  cases h : isWs (listSep d m) with
  | false => rfl
  | true => have := (listSep_plain hd m).2; rw [isWs_space h] at this; cases this

theorem listSep_mem_all (d : BibleData) (m : Bool) :
    listSep d m ∈ [d.verseSepStd, d.verseSepAlt, d.majorListSep, d.minorListSep, d.rangeSep] := by
  cases m <;> simp [listSep]

/-- No name has a list separator in it. -/
theorem listSep_name (hd : PlainSeps u d) (m : Bool) {name : List Char} (h : IsName u d name) : listSep d m ∉ name := by
  obtain ⟨c, mid, x, rfl, hc, hm, _, _, hx⟩ := h
  have hp := listSep_plain hd m
  intro hmem
  rcases List.mem_cons.mp hmem with h1 | h1
  · rw [← h1, hp.1] at hc; cases hc
  · rcases List.mem_append.mp h1 with h1 | h1
    · rcases hm _ h1 with h2 | h2
      · rw [hp.1] at h2; cases h2
      · rw [hp.2] at h2; cases h2
    · rw [List.mem_singleton] at h1
      exact hx (h1 ▸ listSep_mem_all d m)

theorem num_put (hd : PlainSeps u d) (m : Bool) (b : List Char) {s : List Char} {n : Nat} {r : List Char} (h : NumTok s n r) :
    NumTok (s ++ listSep d m :: b) n (r ++ listSep d m :: b) := by
  obtain ⟨ds, h1, h2, rfl, h4, h5⟩ := h
  refine ⟨ds, h1, h2, by rw [List.append_assoc], ?_, h5⟩
  cases r with
  | nil => intro c hc; cases hc; exact listSep_digit hd m
  | cons x r => exact h4

theorem append_before {p r a b : List Char} {c : Char} (h : p ++ r = a ++ c :: b) (hp : c ∉ p) :
    ∃ a', a = p ++ a' ∧ r = a' ++ c :: b := by
  rcases List.append_eq_append_iff.mp h with ⟨x, h1, h2⟩ | ⟨x, h1, h2⟩
  · exact ⟨x, h1, h2⟩
  · cases x with
    | nil => exact ⟨[], by simpa using h1.symm, by simpa using h2.symm⟩
    | cons y x =>
      rw [List.cons_append, List.cons.injEq] at h2
      exact absurd (by rw [h1, ← h2.1]; simp) hp

theorem name_put (hd : PlainSeps u d) (m : Bool) (b : List Char) {s name r : List Char} (h : NameTok u d s name r) :
    NameTok u d (s ++ listSep d m :: b) name (r ++ listSep d m :: b) := by
  obtain ⟨h1, rfl, h3⟩ := h
  refine ⟨h1, by rw [List.append_assoc], fun name' rest' hn he => ?_⟩
  obtain ⟨a', ha, _⟩ := append_before he.symm (listSep_name hd m hn)
  exact h3 name' a' hn ha

theorem skips_put (b : List Char) {s s' : List Char} (h : Skips s s') : Skips (s ++ b) (s' ++ b) := by
  obtain ⟨w, h1, rfl⟩ := h
  exact ⟨w, h1, by rw [List.append_assoc]⟩

theorem single_put (hd : PlainSeps u d) (m : Bool) (b : List Char) {s : List Char} {a : Single} {r : List Char} (h : SingleRule u d s a r) :
    SingleRule u d (s ++ listSep d m :: b) a (r ++ listSep d m :: b) := by
  cases h with
  | book h1 h2 => exact .book (skips_put _ h1) (name_put hd m b h2)
  | bookNum h1 h2 h3 h4 => exact .bookNum (skips_put _ h1) (name_put hd m b h2) (skips_put _ h3) (num_put hd m b h4)
  | bookChapVerse h1 h2 h3 h4 h5 hx h6 h7 =>
    exact .bookChapVerse (skips_put _ h1) (name_put hd m b h2) (skips_put _ h3) (num_put hd m b h4) (skips_put _ h5) hx (skips_put _ h6)
      (num_put hd m b h7)
  | chapVerse h3 h4 h5 hx h6 h7 =>
    exact .chapVerse (skips_put _ h3) (num_put hd m b h4) (skips_put _ h5) hx (skips_put _ h6) (num_put hd m b h7)
  | num h3 h4 => exact .num (skips_put _ h3) (num_put hd m b h4)

theorem ref_put (hd : PlainSeps u d) (m : Bool) (b : List Char) {s : List Char} {a : Ref} {r : List Char} (h : RefRule u d s a r) :
    RefRule u d (s ++ listSep d m :: b) a (r ++ listSep d m :: b) := by
  cases h with
  | single h => exact .single (single_put hd m b h)
  | dual h1 h2 h3 => exact .dual (single_put hd m b h1) (skips_put _ h2) (single_put hd m b h3)

theorem rest_put (hd : PlainSeps u d) (m : Bool) (b : List Char) {l' : List (Bool × Ref)} {t' : Option Bool} {s : List Char}
    {l : List (Bool × Ref)} (h : RestRule u d s l none) (hb : RestRule u d (listSep d m :: b) l' t') :
    RestRule u d (s ++ listSep d m :: b) (l ++ l') t' := by
  generalize ht : (none : Option Bool) = t at h
  induction h with
  | @done s h =>
    obtain ⟨w, hw, rfl⟩ := h
    rw [List.append_nil, List.nil_append]
    cases hb with
    | done h => exact .done (skips_trans ⟨w, hw, rfl⟩ h)
    | trailing h h' => exact .trailing (skips_trans ⟨w, hw, rfl⟩ h) h'
    | cons h h' h'' => exact .cons (skips_trans ⟨w, hw, rfl⟩ h) h' h''
  | trailing => cases ht
  | cons h1 h2 h3 ih => exact .cons (skips_put _ h1) (ref_put hd m b h2) (ih ht)

/-! ## Taking them away again -/

theorem skips_before {s s' : List Char} (h : Skips s s') : ∃ p, s = p ++ s' ∧ ∀ c ∈ p, isWs c = true := by
  obtain ⟨w, h1, h2⟩ := h
  exact ⟨w, h2, h1⟩

theorem notMem_skips (hd : PlainSeps u d) (m : Bool) {s s' : List Char} (h : Skips s s') : ∃ p, s = p ++ s' ∧ listSep d m ∉ p := by
  obtain ⟨w, h1, h2⟩ := h
  exact ⟨w, h2, fun hc => by have := h1 _ hc; rw [listSep_ws hd m] at this; cases this⟩

theorem notMem_num (hd : PlainSeps u d) (m : Bool) {s : List Char} {n : Nat} {r : List Char} (h : NumTok s n r) :
    ∃ p, s = p ++ r ∧ listSep d m ∉ p := by
  obtain ⟨ds, _, h2, h3, _⟩ := h
  exact ⟨ds, h3, fun hc => by have := h2 _ hc; rw [listSep_digit hd m] at this; cases this⟩

theorem notMem_name (hd : PlainSeps u d) (m : Bool) {s name r : List Char} (h : NameTok u d s name r) :
    ∃ p, s = p ++ r ∧ listSep d m ∉ p := ⟨name, h.2.1, listSep_name hd m h.1⟩

theorem notMem_trans {c : Char} {s s1 s2 : List Char} (h : ∃ p, s = p ++ s1 ∧ c ∉ p) (h' : ∃ p, s1 = p ++ s2 ∧ c ∉ p) :
    ∃ p, s = p ++ s2 ∧ c ∉ p := by
  obtain ⟨p, rfl, h1⟩ := h
  obtain ⟨q, rfl, h2⟩ := h'
  exact ⟨p ++ q, by rw [List.append_assoc], by simp [h1, h2]⟩

theorem notMem_char {c x : Char} {s : List Char} (h : c ≠ x) : ∃ p, x :: s = p ++ s ∧ c ∉ p := ⟨[x], rfl, by simpa using h⟩

theorem listSep_verse (hd : PlainSeps u d) (m : Bool) {x : Char} (hx : x = d.verseSepStd ∨ x = d.verseSepAlt) : listSep d m ≠ x := by
  have h1 := hd.major
  have h2 := hd.minor
  simp only [List.mem_cons, List.not_mem_nil, or_false, not_or] at h1 h2
  cases m <;> simp only [listSep, if_true, if_false, Bool.false_eq_true] <;> rcases hx with rfl | rfl
  · exact h2.1
  · exact h2.2
  · exact h1.2.1
  · exact h1.2.2

theorem listSep_range (hd : PlainSeps u d) (m : Bool) : listSep d m ≠ d.rangeSep := by
  have h1 := hd.range
  simp only [List.mem_cons, List.not_mem_nil, or_false, not_or] at h1
  cases m <;> simp only [listSep, if_true, if_false, Bool.false_eq_true]
  · exact fun h => h1.2.1 h.symm
  · exact fun h => h1.1 h.symm

theorem notMem_single (hd : PlainSeps u d) (m : Bool) {s : List Char} {a : Single} {r : List Char} (h : SingleRule u d s a r) :
    ∃ p, s = p ++ r ∧ listSep d m ∉ p := by
  cases h with
  | book h1 h2 => exact notMem_trans (notMem_skips hd m h1) (notMem_name hd m h2)
  | bookNum h1 h2 h3 h4 =>
    exact notMem_trans (notMem_trans (notMem_skips hd m h1) (notMem_name hd m h2)) (notMem_trans (notMem_skips hd m h3) (notMem_num hd m h4))
  | bookChapVerse h1 h2 h3 h4 h5 hx h6 h7 =>
    exact notMem_trans (notMem_trans (notMem_trans (notMem_skips hd m h1) (notMem_name hd m h2))
      (notMem_trans (notMem_skips hd m h3) (notMem_num hd m h4))) (notMem_trans (notMem_trans (notMem_skips hd m h5)
      (notMem_char (listSep_verse hd m hx))) (notMem_trans (notMem_skips hd m h6) (notMem_num hd m h7)))
  | chapVerse h3 h4 h5 hx h6 h7 =>
    exact notMem_trans (notMem_trans (notMem_skips hd m h3) (notMem_num hd m h4)) (notMem_trans (notMem_trans (notMem_skips hd m h5)
      (notMem_char (listSep_verse hd m hx))) (notMem_trans (notMem_skips hd m h6) (notMem_num hd m h7)))
  | num h3 h4 => exact notMem_trans (notMem_skips hd m h3) (notMem_num hd m h4)

theorem notMem_ref (hd : PlainSeps u d) (m : Bool) {s : List Char} {a : Ref} {r : List Char} (h : RefRule u d s a r) :
    ∃ p, s = p ++ r ∧ listSep d m ∉ p := by
  cases h with
  | single h => exact notMem_single hd m h
  | dual h1 h2 h3 =>
    exact notMem_trans (notMem_trans (notMem_single hd m h1) (notMem_skips hd m h2)) (notMem_trans (notMem_char (listSep_range hd m))
      (notMem_single hd m h3))

/-- A reference does not reach beyond a list separator. -/
theorem ref_take (hd : PlainSeps u d) (m : Bool) {a b : List Char} {x : Ref} {r : List Char} (h : RefRule u d (a ++ listSep d m :: b) x r) :
    ∃ a', r = a' ++ listSep d m :: b ∧ RefRule u d a x a' := by
  obtain ⟨p, h1, h2⟩ := notMem_ref hd m h
  obtain ⟨a', ha, hr⟩ := append_before h1.symm h2
  subst hr
  obtain ⟨q, h3, h4⟩ := ref_cut h
  rw [List.append_cancel_right_eq] at h3
  exact ⟨a', rfl, h3 ▸ h4⟩

theorem listSep_inj (hd : PlainSeps u d) {m m' : Bool} (h : listSep d m = listSep d m') : m = m' := by
  have h1 := hd.major
  simp only [List.mem_cons, List.not_mem_nil, or_false, not_or] at h1
  cases m <;> cases m' <;> simp only [listSep, if_true, if_false, Bool.false_eq_true] at h
  · rfl
  · exact absurd h.symm h1.1
  · exact absurd h h1.1
  · rfl

/-- The separator ends a list of references, and what follows it is the rest of the list. -/
theorem rest_take (hd : PlainSeps u d) (m : Bool) {b : List Char} {s : List Char} {k : List (Bool × Ref)} {t : Option Bool}
    (h : RestRule u d s k t) : ∀ a, s = a ++ listSep d m :: b →
      ∃ l l', k = l ++ l' ∧ RestRule u d a l none ∧ RestRule u d (listSep d m :: b) l' t := by
  induction h with
  | done h =>
    rintro a rfl
    obtain ⟨w, h1, h2⟩ := h
    have : listSep d m ∈ w := by
      rw [List.append_nil] at h2
      rw [← h2]; simp
    have := h1 _ this
    rw [listSep_ws hd m] at this
    cases this
  | @trailing s m' s1 h h' =>
    rintro a rfl
    obtain ⟨w, h1, h2⟩ := h
    obtain ⟨w', h1', h2'⟩ := h'
    rw [List.append_nil] at h2'
    obtain ⟨a', ha, hr⟩ := append_before h2.symm (fun hc => by have := h1 _ hc; rw [listSep_ws hd m] at this; cases this)
    cases a' with
    | nil =>
      rw [List.nil_append, List.cons.injEq] at hr
      have hm := listSep_inj hd hr.1
      subst hm
      refine ⟨[], [], rfl, .done ⟨w, h1, by simpa using ha⟩, .trailing (s1 := s1) ⟨[], by simp, by rw [hr.2]; rfl⟩ ⟨w', h1', by simpa using h2'⟩⟩
    | cons y a' =>
      rw [List.cons_append, List.cons.injEq] at hr
      have : listSep d m ∈ w' := by rw [← h2', hr.2]; simp
      have := h1' _ this
      rw [listSep_ws hd m] at this
      cases this
  | @cons s m' s1 r s2 l t h h' h'' ih =>
    rintro a rfl
    obtain ⟨w, h1, h2⟩ := h
    obtain ⟨a', ha, hr⟩ := append_before h2.symm (fun hc => by have := h1 _ hc; rw [listSep_ws hd m] at this; cases this)
    cases a' with
    | nil =>
      rw [List.nil_append, List.cons.injEq] at hr
      have hm := listSep_inj hd hr.1
      subst hm
      exact ⟨[], _, rfl, .done ⟨w, h1, by simpa using ha⟩, .cons ⟨[], by simp, by rw [hr.2]; rfl⟩ h' h''⟩
    | cons y a' =>
      rw [List.cons_append, List.cons.injEq] at hr
      rw [hr.2] at h'
      obtain ⟨a2, h3, h4⟩ := ref_take hd m h'
      obtain ⟨l1, l2, h5, h6, h7⟩ := ih a2 h3
      exact ⟨(m', r) :: l1, l2, by rw [h5]; rfl, .cons ⟨w, h1, by rw [ha, ← hr.1]⟩ h4 h6, h7⟩

/-- A reference has something in it. -/
theorem ref_ne {s : List Char} {x : Ref} {r : List Char} (h : RefRule u d s x r) : ∃ c ∈ s, isWs c = false := by
  have hs : ∀ {s a r}, SingleRule u d s a r → ∃ c ∈ s, isWs c = false := by
    intro s a r h
    have key : ∀ {s s1 : List Char} {c s2}, Skips s s1 → s1 = c :: s2 → isWs c = false → ∃ c ∈ s, isWs c = false := by
      rintro s s1 c s2 ⟨w, _, rfl⟩ rfl hc
      exact ⟨c, by simp, hc⟩
    cases h with
    | book h1 h2 => obtain ⟨c, s', e, hc⟩ := h2.head; exact key h1 e (isWord_ws hc)
    | bookNum h1 h2 => obtain ⟨c, s', e, hc⟩ := h2.head; exact key h1 e (isWord_ws hc)
    | bookChapVerse h1 h2 => obtain ⟨c, s', e, hc⟩ := h2.head; exact key h1 e (isWord_ws hc)
    | chapVerse h1 h2 => obtain ⟨c, s', e, hc⟩ := h2.head; exact key h1 e (isDigit_ws hc)
    | num h1 h2 => obtain ⟨c, s', e, hc⟩ := h2.head; exact key h1 e (isDigit_ws hc)
  cases h with
  | single h => exact hs h
  | dual h => exact hs h

/-- What follows a separator is a list of references of its own, or nothing. -/
theorem rest_after (hd : PlainSeps u d) (m : Bool) {b : List Char} {l : List (Bool × Ref)} {t : Option Bool}
    (h : RestRule u d (listSep d m :: b) l t) :
    ((∀ c ∈ b, isWs c = true) ∧ l = [] ∧ t = some m) ∨ ∃ r l', l = (m, r) :: l' ∧ ListRule u d b ⟨r, l', t⟩ := by
  generalize hs : listSep d m :: b = s at h
  have head : ∀ {c s1}, Skips s (c :: s1) → c = listSep d m ∧ s1 = b ∨ isWs (listSep d m) = true := by
    rintro c s1 ⟨w, h1, h2⟩
    rw [← hs] at h2
    cases w with
    | nil => rw [List.nil_append, List.cons.injEq] at h2; exact .inl ⟨h2.1.symm, h2.2.symm⟩
    | cons x w => rw [List.cons_append, List.cons.injEq] at h2; exact .inr (h2.1 ▸ h1 x (by simp))
  have hw := listSep_ws hd m
  cases h with
  | done h =>
    obtain ⟨w, h1, h2⟩ := h
    rw [List.append_nil, ← hs] at h2
    have := h1 (listSep d m) (by rw [← h2]; simp)
    rw [hw] at this; cases this
  | trailing h h' =>
    rcases head h with ⟨h1, rfl⟩ | h1
    · have := listSep_inj hd h1
      subst this
      obtain ⟨w, h2, h3⟩ := h'
      rw [List.append_nil] at h3
      exact .inl ⟨fun c hc => h2 c (h3 ▸ hc), rfl, rfl⟩
    · rw [hw] at h1; cases h1
  | cons h h' h'' =>
    rcases head h with ⟨h1, rfl⟩ | h1
    · have := listSep_inj hd h1
      subst this
      exact .inr ⟨_, _, rfl, _, h', h''⟩
    · rw [hw] at h1; cases h1

/-- The trees of a string with a separator in it. -/
theorem list_sep (hd : PlainSeps u d) (m : Bool) {a b : List Char} {t : Tree} (h : ListRule u d (a ++ listSep d m :: b) t) :
    ∃ l, ListRule u d a ⟨t.first, l, none⟩ ∧ (((∀ c ∈ b, isWs c = true) ∧ t.rest = l ∧ t.trailing = some m) ∨
      ∃ r l', t.rest = l ++ (m, r) :: l' ∧ ListRule u d b ⟨r, l', t.trailing⟩) := by
  obtain ⟨s1, h1, h2⟩ := h
  obtain ⟨a', rfl, h3⟩ := ref_take hd m h1
  obtain ⟨l, l', h4, h5, h6⟩ := rest_take hd m h2 a' rfl
  refine ⟨l, ⟨a', h3, h5⟩, ?_⟩
  rcases rest_after hd m h6 with ⟨h7, h8, h9⟩ | ⟨r, k, h7, h8⟩
  · exact .inl ⟨h7, by rw [h4, h8, List.append_nil], h9⟩
  · exact .inr ⟨r, k, by rw [h4, h7], h8⟩

theorem list_join (hd : PlainSeps u d) (m : Bool) {a b : List Char} {r : Ref} {l : List (Bool × Ref)} {t : Tree}
    (ha : ListRule u d a ⟨r, l, none⟩) (hb : ListRule u d b t) :
    ListRule u d (a ++ listSep d m :: b) ⟨r, l ++ (m, t.first) :: t.rest, t.trailing⟩ := by
  obtain ⟨s1, h1, h2⟩ := ha
  obtain ⟨s2, h3, h4⟩ := hb
  exact ⟨_, ref_put hd m b h1, rest_put hd m b h2 (.cons (skips_self _) h3 h4)⟩

theorem list_end (hd : PlainSeps u d) (m : Bool) {a : List Char} {r : Ref} {l : List (Bool × Ref)}
    (ha : ListRule u d a ⟨r, l, none⟩) : ListRule u d (a ++ [listSep d m]) ⟨r, l, some m⟩ := by
  obtain ⟨s1, h1, h2⟩ := ha
  have := rest_put hd m [] h2 (.trailing (skips_self _) (skips_self _))
  rw [List.append_nil] at this
  exact ⟨_, ref_put hd m [] h1, this⟩

/-! ## Evaluation -/

theorem runOn_append (P : RangeList) (G : List BibleRange) (Y : RangeList) : runOn (P ++ [G]) Y = P ++ runOn [G] Y := by
  induction P with
  | nil => rfl
  | cons g P ih =>
    cases hP : P ++ [G] with
    | nil => simp at hP
    | cons x xs =>
      have : runOn (g :: x :: xs) Y = g :: runOn (x :: xs) Y := by cases Y <;> rfl
      rw [List.cons_append, hP, this, ← hP, ih, List.cons_append]

theorem inGroups_ne (x : BibleRange) (l : List (Bool × BibleRange)) : ∃ g gs, inGroups x l = g :: gs := by
  cases l with
  | nil => exact ⟨_, _, rfl⟩
  | cons y l =>
    obtain ⟨m, y⟩ := y
    cases m
    · unfold inGroups; split <;> exact ⟨_, _, rfl⟩
    · exact ⟨_, _, rfl⟩

theorem oneAfter_cons (m : Bool) (g : List BibleRange) {P Q : RangeList} (hP : P ≠ []) : oneAfter m (g :: P) Q = g :: oneAfter m P Q := by
  cases P with
  | nil => exact absurd rfl hP
  | cons p P =>
    cases m
    · show runOn (g :: p :: P) Q = g :: runOn (p :: P) Q
      cases Q <;> rfl
    · rfl

theorem oneAfter_head (m : Bool) (x : BibleRange) (g : List BibleRange) (P Q : RangeList) :
    ∃ h hs, oneAfter m (g :: P) Q = h :: hs ∧ oneAfter m ((x :: g) :: P) Q = (x :: h) :: hs := by
  cases m
  · cases P with
    | nil => cases Q with
      | nil => exact ⟨_, _, rfl, rfl⟩
      | cons q Q => exact ⟨_, _, rfl, rfl⟩
    | cons p P => cases Q <;> exact ⟨_, _, rfl, rfl⟩
  · exact ⟨_, _, rfl, rfl⟩

theorem inGroups_append (m : Bool) (y : BibleRange) (l' : List (Bool × BibleRange)) (l : List (Bool × BibleRange)) : ∀ x,
    inGroups x (l ++ (m, y) :: l') = oneAfter m (inGroups x l) (inGroups y l') := by
  induction l with
  | nil =>
    intro x
    cases m
    · obtain ⟨g, gs, h⟩ := inGroups_ne y l'
      show (match inGroups y l' with | [] => [[x]] | g :: gs => (x :: g) :: gs) = runOn [[x]] (inGroups y l')
      rw [h]; rfl
    · rfl
  | cons z l ih =>
    intro x
    obtain ⟨k, z⟩ := z
    obtain ⟨g, gs, h⟩ := inGroups_ne z l
    cases k
    · show (match inGroups z (l ++ (m, y) :: l') with | [] => [[x]] | g :: gs => (x :: g) :: gs) =
        oneAfter m (match inGroups z l with | [] => [[x]] | g :: gs => (x :: g) :: gs) (inGroups y l')
      rw [ih, h]
      obtain ⟨p, ps, h1, h2⟩ := oneAfter_head m x g gs (inGroups y l')
      rw [h1]
      exact h2.symm
    · show [x] :: inGroups z (l ++ (m, y) :: l') = oneAfter m ([x] :: inGroups z l) (inGroups y l')
      rw [ih, oneAfter_cons _ _ (by rw [h]; simp)]

variable {e : Env}

theorem evalRest_append (f : BibleFlag) (l' : List (Bool × Ref)) (l : List (Bool × Ref)) : ∀ s,
    evalRest u e f (l ++ l') s = (evalRest u e f l >>= fun x => evalRest u e f l' >>= fun y => pure (x ++ y)) s := by
  induction l with
  | nil =>
    intro s
    rw [List.nil_append, PM.bind_run]
    show _ = (evalRest u e f l' >>= fun y => pure ([] ++ y)) s
    rw [PM.bind_run]
    cases evalRest u e f l' s with
    | mk r s => cases r <;> rfl
  | cons z l ih =>
    intro s
    obtain ⟨m, z⟩ := z
    show (evalSep m >>= fun _ => evalRef u e f z >>= fun x => evalRest u e f (l ++ l') >>= fun rest => pure ((m, x) :: rest)) s =
      ((evalSep m >>= fun _ => evalRef u e f z >>= fun x => evalRest u e f l >>= fun rest => pure ((m, x) :: rest)) >>= fun x =>
        evalRest u e f l' >>= fun y => pure (x ++ y)) s
    simp only [PM.bind_run]
    cases evalSep m s with
    | mk r0 s0 =>
      cases r0 with
      | error => rfl
      | ok _ =>
        simp only
        cases evalRef u e f z s0 with
        | mk r1 s1 =>
          cases r1 with
          | error => rfl
          | ok x =>
            simp only [ih, PM.bind_run]
            cases evalRest u e f l s1 with
            | mk r2 s2 =>
              cases r2 with
              | error => rfl
              | ok xs =>
                have hp : ∀ {α : Type} (z : α) (s : PState), (pure z : PM α) s = (.ok z, s) := fun _ _ => rfl
                simp only [hp]
                cases evalRest u e f l' s2 with
                | mk r3 s3 => cases r3 <;> rfl

theorem evalSep_ok (m : Bool) (s : PState) : ∃ s', evalSep m s = (.ok (), s') := by cases m <;> exact ⟨_, rfl⟩

/-- A list is evaluated as its two parts one after the other. -/
theorem evalTree_append (f : BibleFlag) (m : Bool) (r : Ref) (l : List (Bool × Ref)) (t : Tree) (s : PState) :
    evalTree u e f ⟨r, l ++ (m, t.first) :: t.rest, t.trailing⟩ s =
      (evalTree u e f ⟨r, l, some m⟩ >>= fun x => evalTree u e f t >>= fun y => pure (oneAfter m x y)) s := by
  have key : ∀ x al y bl, groupUp x (al ++ (m, y) :: bl) = oneAfter m (groupUp x al) (groupUp y bl) := by
    intro x al y bl
    rw [groupUp_inGroups, groupUp_inGroups, groupUp_inGroups, inGroups_append]
  obtain ⟨tf, tr, tt⟩ := t
  cases h1 : evalRef u e f r s with
  | mk x1 s1 =>
    cases x1 with
    | error err =>
      have : ∀ tr' l', evalTree u e f ⟨r, l', tr'⟩ s = (.error err, s1) := fun tr' l' => PM.bind_err h1
      rw [this, PM.bind_err (this _ _)]
    | ok x =>
      cases h2 : evalRest u e f l s1 with
      | mk x2 s2 =>
        cases x2 with
        | error err =>
          have k1 : evalTree u e f ⟨r, l, some m⟩ s = (.error err, s2) := by
            unfold evalTree; rw [PM.bind_ok h1, PM.bind_err h2]
          have k2 : evalRest u e f (l ++ (m, tf) :: tr) s1 = (.error err, s2) := by rw [evalRest_append, PM.bind_err h2]
          rw [PM.bind_err k1]
          unfold evalTree; rw [PM.bind_ok h1, PM.bind_err k2]
        | ok al =>
          obtain ⟨s3, h3⟩ := evalSep_ok m s2
          have k1 : evalTree u e f ⟨r, l, some m⟩ s = (.ok (groupUp x al), s3) := by
            rw [evalTree_ok h1 h2]; simp only [h3]
          rw [PM.bind_ok k1]
          have k2 : evalRest u e f (l ++ (m, tf) :: tr) s1 =
              (evalRef u e f tf >>= fun y => evalRest u e f tr >>= fun bl => pure (al ++ (m, y) :: bl)) s3 := by
            rw [evalRest_append, PM.bind_ok h2]
            show ((evalSep m >>= fun _ => evalRef u e f tf >>= fun x => evalRest u e f tr >>= fun rest => pure ((m, x) :: rest)) >>= fun y =>
              pure (al ++ y)) s2 = _
            simp only [PM.bind_run, h3]
            cases evalRef u e f tf s3 with
            | mk r4 s4 =>
              cases r4 with
              | error => rfl
              | ok y =>
                simp only
                cases evalRest u e f tr s4 with
                | mk r5 s5 => cases r5 <;> rfl
          cases h4 : evalRef u e f tf s3 with
          | mk x4 s4 =>
            cases x4 with
            | error err =>
              rw [PM.bind_err h4] at k2
              have k3 : evalTree u e f ⟨tf, tr, tt⟩ s3 = (.error err, s4) := PM.bind_err h4
              rw [PM.bind_err k3]
              unfold evalTree; rw [PM.bind_ok h1, PM.bind_err k2]
            | ok y =>
              rw [PM.bind_ok h4] at k2
              cases h5 : evalRest u e f tr s4 with
              | mk x5 s5 =>
                cases x5 with
                | error err =>
                  rw [PM.bind_err h5] at k2
                  have k3 : evalTree u e f ⟨tf, tr, tt⟩ s3 = (.error err, s5) := by
                    unfold evalTree; rw [PM.bind_ok h4, PM.bind_err h5]
                  rw [PM.bind_err k3]
                  unfold evalTree; rw [PM.bind_ok h1, PM.bind_err k2]
                | ok bl =>
                  rw [PM.bind_ok h5] at k2
                  rw [PM.bind_ok (evalTree_ok h4 h5), evalTree_ok h1 k2, key]
                  rfl

end Bibleref

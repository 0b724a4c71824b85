import Verif.Lemmas.Culprit
import Verif.Props.Grammar

/-!
# Positions in parsing errors (C63)
-/

namespace Bibleref
open Spec

/-- What `unexpectedAt` gives for a string that does not fit the grammar. -/
theorem unexpectedAt_spec {u : Uni} {d : BibleData} (hd : PlainSeps u d) (s : List Char) :
    (RightSoFar u d s ∧ unexpectedAt u d s = (-1, 0)) ∨
    ∃ k : Nat, k < s.length ∧ unexpectedAt u d s = ((k : Int), (k : Int) + 1) ∧ RightSoFar u d (s.take k) ∧
      ∀ j, k < j → j ≤ s.length → ¬ RightSoFar u d (s.take j) := by
  obtain ⟨q, r, h1, h2⟩ := leftOver_reached (u := u) (d := d) s.length (.ref false) s
  obtain ⟨p, hp⟩ := h1.append
  have hv : RightSoFar u d p := reached_viable h1 hp
  have hle : ∀ j, j ≤ s.length → RightSoFar u d (s.take j) → leftOver u d s.length (.ref false) s ≤ s.length - j := by
    intro j hj hr
    have hsplit : s.take j ++ s.drop j = s := List.take_append_drop j s
    have : ∃ q2 r, Readings u d (.ref false) (s.take j ++ s.drop j) q2 r ∧ r.length ≤ (s.drop j).length := by
      rcases hr with ⟨t, ht⟩ | ⟨t, ht⟩
      · obtain ⟨q, _, h⟩ := list_accepted hd ht
        exact h.replace rfl (s.take j) [] (s.drop j) (by simp) (by simp)
      · obtain ⟨q, _, h⟩ := list_accepted hd ht
        exact h.replace rfl (s.take j) ['1'] (s.drop j) rfl (by intro c hc; simp at hc; subst hc; rfl)
    obtain ⟨q2, r2, k1, k2⟩ := this
    rw [hsplit] at k1
    have := leftOver_le k1 s.length (Nat.le_refl _)
    rw [List.length_drop] at k2
    omega
  have hlen := congrArg List.length hp
  rw [List.length_append] at hlen
  unfold unexpectedAt
  simp only
  by_cases h0 : leftOver u d s.length (.ref false) s = 0
  · rw [if_pos h0]
    rw [h0] at h2
    have hr0 : r = [] := List.length_eq_zero_iff.mp h2
    rw [hr0, List.append_nil] at hp
    exact .inl ⟨hp ▸ hv, by simp⟩
  · rw [if_neg h0]
    refine .inr ⟨p.length, by omega, ?_, ?_, ?_⟩
    · rw [← h2]
      have : ((s.length : Int) - (r.length : Int)) = (p.length : Int) := by omega
      rw [this]
    · have : s.take p.length = p := by rw [hp]; simp
      rw [this]; exact hv
    · intro j hj hj' hr
      have := hle j hj' hr
      omega

/-- C63: with and without positions, the parser reads the same and fails for the same strings. -/
theorem C63_outcome (u : Uni) (e : Env) (flags : Option BibleFlag) (s : List Char) (st : PState) :
    (∀ groups st', parseAt u e flags s st = (.ok groups, st') ↔ parse u e flags s st = (.ok groups, st')) ∧
    ((∃ p st', parseAt u e flags s st = (.error p, st')) ↔ ∃ st', parse u e flags s st = (.error .parsing, st')) := by
  rw [parse_erase]
  cases parseAt u e flags s st with
  | mk x s1 =>
    cases x with
    | ok a => exact ⟨fun _ _ => by simp [eraseOut], by simp [eraseOut]⟩
    | error p => exact ⟨fun _ _ => by simp [eraseOut], by simp [eraseOut]⟩

/-- C63, text that does not fit the grammar. The positions are those of one character: what is before it is right so far, but
with it or more of the string nothing is. -/
theorem C63_unexpected_partial (u : Uni) (e : Env) (hd : PlainSeps u e.data) (flags : Option BibleFlag) (s : List Char) (st : PState)
    (h : ¬ RightSoFar u e.data s) :
    ∃ k : Nat, k < s.length ∧ parseAt u e flags s st = (.error ((k : Int), (k : Int) + 1), st) ∧ RightSoFar u e.data (s.take k) ∧
      ∀ j, k < j → j ≤ s.length → ¬ RightSoFar u e.data (s.take j) := by
  rcases unexpectedAt_spec hd s with ⟨h', _⟩ | ⟨k, h1, h2, h3⟩
  · exact absurd h' h
  · refine ⟨k, h1, ?_, h3⟩
    have hn : locTree u e.data s = none := by
      have := locTree_erase (u := u) (d := e.data) s
      cases hl : locTree u e.data s with
      | none => rfl
      | some t =>
        rw [hl] at this
        exact absurd (.inl ⟨_, tree_sound this.symm⟩) h
    unfold parseAt
    rw [hn, h2]
    rfl

/-- C63 fails for text that is right so far but not complete: the positions are -1 and 0, for every such string. -/
theorem C63_incomplete (u : Uni) (e : Env) (hd : PlainSeps u e.data) (flags : Option BibleFlag) (s : List Char) (st : PState)
    (h : ¬ Fits u e.data s) (h' : Fits u e.data (s ++ ['1'])) : parseAt u e flags s st = (.error (-1, 0), st) := by
  have hn : locTree u e.data s = none := by
    have := locTree_erase (u := u) (d := e.data) s
    cases hl : locTree u e.data s with
    | none => rfl
    | some t =>
      rw [hl] at this
      exact absurd ⟨_, tree_sound this.symm⟩ h
  unfold parseAt
  rw [hn]
  rcases unexpectedAt_spec hd s with ⟨_, h2⟩ | ⟨k, h1, _, _, h4⟩
  · simp only [h2]; rfl
  · exact absurd (.inr (by rw [List.take_length]; exact h')) (h4 s.length h1 (Nat.le_refl _))

/-- C63, text that fits the grammar but cannot be read. The positions are those of just what is wrong, and everything before it can
be read. -/
theorem C63_culprit (u : Uni) (e : Env) (hd : PlainSeps u e.data) (flags : Option BibleFlag) (s : List Char) (st st1 : PState)
    (p : Int × Int) (h : Fits u e.data s) (hp : parseAt u e flags s st = (.error p, st1)) :
    ∃ pre text post st', s = pre ++ text ++ post ∧ p = ((pre.length : Int), ((pre ++ text).length : Int)) ∧
      ReadBefore u e flags st pre st' ∧ Culprit u e flags st' text := by
  obtain ⟨t, ht⟩ := h
  have := locTree_erase (u := u) (d := e.data) s
  rw [tree_complete hd ht] at this
  cases hl : locTree u e.data s with
  | none => rw [hl] at this; cases this
  | some t' =>
    obtain ⟨pre, st', h1, text, post, h2, h3, h4⟩ := parseAt_culprit hd hl hp
    exact ⟨pre, text, post, st', h2, h3, h1, h4⟩

/-- A culprit is not empty. -/
theorem culprit_ne {u : Uni} {e : Env} {flags : Option BibleFlag} {st : PState} {text : List Char} (h : Culprit u e flags st text) :
    text ≠ [] := by
  cases h with
  | name h _ => exact isName_ne h
  | single h _ _ _ => rintro rfl; exact (single_length h).2 rfl
  | dual => simp

/-- C63: the positions of a parsing error always delimit a non-empty part of the string, except that they are -1 and 0 when the string
is not complete. -/
theorem C63_bounds (u : Uni) (e : Env) (hd : PlainSeps u e.data) (flags : Option BibleFlag) (s : List Char) (st st1 : PState)
    (p : Int × Int) (hp : parseAt u e flags s st = (.error p, st1)) :
    (0 ≤ p.1 ∧ p.1 < p.2 ∧ p.2 ≤ s.length) ∨ (p = (-1, 0) ∧ ¬ Fits u e.data s ∧ Fits u e.data (s ++ ['1'])) := by
  by_cases hf : Fits u e.data s
  · obtain ⟨pre, text, post, st', h1, rfl, _, h4⟩ := C63_culprit u e hd flags s st st1 p hf hp
    have := List.length_pos_iff.mpr (culprit_ne h4)
    rw [h1]
    simp only [List.length_append]
    omega
  · by_cases hf' : Fits u e.data (s ++ ['1'])
    · rw [C63_incomplete u e hd flags s st hf hf'] at hp
      cases hp
      exact .inr ⟨rfl, hf, hf'⟩
    · obtain ⟨k, h1, h2, _⟩ := C63_unexpected_partial u e hd flags s st (by rintro (h | h); exact hf h; exact hf' h)
      rw [h2] at hp
      cases hp
      exact .inl ⟨by simp, by simp; omega, by simp; omega⟩

/-- C63, the witness: in "Mark 3:" the positions of the error are -1 and 0. -/
theorem C63_counterexample (st : PState) : parseAt exampleUni dflt none "Mark 3:".toList st = (.error (-1, 0), st) := by
  have : locTree exampleUni dflt.data "Mark 3:".toList = none := by decide +kernel
  unfold parseAt
  rw [this]
  have : unexpectedAt exampleUni dflt.data "Mark 3:".toList = (-1, 0) := by decide +kernel
  rw [this]
  rfl

/-- "Mark 3;4 5" does not fit: the character at 9 is unexpected. -/
example : unexpectedAt exampleUni defaultData "Mark 3;4 5".toList = (9, 10) := by decide +kernel
example : ¬ RightSoFar exampleUni defaultData "Mark 3;4 5".toList := by
  have h : unexpectedAt exampleUni defaultData "Mark 3;4 5".toList = (9, 10) := by decide +kernel
  rcases unexpectedAt_spec (default_plainSeps exampleUni) "Mark 3;4 5".toList with ⟨_, h2⟩ | ⟨k, h1, _, _, h4⟩
  · rw [h] at h2; cases h2
  · have := h4 _ h1 (Nat.le_refl _)
    rwa [List.take_length] at this
/-- In "Mark 3; Foo 4" the name is unknown; in "Mark 2, 20, 3" and "Mark 3; 17:1" there is no such chapter; in "Mark 3 - Matthew" the order is wrong. -/
example : (parseAt exampleUni dflt none "Mark 3; Foo 4".toList PState.init).1 = .error (8, 11) ∧
    (parseAt exampleUni dflt none "Mark 2, 20, 3".toList PState.init).1 = .error (8, 10) ∧
    (parseAt exampleUni dflt none "Mark 3; 17:1, 2".toList PState.init).1 = .error (8, 12) ∧
    (parseAt exampleUni dflt none " Mark 3 - Matthew , 2".toList PState.init).1 = .error (1, 17) := by
  decide +kernel
example : Fits exampleUni defaultData "Mark 3; Foo 4".toList := ⟨_, tree_sound (t := ⟨.single (.bookNum "Mark".toList 3),
  [(true, .single (.bookNum "Foo".toList 4))], none⟩) (by decide +kernel)⟩

end Bibleref

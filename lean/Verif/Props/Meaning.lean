import Verif.Lemmas.Meaning
import Verif.Props.Grammar

/-!
# What reference strings mean (C64, C44)
-/

namespace Bibleref
open Spec

/-- `BibleRangeList(string)` and the trees of the string. -/
theorem ofStr_tree {u : Uni} {e : Env} (hd : PlainSeps u e.data) (flags : Option BibleFlag) {s : List Char} {t : Tree}
    (ht : ListRule u e.data s t) (st : PState) : RangeList.ofStr u e flags s st = evalTree u e (e.eff flags) t st := by
  have hp : parse u e (some (e.eff flags)) s st = evalTree u e (e.eff flags) t st := by
    unfold parse
    rw [tree_complete hd ht, Env.eff_eff]
  have hb : RangeList.ofStr u e flags s st = match parse u e (some (e.eff flags)) s st with
      | (.ok g, st) => (.ok (RangeList.ofNested g), st)
      | (.error err, st) => (.error err, st) := by
    show PM.bind _ _ st = _
    unfold PM.bind
    cases parse u e (some (e.eff flags)) s st with
    | mk r s => cases r <;> rfl
  rw [hb, hp]
  have hg : ∀ g st', evalTree u e (e.eff flags) t st = (.ok g, st') → RangeList.ofNested g = g := by
    intro g st' hg
    have : ∃ x l, g = groupUp x l := by
      unfold evalTree at hg
      cases h1 : evalRef u e (e.eff flags) t.first st with
      | mk r1 s1 =>
        cases r1 with
        | error _ => rw [PM.bind_run, h1] at hg; cases hg
        | ok r1 =>
          rw [PM.bind_run, h1] at hg
          simp only at hg
          rw [PM.bind_run] at hg
          cases h2 : evalRest u e (e.eff flags) t.rest s1 with
          | mk r2 s2 =>
            rw [h2] at hg
            cases r2 with
            | error _ => cases hg
            | ok l =>
              refine ⟨r1, l, ?_⟩
              cases ht : t.trailing with
              | none => rw [ht] at hg; cases hg; rfl
              | some m => rw [ht] at hg; cases m <;> cases hg <;> rfl
    obtain ⟨x, l, rfl⟩ := this
    exact ofNested_groupUp x l
  cases hx : evalTree u e (e.eff flags) t st with
  | mk r s' =>
    cases r with
    | error _ => rfl
    | ok g => simp only [hg g s' hx]

/-- Strings that begin with a name do not depend on the state. -/
theorem ofStr_named {u : Uni} {e : Env} (hd : PlainSeps u e.data) (flags : Option BibleFlag) {s : List Char} {t : Tree}
    (ht : ListRule u e.data s t) (st : PState) (hst : st = PState.init ∨ NamesBook t.first) :
    (RangeList.ofStr u e flags s st).1 = (RangeList.ofStr u e flags s PState.init).1 := by
  rcases hst with rfl | hst
  · rfl
  · refine (C44_named_partial u e flags s st PState.init fun t' ht' => ?_).1
    rw [tree_complete hd ht] at ht'
    cases ht'
    exact hst

/-- **C64.** A string that begins with a book's name, or is the first one parsed, means what `Spec.meaning` says, and
`BibleRefParsingError` is raised when it means nothing. What is missing: calls that allow verse 0s when the global flags do not, for
which `BibleRefParsingError` may be raised although the string has a meaning (`C64_flags_counterexample`, as in C13). -/
theorem C64_meaning_partial (u : Uni) (e : Env) (h : e.data.Full) (hd : PlainSeps u e.data) (flags : Option BibleFlag)
    (hg : (inForce e flags).verse0 = true → e.flags.verse0 = true) (s : List Char) (t : Tree) (ht : ListRule u e.data s t) (st : PState)
    (hst : st = PState.init ∨ NamesBook t.first) :
    (RangeList.ofStr u e flags s st).1 = match meaning u e.data (inForce e flags) [] t with
      | some groups => .ok groups
      | none => .error .parsing := by
  rw [ofStr_named hd flags ht st hst, ofStr_tree hd flags ht]
  rw [← eff_eq] at hg ⊢
  have := (tree_means (flags := flags) h t (follows_init u e.data)).1.1 hg
  rw [this]
  cases meaning u e.data (e.eff flags) [] t <;> rfl

/-- C64, for all flags: what is read is what the string means. -/
theorem C64_sound (u : Uni) (e : Env) (h : e.data.Full) (hd : PlainSeps u e.data) (flags : Option BibleFlag) (s : List Char) (t : Tree)
    (ht : ListRule u e.data s t) (st : PState) (hst : st = PState.init ∨ NamesBook t.first) (groups : RangeList)
    (hr : (RangeList.ofStr u e flags s st).1 = .ok groups) : meaning u e.data (inForce e flags) [] t = some groups := by
  rw [ofStr_named hd flags ht st hst, ofStr_tree hd flags ht] at hr
  rw [← eff_eq]
  have := (tree_means (flags := flags) h t (follows_init u e.data)).1
  rw [hr] at this
  exact this.ok

/-- The global flags do not allow verse 0s but the call does: "Psalm 3" has a meaning, but is not read. -/
theorem C64_flags_counterexample : (RangeList.ofStr exampleUni dflt (some .VERSE_0) "Psalm 3".toList PState.init).1 = .error .parsing ∧
    ListRule exampleUni dflt.data "Psalm 3".toList ⟨.single (.bookNum "Psalm".toList 3), [], none⟩ ∧
    meaning exampleUni dflt.data .VERSE_0 [] ⟨.single (.bookNum "Psalm".toList 3), [], none⟩ =
      some [[⟨⟨.Psa, 3, 0⟩, ⟨.Psa, 3, 8⟩⟩]] := by
  have ht : ListRule exampleUni dflt.data "Psalm 3".toList ⟨.single (.bookNum "Psalm".toList 3), [], none⟩ := tree_sound (by decide +kernel)
  refine ⟨by decide +kernel, ht, ?_⟩
  exact C64_sound exampleUni ⟨defaultData, .VERSE_0⟩ defaultData_full (default_plainSeps _) none _ _ ht PState.init (.inl rfl) _
    (by decide +kernel)

/-- C64, two references with a range separator between them, the first neither beginning nor ending after the second: the result is the
smallest range that contains both. -/
theorem C64_joined_partial (d : BibleData) (f : BibleFlag) (r r' x : BibleRange) (hx : joined d f r r' = some x)
    (h1 : pos d r.start ≤ pos d r'.start) (h2 : pos d r.stop ≤ pos d r'.stop) (hr : pos d r'.start ≤ pos d r'.stop) :
    (∀ v, InRange d r v ∨ InRange d r' v → InRange d x v) ∧
    ∀ y : BibleRange, (InRange d y r.start ∧ InRange d y r'.stop) → ∀ v, InRange d x v → InRange d y v := by
  unfold joined at hx
  split at hx
  · rw [if_pos (by omega)] at hx
    cases hx
    refine ⟨?_, ?_⟩
    · rintro v (hv | hv) <;> unfold InRange at hv ⊢ <;> simp only <;> omega
    · rintro y ⟨h3, h4⟩ v hv
      unfold InRange at *
      simp only at hv
      omega
  · cases hx

/-- C64 fails for references in reverse order: "Mark 4-2" is read as Mark 2:28-4:1. -/
theorem C64_counterexample : (RangeList.ofStr exampleUni dflt none "Mark 4-2".toList PState.init).1 =
    .ok [[⟨⟨.Mark, 2, 28⟩, ⟨.Mark, 4, 1⟩⟩]] ∧ ¬ InRange defaultData ⟨⟨.Mark, 2, 28⟩, ⟨.Mark, 4, 1⟩⟩ ⟨.Mark, 4, 2⟩ := by
  refine ⟨by decide +kernel, fun hr => ?_⟩
  have := (BibleData.WF.le_pos defaultData_full (v0 := false) (w0 := false) (v := ⟨.Mark, 4, 2⟩) (w := ⟨.Mark, 4, 1⟩) (by decide +kernel) (by decide +kernel)).2
    hr.2
  revert this
  decide +kernel

/-- **C44, exactly.** After any strings have been parsed, with any outcome, a string is read as if it were the continuation of what
counts of them. -/
theorem C44_continues (u : Uni) (e : Env) (h : e.data.Full) (hd : PlainSeps u e.data) (flags : Option BibleFlag) (s : List Char) (t : Tree)
    (ht : ListRule u e.data s t) (hist : List (Option BibleFlag × List Char)) (before : List Piece) (hh : Heard u e hist before)
    (hg : (inForce e flags).verse0 = true → e.flags.verse0 = true)
    (hgs : ∀ x ∈ hist, (inForce e x.1).verse0 = true → e.flags.verse0 = true) :
    (RangeList.ofStr u e flags s (afterParses u e hist)).1 = match meaning u e.data (inForce e flags) before t with
      | some groups => .ok groups
      | none => .error .parsing := by
  have hF : Follows u e.data before (afterParses u e hist) := by
    clear ht hg
    induction hh with
    | none => exact follows_init u e.data
    | @fits hist before flags s t _ ht ih =>
      unfold afterParses
      rw [ofStr_tree hd flags ht, ← eff_eq]
      refine tree_heard h ?_ t (ih fun x hx => hgs x (List.mem_cons_of_mem _ hx))
      have := hgs _ List.mem_cons_self
      rwa [← eff_eq] at this
    | @unfit hist before flags s _ ht ih =>
      unfold afterParses
      have : RangeList.ofStr u e flags s (afterParses u e hist) = (.error .parsing, afterParses u e hist) := by
        have hn : parseTree u e.data s = none := by
          cases hp : parseTree u e.data s with
          | none => rfl
          | some t => exact absurd (tree_sound hp) (ht t)
        unfold RangeList.ofStr
        rw [PM.bind_run]
        unfold parse
        rw [hn]
        rfl
      rw [this]
      exact ih fun x hx => hgs x (List.mem_cons_of_mem _ hx)
  rw [ofStr_tree hd flags ht]
  rw [← eff_eq] at hg ⊢
  have := (tree_means (flags := flags) h t hF).1.1 hg
  rw [this]
  cases meaning u e.data (e.eff flags) before t <;> rfl

/-- Every sequence of strings has something that counts. -/
theorem heard_exists (u : Uni) (e : Env) (hist : List (Option BibleFlag × List Char)) : ∃ before, Heard u e hist before := by
  induction hist with
  | nil => exact ⟨_, .none⟩
  | cons x hist ih =>
    obtain ⟨flags, s⟩ := x
    obtain ⟨before, ih⟩ := ih
    by_cases ht : ∃ t, ListRule u e.data s t
    · obtain ⟨t, ht⟩ := ht
      exact ⟨_, .fits ih ht⟩
    · exact ⟨_, .unfit ih fun t h => ht ⟨t, h⟩⟩

/-- The example of README.md: "Matt 2:3-4; 5-7, 9-12" has two groups, and its bare numbers after the semicolon are chapters. -/
example : ListRule exampleUni defaultData "Matt 2:3-4; 5-7, 9-12".toList
      ⟨.dual (.bookChapVerse "Matt".toList 2 3) (.num 4), [(true, .dual (.num 5) (.num 7)), (false, .dual (.num 9) (.num 12))], none⟩ ∧
    meaning exampleUni defaultData .none []
      ⟨.dual (.bookChapVerse "Matt".toList 2 3) (.num 4), [(true, .dual (.num 5) (.num 7)), (false, .dual (.num 9) (.num 12))], none⟩ =
    some [[⟨⟨.Matt, 2, 3⟩, ⟨.Matt, 2, 4⟩⟩], [⟨⟨.Matt, 5, 1⟩, ⟨.Matt, 7, 29⟩⟩, ⟨⟨.Matt, 9, 1⟩, ⟨.Matt, 12, 50⟩⟩]] := by
  have ht : ListRule exampleUni defaultData "Matt 2:3-4; 5-7, 9-12".toList
      ⟨.dual (.bookChapVerse "Matt".toList 2 3) (.num 4), [(true, .dual (.num 5) (.num 7)), (false, .dual (.num 9) (.num 12))], none⟩ :=
    tree_sound (by decide +kernel)
  exact ⟨ht, C64_sound exampleUni dflt defaultData_full (default_plainSeps _) none _ _ ht PState.init (.inl rfl) _ (by decide +kernel)⟩
/-- "Mark 20" was refused, but the book counts for what comes next. -/
example : Heard exampleUni dflt [(none, "Mark 20".toList)] (heardTree exampleUni dflt.data (inForce dflt none) []
    ⟨.single (.bookNum "Mark".toList 20), [], none⟩) :=
  .fits .none (tree_sound (by decide +kernel))

end Bibleref

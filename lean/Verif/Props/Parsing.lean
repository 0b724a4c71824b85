import Verif.SpecText
import Verif.Props.RangeArgs
import Verif.Props.Names
import Verif.Lemmas.Groups

/-!
# Parsing: what can come out (C45), and what does not matter (C44)

`u` says how Python treats the characters from 128 on; `st` is the state the parser's transformer object is in when the call
is made, that is, what earlier parses have left behind.
-/

namespace Bibleref
open Spec

/-! ## Running callbacks -/

theorem PM.bind_run {α β} (m : PM α) (f : α → PM β) (s : PState) :
    (m >>= f) s = match m s with
      | (.ok a, s') => f a s'
      | (.error err, s') => (.error err, s') := rfl

theorem PM.bind_error {α β} {m : PM α} {f : α → PM β} {s : PState} {x : PyErr} (h : (m s).1 = .error x) :
    ((m >>= f) s).1 = .error x := by
  rw [PM.bind_run]
  rcases hx : m s with ⟨y, s'⟩
  rw [hx] at h
  simp only at h
  subst h
  rfl

theorem PM.pure_run {α} (a : α) (s : PState) : (pure a : PM α) s = (.ok a, s) := rfl

/-- Whatever the state, the callback's result has the property, or the exception is a parsing error. -/
def PM.Post {α} (m : PM α) (Q : α → Prop) : Prop := ∀ s, match (m s).1 with
  | .ok a => Q a
  | .error x => x = .parsing

theorem PM.post_pure {α} {Q : α → Prop} {a : α} (h : Q a) : PM.Post (pure a) Q := fun _ => h

theorem PM.post_bind {α β} {m : PM α} {f : α → PM β} {P : α → Prop} {Q : β → Prop} (hm : PM.Post m P)
    (hf : ∀ a, P a → PM.Post (f a) Q) : PM.Post (m >>= f) Q := by
  intro s
  rw [PM.bind_run]
  have := hm s
  rcases hms : m s with ⟨_ | a, s'⟩
  · rw [hms] at this; exact this
  · rw [hms] at this; exact hf a this s'

theorem PM.post_raise {α} {Q : α → Prop} : PM.Post (PM.raise .parsing : PM α) Q := fun _ => rfl
theorem PM.post_get : PM.Post PM.get (fun _ => True) := fun _ => trivial
theorem PM.post_set (s : PState) : PM.Post (PM.set s) (fun _ => True) := fun _ => trivial

theorem PM.post_lift {α} {x : Except PyErr α} {Q : α → Prop} (h : ∀ a, x = .ok a → Q a) : PM.Post (PM.lift (asParsing x)) Q := by
  intro s
  cases x with
  | ok a => exact h a rfl
  | error err => exact rfl

section
variable {u : Uni} {e : Env} (h : e.data.Full) (flags : Option BibleFlag)
include h

theorem ofArgs_allowed {sb eb : Option BibleBook} {sc sv ec ev : Option Int} {r : BibleRange}
    (hr : BibleRange.ofArgs e sb sc sv eb ec ev (some (e.eff flags)) = .ok r) : Allowed e.data (inForce e flags) r := by
  have := C13_sound e h (some (e.eff flags)) sb eb (fun b _ => h.listed b) (fun b _ => h.listed b) sc sv ec ev
  rw [hr] at this
  rcases this with h1 | h1 | ⟨r', h1, h2⟩
  · cases h1
  · cases h1
  · cases h1
    rwa [← eff_eq, Env.eff_eff, eff_eq] at h2

theorem oneRange_post (b : BibleBook) (c v : Option Int) :
    PM.Post (oneRange e (e.eff flags) b c v) (Allowed e.data (inForce e flags)) :=
  PM.post_lift fun _ hr => ofArgs_allowed h flags hr

omit h in
theorem nameCallback_post (name : List Char) : PM.Post (nameCallback u e.data name) (fun _ => True) := by
  unfold nameCallback
  split
  · exact PM.post_raise
  · exact PM.post_pure trivial

theorem evalSingle_post (t : Single) : PM.Post (evalSingle u e (e.eff flags) t) (Allowed e.data (inForce e flags)) := by
  cases t with
  | book name =>
    exact PM.post_bind (nameCallback_post name) fun b _ => PM.post_bind PM.post_get fun s _ =>
      PM.post_bind (PM.post_set _) fun _ _ => oneRange_post h flags _ _ _
  | bookNum name n =>
    refine PM.post_bind (nameCallback_post name) fun b _ => PM.post_bind PM.post_get fun s _ => ?_
    by_cases h1 : b.chapCount e.data = 1
    · simp only [h1, if_true]; exact PM.post_bind (PM.post_set _) fun _ _ => oneRange_post h flags _ _ _
    · simp only [h1, if_false]; exact PM.post_bind (PM.post_set _) fun _ _ => oneRange_post h flags _ _ _
  | bookChapVerse name c v =>
    exact PM.post_bind (nameCallback_post name) fun b _ => PM.post_bind (PM.post_set _) fun _ _ => oneRange_post h flags _ _ _
  | chapVerse c v =>
    refine PM.post_bind PM.post_get fun s _ => ?_
    cases s.book with
    | none => exact PM.post_raise
    | some b => exact PM.post_bind (PM.post_set _) fun _ _ => oneRange_post h flags _ _ _
  | num n =>
    refine PM.post_bind PM.post_get fun s _ => ?_
    cases s.book with
    | none => exact PM.post_raise
    | some b =>
      by_cases h1 : b.chapCount e.data = 1
      · simp only [h1, if_true]; exact PM.post_bind (PM.post_set _) fun _ _ => oneRange_post h flags _ _ _
      · simp only [h1, if_false]
        cases s.atVerse with
        | false => exact oneRange_post h flags _ _ _
        | true =>
          cases s.chap with
          | none => exact PM.post_raise
          | some c => exact oneRange_post h flags _ _ _

theorem evalRef_post (t : Ref) : PM.Post (evalRef u e (e.eff flags) t) (Allowed e.data (inForce e flags)) := by
  cases t with
  | single a => exact evalSingle_post h flags a
  | dual a b =>
    exact PM.post_bind (evalSingle_post h flags a) fun _ _ => PM.post_bind (evalSingle_post h flags b) fun _ _ =>
      PM.post_lift fun _ hr => ofArgs_allowed h flags hr

omit h in
theorem evalSep_post (m : Bool) : PM.Post (evalSep m) (fun _ => True) :=
  PM.post_bind PM.post_get fun _ _ => PM.post_set _

theorem evalRest_post (l : List (Bool × Ref)) :
    PM.Post (evalRest u e (e.eff flags) l) (fun x => ∀ p ∈ x, Allowed e.data (inForce e flags) p.2) := by
  induction l with
  | nil => exact PM.post_pure (by simp)
  | cons p l ih =>
    obtain ⟨m, t⟩ := p
    refine PM.post_bind (evalSep_post m) fun _ _ => PM.post_bind (evalRef_post h flags t) fun r hr =>
      PM.post_bind ih fun x hx => PM.post_pure ?_
    simp only [List.mem_cons, forall_eq_or_imp]
    exact ⟨hr, hx⟩

end

theorem foldl_groupStep (l : List (Bool × BibleRange)) (a : List (List BibleRange)) (g : List BibleRange)
    (ha : ∀ x ∈ a, x ≠ []) (hg : g ≠ []) :
    (∀ x ∈ (l.foldl groupStep (a, g)).1, x ≠ []) ∧ (l.foldl groupStep (a, g)).2 ≠ [] ∧
    (l.foldl groupStep (a, g)).1.flatten ++ (l.foldl groupStep (a, g)).2 = a.flatten ++ g ++ l.map (·.2) := by
  induction l generalizing a g with
  | nil => exact ⟨ha, hg, by simp⟩
  | cons p l ih =>
    obtain ⟨m, r⟩ := p
    rw [List.foldl_cons]
    cases m with
    | false =>
      have := ih a (g ++ [r]) ha (by simp)
      refine ⟨this.1, this.2.1, ?_⟩
      refine this.2.2.trans ?_
      simp
    | true =>
      have := ih (a ++ [g]) [r] (by
        intro x hx
        simp only [List.mem_append, List.mem_singleton] at hx
        rcases hx with hx | rfl
        · exact ha x hx
        · exact hg) (by simp)
      refine ⟨this.1, this.2.1, ?_⟩
      refine this.2.2.trans ?_
      simp

theorem groupUp_ne (r : BibleRange) (l : List (Bool × BibleRange)) :
    groupUp r l ≠ [] ∧ (∀ g ∈ groupUp r l, g ≠ []) ∧ (groupUp r l).flatten = r :: l.map (·.2) := by
  have := foldl_groupStep l [] [r] (by simp) (by simp)
  unfold groupUp
  refine ⟨by simp, ?_, ?_⟩
  · intro g hg
    simp only [List.mem_append, List.mem_singleton] at hg
    rcases hg with hg | rfl
    · exact this.1 g hg
    · exact this.2.1
  · simpa using this.2.2

theorem ofNested_groupUp (r : BibleRange) (l : List (Bool × BibleRange)) : RangeList.ofNested (groupUp r l) = groupUp r l := by
  unfold RangeList.ofNested
  rw [Groups.foldl_appendGroup [] (groupUp_ne r l).2.1]
  rfl

theorem parse_post {u : Uni} {e : Env} (h : e.data.Full) (flags : Option BibleFlag) (s : List Char) :
    PM.Post (parse u e flags s) (fun x => x ≠ [] ∧ (∀ g ∈ x, g ≠ []) ∧ ∀ r ∈ x.flatten, Allowed e.data (inForce e flags) r) := by
  unfold parse
  split
  · exact PM.post_raise
  · rename_i t _
    refine PM.post_bind (evalRef_post h flags t.first) fun r hr => PM.post_bind (evalRest_post h flags t.rest) fun l hl => ?_
    have hq : groupUp r l ≠ [] ∧ (∀ g ∈ groupUp r l, g ≠ []) ∧ ∀ x ∈ (groupUp r l).flatten, Allowed e.data (inForce e flags) x := by
      refine ⟨(groupUp_ne r l).1, (groupUp_ne r l).2.1, ?_⟩
      rw [(groupUp_ne r l).2.2]
      intro x hx
      simp only [List.mem_cons, List.mem_map] at hx
      rcases hx with rfl | ⟨p, hp, rfl⟩
      · exact hr
      · exact hl p hp
    cases t.trailing with
    | none => exact PM.post_pure (Q := fun x => x ≠ [] ∧ _) hq
    | some m => exact PM.post_bind (evalSep_post m) fun _ _ => PM.post_pure (Q := fun x => x ≠ [] ∧ _) hq

theorem ofStr_post {u : Uni} {e : Env} (h : e.data.Full) (flags : Option BibleFlag) (s : List Char) :
    PM.Post (RangeList.ofStr u e flags s)
      (fun x => x ≠ [] ∧ (∀ g ∈ x, g ≠ []) ∧ ∀ r ∈ x.flatten, Allowed e.data (inForce e flags) r) := by
  have hp := parse_post (u := u) h (some (e.eff flags)) s
  refine PM.post_bind hp fun x hx => PM.post_pure ?_
  rw [← eff_eq, Env.eff_eff, eff_eq] at hx
  have : RangeList.ofNested x = x := by
    unfold RangeList.ofNested
    rw [Groups.foldl_appendGroup [] hx.2.1]; rfl
  rw [this]
  exact hx

theorem BibleRange.ofStr_fst (u : Uni) (e : Env) (flags : Option BibleFlag) (s : List Char) (st : PState) :
    (BibleRange.ofStr u e flags s st).1 = match (RangeList.ofStr u e (some (e.eff flags)) s st).1 with
      | .error err => .error err
      | .ok l => match l.flatten with
        | [r] => .ok r
        | _ => .error .invalidReference := by
  unfold BibleRange.ofStr
  rw [PM.bind_run]
  rcases RangeList.ofStr u e (some (e.eff flags)) s st with ⟨_ | l, st'⟩
  · rfl
  · simp only
    rcases List.flatten l with _ | ⟨r, _ | ⟨r', t⟩⟩ <;> rfl

theorem BibleVerse.ofStr_fst (u : Uni) (e : Env) (flags : Option BibleFlag) (s : List Char) (st : PState) :
    (BibleVerse.ofStr u e flags s st).1 = match (RangeList.ofStr u e flags s st).1 with
      | .error err => .error err
      | .ok l => match l.flatten with
        | [r] => if r.isSingleVerse then .ok r.start else .error .invalidReference
        | _ => .error .invalidReference := by
  unfold BibleVerse.ofStr
  rw [PM.bind_run]
  rcases RangeList.ofStr u e flags s st with ⟨_ | l, st'⟩
  · rfl
  · simp only
    rcases List.flatten l with _ | ⟨r, _ | ⟨r', t⟩⟩
    · rfl
    · by_cases hr : r.isSingleVerse = true <;> simp [hr, PM.pure_run, PM.raise]
    · rfl

/-! ## C45 -/

/-- **C45, lists.** Whatever the string, the flags and the history, `BibleRangeList(string)` either raises
`BibleRefParsingError` or gives a list that is not empty, has no empty group, and whose ranges all exist, are in reading order,
and cross books only with `MULTIBOOK`. -/
theorem C45_list (u : Uni) (e : Env) (h : e.data.Full) (flags : Option BibleFlag) (s : List Char) (st : PState) :
    (RangeList.ofStr u e flags s st).1 = .error .parsing ∨
    ∃ l, (RangeList.ofStr u e flags s st).1 = .ok l ∧ l ≠ [] ∧ (∀ g ∈ l, g ≠ []) ∧
      ∀ r ∈ l.flatten, Allowed e.data (inForce e flags) r := by
  have := ofStr_post (u := u) h flags s st
  cases hx : (RangeList.ofStr u e flags s st).1 with
  | error x => rw [hx] at this; exact .inl (by rw [this])
  | ok l => rw [hx] at this; exact .inr ⟨l, rfl, this⟩

/-- **C45, ranges.** `BibleRange(string)` raises `BibleRefParsingError` or `InvalidReferenceError`, or gives a range as in
`C45_list`. -/
theorem C45_range (u : Uni) (e : Env) (h : e.data.Full) (flags : Option BibleFlag) (s : List Char) (st : PState) :
    (BibleRange.ofStr u e flags s st).1 = .error .parsing ∨ (BibleRange.ofStr u e flags s st).1 = .error .invalidReference ∨
    ∃ r, (BibleRange.ofStr u e flags s st).1 = .ok r ∧ Allowed e.data (inForce e flags) r := by
  have hl := C45_list u e h (some (e.eff flags)) s st
  have hf : inForce e (some (e.eff flags)) = inForce e flags := by rw [← eff_eq, Env.eff_eff, eff_eq]
  rw [hf] at hl
  rw [BibleRange.ofStr_fst]
  rcases hl with hl | ⟨l, hl, _, _, ha⟩
  · rw [hl]; exact .inl rfl
  · rw [hl]
    simp only
    split
    · rename_i r heq
      exact .inr (.inr ⟨r, rfl, ha r (by rw [heq]; simp)⟩)
    · exact .inr (.inl rfl)

/-- **C45, verses.** `BibleVerse(string)` raises `BibleRefParsingError` or `InvalidReferenceError`, or gives a verse that
exists. -/
theorem C45_verse (u : Uni) (e : Env) (h : e.data.Full) (flags : Option BibleFlag) (s : List Char) (st : PState) :
    (BibleVerse.ofStr u e flags s st).1 = .error .parsing ∨ (BibleVerse.ofStr u e flags s st).1 = .error .invalidReference ∨
    ∃ v, (BibleVerse.ofStr u e flags s st).1 = .ok v ∧ v ∈ canon e.data (inForce e flags).verse0 := by
  have hl := C45_list u e h flags s st
  rw [BibleVerse.ofStr_fst]
  rcases hl with hl | ⟨l, hl, _, _, ha⟩
  · rw [hl]; exact .inl rfl
  · rw [hl]
    simp only
    split
    · rename_i r heq
      split
      · exact .inr (.inr ⟨r.start, rfl, (ha r (by rw [heq]; simp)).ok.start_mem⟩)
      · exact .inr (.inl rfl)
    · exact .inr (.inl rfl)

example : (RangeList.ofStr exampleUni dflt none "Mark 2-3:6; 4, Jude".toList PState.init).1 =
      .ok [[⟨⟨.Mark, 2, 1⟩, ⟨.Mark, 3, 6⟩⟩], [⟨⟨.Mark, 4, 1⟩, ⟨.Mark, 4, 41⟩⟩, ⟨⟨.Jude, 1, 1⟩, ⟨.Jude, 1, 25⟩⟩]] ∧
    (RangeList.ofStr exampleUni dflt none "Mark 2-Luke 3".toList PState.init).1 = .error .parsing ∧
    (BibleRange.ofStr exampleUni dflt none "Mark 2, 3".toList PState.init).1 = .error .invalidReference ∧
    (BibleVerse.ofStr exampleUni dflt none "Mark 2:5".toList PState.init).1 = .ok ⟨.Mark, 2, 5⟩ := by decide +kernel

/-! ## C44 -/

theorem evalSingle_num_run (u : Uni) (e : Env) (f : BibleFlag) (n : Nat) (s : PState) :
    evalSingle u e f (.num n) s = (match s.book with
    | none => PM.raise .parsing
    | some b =>
      if b.chapCount e.data = 1 then
        PM.set { s with chap := some (b.minChapNum e.data) } >>= fun _ =>
        oneRange e f b (some (b.minChapNum e.data)) (some n)
      else if s.atVerse then
        match s.chap with
        | none => PM.raise .parsing
        | some c => oneRange e f b (some c) (some n)
      else oneRange e f b (some n) none : PM BibleRange) s := rfl

theorem evalSingle_num_single (u : Uni) (e : Env) (f : BibleFlag) (n : Nat) (s : PState) (b : BibleBook) (hb : s.book = some b)
    (h1 : b.chapCount e.data = 1) :
    evalSingle u e f (.num n) s = oneRange e f b (some (b.minChapNum e.data)) (some n) { s with chap := some (b.minChapNum e.data) } := by
  rw [evalSingle_num_run]
  simp only [hb, h1, if_true]
  rw [PM.bind_run]
  simp [PM.set]

theorem evalSingle_num_chap (u : Uni) (e : Env) (f : BibleFlag) (n : Nat) (s : PState) (b : BibleBook) (hb : s.book = some b)
    (h1 : b.chapCount e.data ≠ 1) (hv : s.atVerse = false) :
    evalSingle u e f (.num n) s = oneRange e f b (some n) none s := by
  rw [evalSingle_num_run]
  simp [hb, h1, hv]

theorem evalSingle_num_verse (u : Uni) (e : Env) (f : BibleFlag) (n : Nat) (s : PState) (b : BibleBook) (c : Int)
    (hb : s.book = some b) (h1 : b.chapCount e.data ≠ 1) (hv : s.atVerse = true) (hc : s.chap = some c) :
    evalSingle u e f (.num n) s = oneRange e f b (some c) (some n) s := by
  rw [evalSingle_num_run]
  simp [hb, h1, hv, hc]

/-- The states make no difference to what comes next: the same book, and the same level; at verse level the same chapter. -/
def PState.Sim (s t : PState) : Prop := s.book = t.book ∧ s.atVerse = t.atVerse ∧ (s.atVerse = true → s.chap = t.chap)

/-- Equal results, and states that make no difference if the results are values. -/
def PM.SameFrom {α} (m : PM α) (s t : PState) : Prop :=
  (m s).1 = (m t).1 ∧ ∀ a, (m s).1 = .ok a → PState.Sim (m s).2 (m t).2

theorem PM.sameFrom_bind {α β} {m : PM α} {f : α → PM β} {s t : PState} (hm : PM.SameFrom m s t)
    (hf : ∀ a s' t', PState.Sim s' t' → PM.SameFrom (f a) s' t') : PM.SameFrom (m >>= f) s t := by
  unfold PM.SameFrom
  rw [PM.bind_run, PM.bind_run]
  have h1 := hm.1
  have h2 := hm.2
  rcases hs : m s with ⟨x, s'⟩
  rcases ht : m t with ⟨y, t'⟩
  rw [hs, ht] at h1 h2
  subst h1
  cases x with
  | error err => exact ⟨rfl, fun a ha => by cases ha⟩
  | ok a => exact hf a s' t' (h2 a rfl)

theorem PM.sameFrom_pure {α} (a : α) {s t : PState} (h : PState.Sim s t) : PM.SameFrom (pure a) s t := ⟨rfl, fun _ _ => h⟩

theorem PM.sameFrom_lift {α} (x : Except PyErr α) {s t : PState} (h : PState.Sim s t) : PM.SameFrom (PM.lift x) s t :=
  ⟨rfl, fun _ _ => h⟩

theorem PM.sameFrom_raise {α} (x : PyErr) {s t : PState} : PM.SameFrom (PM.raise x : PM α) s t :=
  ⟨rfl, fun _ h => by cases h⟩

theorem PState.Sim.refl (s : PState) : PState.Sim s s := ⟨rfl, rfl, fun _ => rfl⟩

/-- With a book's name at the beginning, nothing of the state before matters. -/
theorem nameCallback_bind {α} (u : Uni) (d : BibleData) (name : List Char) (f : BibleBook → PM α) (s t : PState)
    (hf : ∀ b, PM.SameFrom (f b) s t) : PM.SameFrom (nameCallback u d name >>= f) s t := by
  unfold nameCallback
  split
  · exact ⟨rfl, fun _ h => by cases h⟩
  · exact hf _

theorem evalSingle_named (u : Uni) (e : Env) (f : BibleFlag) (a : Single) (s t : PState)
    (ha : match a with | .chapVerse _ _ => False | .num _ => False | _ => True) : PM.SameFrom (evalSingle u e f a) s t := by
  cases a with
  | book name => exact nameCallback_bind _ _ _ _ _ _ fun b => ⟨rfl, fun _ _ => ⟨rfl, rfl, fun h => by cases h⟩⟩
  | bookNum name n =>
    refine nameCallback_bind _ _ _ _ _ _ fun b => ?_
    by_cases h1 : b.chapCount e.data = 1
    · simp only [h1, if_true]; exact ⟨rfl, fun _ _ => PState.Sim.refl _⟩
    · simp only [h1, if_false]; exact ⟨rfl, fun _ _ => ⟨rfl, rfl, fun h => by cases h⟩⟩
  | bookChapVerse name c v => exact nameCallback_bind _ _ _ _ _ _ fun b => ⟨rfl, fun _ _ => PState.Sim.refl _⟩
  | chapVerse c v => exact ha.elim
  | num n => exact ha.elim

theorem evalSingle_sim (u : Uni) (e : Env) (f : BibleFlag) (a : Single) (s t : PState) (h : PState.Sim s t) :
    PM.SameFrom (evalSingle u e f a) s t := by
  obtain ⟨b, c, v⟩ := s
  obtain ⟨b', c', v'⟩ := t
  obtain ⟨h1, h2, h3⟩ := h
  simp only at h1 h2 h3
  subst h1; subst h2
  cases a with
  | book name => exact evalSingle_named _ _ _ _ _ _ trivial
  | bookNum name n => exact evalSingle_named _ _ _ _ _ _ trivial
  | bookChapVerse name c v => exact evalSingle_named _ _ _ _ _ _ trivial
  | chapVerse n m =>
    unfold evalSingle
    cases b with
    | none => exact PM.sameFrom_raise _
    | some b => exact ⟨rfl, fun _ _ => PState.Sim.refl _⟩
  | num n =>
    cases b with
    | none => exact PM.sameFrom_raise _
    | some b =>
      by_cases h1 : b.chapCount e.data = 1
      · unfold PM.SameFrom
        rw [evalSingle_num_single u e f n _ b rfl h1, evalSingle_num_single u e f n _ b rfl h1]
        exact ⟨rfl, fun _ _ => ⟨rfl, rfl, fun _ => rfl⟩⟩
      · cases v with
        | false =>
          unfold PM.SameFrom
          rw [evalSingle_num_chap u e f n _ b rfl h1 rfl, evalSingle_num_chap u e f n _ b rfl h1 rfl]
          exact ⟨rfl, fun _ _ => ⟨rfl, rfl, fun h => by cases h⟩⟩
        | true =>
          have := h3 rfl
          subst this
          exact ⟨rfl, fun _ _ => PState.Sim.refl _⟩

theorem evalRef_named (u : Uni) (e : Env) (f : BibleFlag) (r : Ref) (s t : PState) (hr : NamesBook r) :
    PM.SameFrom (evalRef u e f r) s t := by
  cases r with
  | single a => cases a <;> first | exact evalSingle_named _ _ _ _ _ _ trivial | exact hr.elim
  | dual a b =>
    refine PM.sameFrom_bind ?_ fun x s' t' h' => PM.sameFrom_bind (evalSingle_sim _ _ _ _ _ _ h') fun y s' t' h' =>
      PM.sameFrom_lift _ h'
    cases a <;> first | exact evalSingle_named _ _ _ _ _ _ trivial | exact hr.elim

theorem evalRef_sim (u : Uni) (e : Env) (f : BibleFlag) (r : Ref) (s t : PState) (h : PState.Sim s t) :
    PM.SameFrom (evalRef u e f r) s t := by
  cases r with
  | single a => exact evalSingle_sim _ _ _ _ _ _ h
  | dual a b =>
    exact PM.sameFrom_bind (evalSingle_sim _ _ _ _ _ _ h) fun x s' t' h' =>
      PM.sameFrom_bind (evalSingle_sim _ _ _ _ _ _ h') fun y s' t' h' => PM.sameFrom_lift _ h'

theorem evalSep_sim (m : Bool) (s t : PState) (h : PState.Sim s t) : PM.SameFrom (evalSep m) s t := by
  cases m with
  | false => exact ⟨rfl, fun _ _ => h⟩
  | true => exact ⟨rfl, fun _ _ => ⟨h.1, rfl, fun h => by cases h⟩⟩

theorem evalRest_sim (u : Uni) (e : Env) (f : BibleFlag) (l : List (Bool × Ref)) (s t : PState) (h : PState.Sim s t) :
    PM.SameFrom (evalRest u e f l) s t := by
  induction l generalizing s t with
  | nil => exact PM.sameFrom_pure _ h
  | cons p l ih =>
    obtain ⟨m, r⟩ := p
    exact PM.sameFrom_bind (evalSep_sim m s t h) fun _ s t h => PM.sameFrom_bind (evalRef_sim _ _ _ _ _ _ h) fun _ s t h =>
      PM.sameFrom_bind (ih _ _ h) fun _ s t h => PM.sameFrom_pure _ h

theorem evalTree_named (u : Uni) (e : Env) (f : BibleFlag) (x : Tree) (s t : PState) (hx : NamesBook x.first) :
    PM.SameFrom (evalTree u e f x) s t := by
  refine PM.sameFrom_bind (evalRef_named _ _ _ _ _ _ hx) fun r s t h => PM.sameFrom_bind (evalRest_sim _ _ _ _ _ _ h)
    fun l s t h => ?_
  cases x.trailing with
  | none => exact PM.sameFrom_pure _ h
  | some m => exact PM.sameFrom_bind (evalSep_sim m s t h) fun _ s t h => PM.sameFrom_pure _ h

theorem evalSingle_bare (u : Uni) (e : Env) (f : BibleFlag) (a : Single) (s : PState) (hs : s.book = none)
    (ha : match a with | .chapVerse _ _ => True | .num _ => True | _ => False) :
    (evalSingle u e f a s).1 = .error .parsing := by
  obtain ⟨b, c, v⟩ := s
  simp only at hs
  subst hs
  cases a with
  | chapVerse n m => rfl
  | num n => rfl
  | book => exact ha.elim
  | bookNum => exact ha.elim
  | bookChapVerse => exact ha.elim

/-- **C44 does not hold.** "3:4" is refused by a new parser, but is Mark 3:4 after "Mark 2" has been parsed, or has been refused
(here because Mark has no chapter 20). -/
theorem C44_counterexample :
    (RangeList.ofStr exampleUni dflt none "3:4".toList (afterParses exampleUni dflt [])).1 = .error .parsing ∧
    (RangeList.ofStr exampleUni dflt none "3:4".toList (afterParses exampleUni dflt [(none, "Mark 2".toList)])).1 =
      .ok [[⟨⟨.Mark, 3, 4⟩, ⟨.Mark, 3, 4⟩⟩]] ∧
    (RangeList.ofStr exampleUni dflt none "3:4".toList (afterParses exampleUni dflt [(none, "Mark 20".toList)])).1 =
      .ok [[⟨⟨.Mark, 3, 4⟩, ⟨.Mark, 3, 4⟩⟩]] := by decide +kernel

/-- **C44, strings that begin with a book's name.** What comes out does not depend on the history. What is missing: strings
that begin with a number, for which the property is false (`C44_counterexample`). -/
theorem C44_named_partial (u : Uni) (e : Env) (flags : Option BibleFlag) (s : List Char) (st st' : PState)
    (hs : ∀ t, parseTree u e.data s = some t → NamesBook t.first) :
    (RangeList.ofStr u e flags s st).1 = (RangeList.ofStr u e flags s st').1 ∧
    (BibleRange.ofStr u e flags s st).1 = (BibleRange.ofStr u e flags s st').1 ∧
    (BibleVerse.ofStr u e flags s st).1 = (BibleVerse.ofStr u e flags s st').1 := by
  have key : ∀ flags, (RangeList.ofStr u e flags s st).1 = (RangeList.ofStr u e flags s st').1 := by
    intro flags
    unfold RangeList.ofStr
    rw [PM.bind_run, PM.bind_run]
    have : (parse u e (some (e.eff flags)) s st).1 = (parse u e (some (e.eff flags)) s st').1 := by
      unfold parse
      cases ht : parseTree u e.data s with
      | none => rfl
      | some t => exact (evalTree_named u e _ t st st' (hs t ht)).1
    rcases hp : parse u e (some (e.eff flags)) s st with ⟨x, s1⟩
    rcases hp' : parse u e (some (e.eff flags)) s st' with ⟨y, s2⟩
    rw [hp, hp'] at this
    simp only at this
    subst this
    cases x <;> rfl
  refine ⟨key flags, ?_, ?_⟩
  · rw [BibleRange.ofStr_fst, BibleRange.ofStr_fst, key]
  · rw [BibleVerse.ofStr_fst, BibleVerse.ofStr_fst, key]

/-- **C44, strings that begin with a number.** A new parser refuses them all. -/
theorem C44_bare (u : Uni) (e : Env) (flags : Option BibleFlag) (s : List Char)
    (hs : ∀ t, parseTree u e.data s = some t → ¬ NamesBook t.first) :
    (RangeList.ofStr u e flags s PState.init).1 = .error .parsing := by
  unfold RangeList.ofStr
  rw [PM.bind_run]
  have : (parse u e (some (e.eff flags)) s PState.init).1 = .error .parsing := by
    unfold parse
    cases ht : parseTree u e.data s with
    | none => rfl
    | some t =>
      have hn := hs t ht
      have hr : (evalRef u e (e.eff (some (e.eff flags))) t.first PState.init).1 = .error .parsing := by
        cases hf : t.first with
        | single a =>
          rw [hf] at hn
          cases a <;> first | exact (hn trivial).elim | exact evalSingle_bare _ _ _ _ _ rfl trivial
        | dual a b =>
          rw [hf] at hn
          have ha : (evalSingle u e (e.eff (some (e.eff flags))) a PState.init).1 = .error .parsing := by
            cases a <;> first | exact (hn trivial).elim | exact evalSingle_bare _ _ _ _ _ rfl trivial
          exact PM.bind_error ha
      exact PM.bind_error hr
  rcases hp : parse u e (some (e.eff flags)) s PState.init with ⟨x, s1⟩
  rw [hp] at this
  simp only at this
  subst this
  rfl

example : (∀ t, parseTree exampleUni dflt.data "Mark 2:3-4; 5, Jude 6".toList = some t → NamesBook t.first) ∧
    (RangeList.ofStr exampleUni dflt none "Mark 2:3-4; 5, Jude 6".toList (afterParses exampleUni dflt [(none, "Luke 3:4".toList)])).1
      = .ok [[⟨⟨.Mark, 2, 3⟩, ⟨.Mark, 2, 4⟩⟩], [⟨⟨.Mark, 5, 1⟩, ⟨.Mark, 5, 43⟩⟩, ⟨⟨.Jude, 1, 6⟩, ⟨.Jude, 1, 6⟩⟩]] := by
  refine ⟨?_, by decide +kernel⟩
  have : parseTree exampleUni dflt.data "Mark 2:3-4; 5, Jude 6".toList =
      some ⟨.dual (.bookChapVerse "Mark".toList 2 3) (.num 4), [(true, .single (.num 5)), (false, .single (.bookNum "Jude".toList 6))],
        none⟩ := by decide +kernel
  rw [this]
  intro t ht
  cases ht
  trivial

end Bibleref

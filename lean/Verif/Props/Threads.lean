import Verif.Lemmas.Threads2
import Verif.Props.Names

/-!
# Reading strings in several threads (C79)
-/

namespace Bibleref

open Spec

theorem listOfStr_alone (u : Uni) (e : Env) (flags : Option BibleFlag) (str : List Char) (s : Shared)
    (hs : ∀ t, s.current = some t → t < s.objs.length) :
    ((Thread.listOfStr u e flags str).alone s).1 = (RangeList.ofStr u e flags str (remembered s)).1 ∧
    remembered ((Thread.listOfStr u e flags str).alone s).2 = (RangeList.ofStr u e flags str (remembered s)).2 := by
  have h := parse_alone u e (some (e.eff flags)) str s hs
  unfold Thread.listOfStr RangeList.ofStr
  rw [Thread.alone_bind, show ∀ (m : PM (List (List BibleRange))) (k : List (List BibleRange) → PM RangeList) p, (m >>= k) p = PM.bind m k p from
    fun _ _ _ => rfl]
  unfold PM.bind
  revert h
  rcases (Thread.parse u e (some (e.eff flags)) str).alone s with ⟨r, s'⟩
  rcases parse u e (some (e.eff flags)) str (remembered s) with ⟨r', p'⟩
  rintro ⟨rfl, rfl⟩
  cases r with
  | ok a => exact ⟨rfl, rfl⟩
  | error err => exact ⟨rfl, rfl⟩

/-- C79, one thread: with nobody else around, a thread that reads a string does what the callbacks do without threads, starting from
what the transformer remembers, and leaves it remembering the same. -/
theorem C79_alone (u : Uni) (e : Env) (flags : Option BibleFlag) (str : List Char) (s : Shared)
    (hs : s.current = none ∨ InUse s) :
    ((Thread.listOfStr u e flags str).alone s).1 = (RangeList.ofStr u e flags str (remembered s)).1 ∧
    remembered ((Thread.listOfStr u e flags str).alone s).2 = (RangeList.ofStr u e flags str (remembered s)).2 := by
  refine listOfStr_alone u e flags str s fun t ht => ?_
  rcases hs with hs | ⟨t', a, h1, h2⟩
  · rw [hs] at ht; cases ht
  · rw [h1] at ht
    cases ht
    exact (List.getElem?_eq_some_iff.mp h2).1

/-- C79, no thread waits for another: for every call there is a number of turns after which it has ended, whatever the other
threads are and do. -/
theorem C79_ends (u : Uni) (e : Env) (flags : Option BibleFlag) (str : List Char) : ∃ n, ∀ (schedule : List Nat) (i : Nat) (s : Shared)
    (others : List (Thread RangeList)), others[i]? = some (Thread.listOfStr u e flags str) → n ≤ schedule.count i →
    ∃ r, resultOf (Thread.run schedule (s, others)) i = some r := by
  obtain ⟨n, hn⟩ := within_listOfStr u e flags str
  exact ⟨n, fun schedule i s others hi hc => Within.run schedule hc (x := (s, others)) hi hn⟩

theorem good_listOfStr {ι : Type} {I : ι → Shared → Prop} {u : Uni} {e : Env} {flags : Option BibleFlag} {str : List Char} {l : ι}
    {P : Prop} (h : Good I l (Thread.parse u e (some (e.eff flags)) str)
      (fun r _ => P → ∀ p, r = (parse u e (some (e.eff flags)) str p).1)) :
    Good I l (Thread.listOfStr u e flags str) (fun r _ => P → ∀ p, r = (RangeList.ofStr u e flags str p).1) := by
  have hv : ∀ p, (RangeList.ofStr u e flags str p).1 = match (parse u e (some (e.eff flags)) str p).1 with
      | .ok g => .ok (RangeList.ofNested g)
      | .error err => .error err := by
    intro p
    show (PM.bind _ _ p).1 = _
    unfold PM.bind
    rcases parse u e (some (e.eff flags)) str p with ⟨r, p'⟩
    cases r <;> rfl
  refine Good.bind h ?_ ?_
  · intro a l' ha hP p
    rw [hv, ← ha hP p]
  · intro err l' he hP p
    rw [hv, ← he hP p]

theorem valid_run (u : Uni) (e : Env) (hd : e.data.WF) (calls : List (Option BibleFlag × List Char)) (s : Shared)
    (hs : ∀ t, s.current = some t → t < s.objs.length) (schedule : List Nat) (i : Nat) (hi : i < calls.length) :
    ∀ t, (Thread.run schedule (s, readers u e calls)).1.current = some t →
      t < (Thread.run schedule (s, readers u e calls)).1.objs.length := by
  have h : AllGood (I := firstAssert fun _ => True) (fun _ _ => True) (s, readers u e calls) := by
    intro j th hj
    unfold readers at hj
    simp only [List.getElem?_map, Option.map_eq_some_iff] at hj
    obtain ⟨c, _, rfl⟩ := hj
    refine ⟨(none, false), ⟨fun _ _ => trivial, hs, fun t ht => (by cases ht), fun ht => (by cases ht)⟩, ?_⟩
    exact (good_listOfStr (good_parse_first (ok := fun _ => True) (P := False) trivial u e hd _ trivial c.2 (fun h => h.elim)
      (fun h => h.elim))).mono fun _ _ _ => trivial
  have h := h.run schedule
  have hlen : ∀ (sch : List Nat) (x : Thread.System RangeList), (Thread.run sch x).2.length = x.2.length := by
    intro sch
    induction sch with
    | nil => exact fun _ => rfl
    | cons j sch ih =>
      intro x
      show (Thread.run sch (Thread.turn j x)).2.length = _
      rw [ih]
      unfold Thread.turn
      split <;> simp
  have hi' : i < (Thread.run schedule (s, readers u e calls)).2.length := by
    rw [hlen]
    simpa [readers] using hi
  obtain ⟨l, hl, _⟩ := h i _ (List.getElem?_eq_getElem hi')
  exact hl.2.1

/-- C79, a thread that is not interrupted: if, once it has begun, a call that reads a string has all turns until it ends, as when
programs take a lock around such calls, then it gives what it gives without threads, starting from what the transformer remembers at
that time. -/
theorem C79_uninterrupted (u : Uni) (e : Env) (hd : e.data.WF) (calls : List (Option BibleFlag × List Char)) (s : Shared)
    (hs : s.current = none ∨ InUse s) (before : List Nat) (i k : Nat) (c : Option BibleFlag × List Char) (hc : calls[i]? = some c)
    (hi : i ∉ before) (r : Except PyErr RangeList)
    (hr : resultOf (Thread.run (before ++ List.replicate k i) (s, readers u e calls)) i = some r) :
    r = (RangeList.ofStr u e c.1 c.2 (remembered (Thread.run before (s, readers u e calls)).1)).1 := by
  have hs' : ∀ t, s.current = some t → t < s.objs.length := by
    intro t ht
    rcases hs with hs | ⟨t', a, h1, h2⟩
    · rw [hs] at ht; cases ht
    · rw [h1] at ht
      cases ht
      exact (List.getElem?_eq_some_iff.mp h2).1
  have hl : i < calls.length := (List.getElem?_eq_some_iff.mp hc).1
  have hrun : Thread.run (before ++ List.replicate k i) (s, readers u e calls) =
      Thread.run (List.replicate k i) (Thread.run before (s, readers u e calls)) := by
    unfold Thread.run; rw [List.foldl_append]
  rw [hrun] at hr
  have h0 : (Thread.run before (s, readers u e calls)).2[i]? = some (Thread.listOfStr u e c.1 c.2) := by
    rw [run_others before i hi]
    simp [readers, hc]
  rw [run_alone k i h0 hr]
  exact (listOfStr_alone u e c.1 c.2 _ (valid_run u e hd calls s hs' before i hl)).1

/-- C79 for strings that leave nothing to be understood: if all threads read with the same flags in force and something has been
read before, or all read with the global flags, then a string whose references all name their book, and their chapter if they give a
verse, is read as it is read without threads, in whatever order the threads have their turns and whatever strings the others read.

Missing from the full property: strings with references that leave the book or the chapter to be understood, threads that use
different flags, and the first use with other flags than the global ones; see `C79_counterexample_book`, `C79_counterexample_chapter`,
`C79_counterexample_flags` and `C79_counterexample_first`. -/
theorem C79_partial (u : Uni) (e : Env) (hd : e.data.WF) (calls : List (Option BibleFlag × List Char)) (F : BibleFlag)
    (hF : ∀ c ∈ calls, inForce e c.1 = F) (s : Shared) (hs : InUse s ∨ (s = ⟨none, []⟩ ∧ F = e.flags)) (schedule : List Nat) (i : Nat)
    (c : Option BibleFlag × List Char) (hc : calls[i]? = some c) (hall : TextSaysAll u e.data c.2) (r : Except PyErr RangeList)
    (hr : resultOf (Thread.run schedule (s, readers u e calls)) i = some r) (p : PState) :
    r = (RangeList.ofStr u e c.1 c.2 p).1 := by
  let Q : Nat → Except PyErr RangeList → Prop := fun i r => ∀ c, calls[i]? = some c → TextSaysAll u e.data c.2 →
    ∀ p, r = (RangeList.ofStr u e c.1 c.2 p).1
  have hF' : ∀ c ∈ calls, e.eff (some (e.eff c.1)) = F := fun c hc => by rw [e.eff_eff, eff_eq]; exact hF c hc
  rcases hs with ⟨t, a, h1, h2⟩ | ⟨rfl, hg⟩
  · have h : AllGood (I := inUseAssert t F) Q (s, readers u e calls) := by
      intro j th hj
      unfold readers at hj
      simp only [List.getElem?_map, Option.map_eq_some_iff] at hj
      obtain ⟨c, hc, rfl⟩ := hj
      refine ⟨false, ⟨h1, (List.getElem?_eq_some_iff.mp h2).1, fun h => (by cases h)⟩, ?_⟩
      have := good_listOfStr (good_parse_inUse u e hd (some (e.eff c.1)) c.2 t)
      rw [hF' c (List.mem_of_getElem? hc)] at this
      exact this.mono fun r _ hr c' hc' => by
        rw [hc] at hc'
        cases hc'
        exact hr
    exact (h.run schedule).result hr c hc hall p
  · have h : AllGood (I := firstAssert fun f => e.eff f = e.eff none) Q (⟨none, []⟩, readers u e calls) := by
      intro j th hj
      unfold readers at hj
      simp only [List.getElem?_map, Option.map_eq_some_iff] at hj
      obtain ⟨c, hc, rfl⟩ := hj
      have hn : e.eff (some (e.eff c.1)) = e.eff none := by rw [hF' c (List.mem_of_getElem? hc), hg, eff_eq]; rfl
      refine ⟨(none, false), ⟨fun a ha => (by cases ha), fun t ht => (by cases ht), fun t ht => (by cases ht), fun ht => (by cases ht)⟩, ?_⟩
      refine (good_listOfStr (good_parse_first (ok := fun f => e.eff f = e.eff none) (P := TextSaysAll u e.data c.2) rfl u e hd
        (some (e.eff c.1)) (by rw [e.eff_eff, hn]) c.2 (fun _ f hf => by rw [hf, hn]) id)).mono ?_
      intro r _ hr c' hc'
      rw [hc] at hc'
      cases hc'
      exact hr
    exact (h.run schedule).result hr c hc hall p

/-! ## What goes wrong -/

/-- A transformer that has been used. -/
def usedOnce : Shared := ⟨some 0, [.new]⟩

/-- Thread 0 reads "Mark 2; 3". After it has read the first reference, thread 1 begins to read "Luke 5", and thread 0 goes on with
chapter 3 of Luke. -/
theorem C79_counterexample_book :
    resultOf (Thread.run (List.replicate 9 0 ++ List.replicate 6 1 ++ List.replicate 10 0)
      (usedOnce, readers exampleUni dflt [(none, "Mark 2; 3".toList), (none, "Luke 5".toList)])) 0 =
      some (.ok [[⟨⟨.Mark, 2, 1⟩, ⟨.Mark, 2, 28⟩⟩], [⟨⟨.Luke, 3, 1⟩, ⟨.Luke, 3, 38⟩⟩]]) ∧
    (RangeList.ofStr exampleUni dflt none "Mark 2; 3".toList .init).1 =
      .ok [[⟨⟨.Mark, 2, 1⟩, ⟨.Mark, 2, 28⟩⟩], [⟨⟨.Mark, 3, 1⟩, ⟨.Mark, 3, 35⟩⟩]] := by
  decide +kernel

/-- Thread 0 reads "Jude 3", which names its book and is read alone without thinking of anything before it. Thread 1 reads "Luke 5"
and its chapter becomes that of thread 0, which finds no chapter 5 in Jude. -/
theorem C79_counterexample_chapter :
    resultOf (Thread.run (List.replicate 8 0 ++ List.replicate 8 1 ++ List.replicate 10 0)
      (usedOnce, readers exampleUni dflt [(none, "Jude 3".toList), (none, "Luke 5".toList)])) 0 = some (.error .parsing) ∧
    ∀ p ∈ [PState.init, ⟨some .Luke, some 5, false⟩, ⟨some .Mark, some 2, true⟩], (RangeList.ofStr exampleUni dflt none "Jude 3".toList p).1 = .ok [[⟨⟨.Jude, 1, 3⟩, ⟨.Jude, 1, 3⟩⟩]] := by
  decide +kernel

/-- Thread 0 reads a range across books with the flag for it, but thread 1 sets other flags before it gets there. -/
theorem C79_counterexample_flags :
    resultOf (Thread.run (List.replicate 3 0 ++ List.replicate 3 1 ++ List.replicate 20 0)
      (usedOnce, readers exampleUni dflt [(some .MULTIBOOK, "Mark 16:8 - Luke 1:1".toList), (some .VERSE_0, "Luke 5".toList)])) 0 =
      some (.error .parsing) ∧
    (RangeList.ofStr exampleUni dflt (some .MULTIBOOK) "Mark 16:8 - Luke 1:1".toList .init).1 =
      .ok [[⟨⟨.Mark, 16, 8⟩, ⟨.Luke, 1, 1⟩⟩]] := by
  decide +kernel

/-- Two threads read for the first time, both with the flag for ranges across books. Both find no transformer and make one; thread 0
sets its flags on the first and goes on with the second, which has none yet. -/
theorem C79_counterexample_first :
    resultOf (Thread.run ([0, 1] ++ List.replicate 4 0 ++ List.replicate 2 1 ++ List.replicate 20 0)
      (⟨none, []⟩, readers exampleUni dflt [(some .MULTIBOOK, "Mark 16:8 - Luke 1:1".toList),
        (some .MULTIBOOK, "Mark 16:8 - Luke 1:1".toList)])) 0 = some (.error .parsing) ∧
    (RangeList.ofStr exampleUni dflt (some .MULTIBOOK) "Mark 16:8 - Luke 1:1".toList .init).1 =
      .ok [[⟨⟨.Mark, 16, 8⟩, ⟨.Luke, 1, 1⟩⟩]] := by
  decide +kernel

/-! ## Examples -/

/-- What the string in the next example consists of. -/
theorem example_tree : parseTree exampleUni dflt.data "Mark 2:3 - Mark 3; Luke".toList = some
    ⟨.dual (.bookChapVerse "Mark".toList 2 3) (.bookNum "Mark".toList 3), [(true, .single (.book "Luke".toList))], none⟩ := by
  decide +kernel

/-- Two threads, one of which says all there is to say; the other one does not. -/
example (p : PState) : ∃ r, resultOf (Thread.run ((List.replicate 40 [0, 1]).flatten)
    (usedOnce, readers exampleUni dflt [(none, "Mark 2:3 - Mark 3; Luke".toList), (none, "Luke 5, 6".toList)])) 0 = some r ∧
    r = (RangeList.ofStr exampleUni dflt none "Mark 2:3 - Mark 3; Luke".toList p).1 := by
  have h : resultOf (Thread.run ((List.replicate 40 [0, 1]).flatten)
      (usedOnce, readers exampleUni dflt [(none, "Mark 2:3 - Mark 3; Luke".toList), (none, "Luke 5, 6".toList)])) 0 =
    some (.ok [[⟨⟨.Mark, 2, 3⟩, ⟨.Mark, 3, 35⟩⟩], [⟨⟨.Luke, 1, 1⟩, ⟨.Luke, 24, 53⟩⟩]]) := by decide +kernel
  have hall : TextSaysAll exampleUni dflt.data "Mark 2:3 - Mark 3; Luke".toList := by
    intro t ht
    rw [example_tree] at ht
    cases ht
    refine ⟨⟨trivial, ?_⟩, fun x hx => ?_⟩
    · intro b hb
      have : b = .Mark := Option.some.inj (hb.symm.trans (by decide +kernel))
      subst this
      decide +kernel
    · rw [List.mem_singleton.mp hx]
      trivial
  have hF : ∀ c ∈ [((none : Option BibleFlag), "Mark 2:3 - Mark 3; Luke".toList), (none, "Luke 5, 6".toList)], inForce dflt c.1 = .none := by
    intro c hc
    simp only [List.mem_cons, List.not_mem_nil, or_false] at hc
    rcases hc with rfl | rfl <;> rfl
  exact ⟨_, h, C79_partial exampleUni dflt defaultData_wf _ .none hF usedOnce (.inl ⟨0, .new, rfl, rfl⟩) _ 0 _ (List.getElem?_cons_zero ..) hall _ h p⟩

/-- A thread that is not interrupted. -/
example : resultOf (Thread.run ([1, 1, 1, 1, 1, 1] ++ List.replicate 30 0)
    (usedOnce, readers exampleUni dflt [(none, "Mark 2; 3".toList), (none, "Luke 5".toList)])) 0 =
    some (.ok [[⟨⟨.Mark, 2, 1⟩, ⟨.Mark, 2, 28⟩⟩], [⟨⟨.Mark, 3, 1⟩, ⟨.Mark, 3, 35⟩⟩]]) := by decide +kernel

end Bibleref

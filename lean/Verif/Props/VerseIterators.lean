import Verif.Model.VerseIterators
import Verif.Props.Flags
import Verif.Props.Ranges

/-!
# Iterating over ranges while the flags change (C80)
-/

namespace Bibleref

open Spec

namespace Spec

/-- What an iterator gives when it is asked so many times: the verses of the range as `list(range)` has them (C14), then
`StopIteration` again and again. -/
def answers (d : BibleData) (r : BibleRange) (asked : Nat) : List (Except PyErr (Option BibleVerse)) :=
  (List.range asked).map fun k =>
    .ok (((if r.start.verse = 0 then [r.start] else []) ++ versesOf d false r)[k]?)

/-- How often iterator `i` is asked in the program. -/
def asked (i : Nat) (prog : List IterStep) : Nat := prog.count (.next i)

/-- The ranges the program makes iterators over. -/
def ranges : List IterStep → List BibleRange
  | [] => []
  | .make r :: prog => r :: ranges prog
  | _ :: prog => ranges prog

/-- Iterators are asked only after they have been made; `n` have been made before. -/
def InTurn : Nat → List IterStep → Prop
  | _, [] => True
  | n, .make _ :: prog => InTurn (n + 1) prog
  | n, .next i :: prog => i < n ∧ InTurn n prog
  | n, .setFlags _ :: prog => InTurn n prog

end Spec

/-- The list still to come, whatever the flags. -/
def Upcoming (d : BibleData) (r : BibleRange) (start : Option BibleVerse) (l : List BibleVerse) : Prop :=
  ∃ fuel, ∀ f, BibleRange.iterFrom ⟨d, f⟩ r.stop fuel start = .ok l

/-- The iterator and the verses it has still to give. -/
def IterAt (d : BibleData) (r : BibleRange) : VerseIter → List BibleVerse → Prop
  | .fresh, l => Upcoming d r (some r.start) l
  | .at v, l => ∃ w, (∀ f, v.add ⟨d, f⟩ 1 (some .MULTIBOOK) = .ok w) ∧ Upcoming d r w l
  | .finished, l => l = []

theorem add_flags_free (d : BibleData) (v : BibleVerse) (n : Int) (f g : BibleFlag) :
    v.add ⟨d, f⟩ n (some .MULTIBOOK) = v.add ⟨d, g⟩ n (some .MULTIBOOK) :=
  add_congr (e := ⟨d, f⟩) (e' := ⟨d, g⟩) (fl := some .MULTIBOOK) (fl' := some .MULTIBOOK) rfl rfl v n

theorem iterFrom_flags_free (d : BibleData) (stop : BibleVerse) (f g : BibleFlag) (fuel : Nat) (v : Option BibleVerse) :
    BibleRange.iterFrom ⟨d, f⟩ stop fuel v = BibleRange.iterFrom ⟨d, g⟩ stop fuel v := by
  induction fuel generalizing v with
  | zero => cases v <;> rfl
  | succ fuel ih =>
    cases v with
    | none => rfl
    | some v =>
      unfold BibleRange.iterFrom
      rw [add_flags_free d v 1 f g]
      simp only [ih]

theorem upcoming_test {d : BibleData} {r : BibleRange} {v : BibleVerse} {l : List BibleVerse} (h : Upcoming d r (some v) l) (f : BibleFlag) :
    (VerseIter.test ⟨d, f⟩ r v).1 = .ok l[0]? ∧ IterAt d r (VerseIter.test ⟨d, f⟩ r v).2 l.tail := by
  obtain ⟨fuel, h⟩ := h
  cases fuel with
  | zero => have := h f; simp [BibleRange.iterFrom] at this
  | succ fuel =>
    have hf := h f
    unfold BibleRange.iterFrom at hf
    unfold VerseIter.test
    cases hl : v.lessEq d r.stop with
    | error err => simp [hl, bind, Except.bind] at hf
    | ok b =>
      cases b with
      | false =>
        simp [hl, bind, Except.bind, pure, Except.pure] at hf
        subst hf
        exact ⟨rfl, rfl⟩
      | true =>
        simp only [hl, bind, Except.bind, pure, Except.pure, if_true] at hf
        cases ha : v.add ⟨d, f⟩ 1 (some .MULTIBOOK) with
        | error err => simp [ha] at hf
        | ok w =>
          simp only [ha] at hf
          cases hr : BibleRange.iterFrom ⟨d, f⟩ r.stop fuel w with
          | error err => simp [hr] at hf
          | ok rest =>
            simp only [hr, Except.ok.injEq] at hf
            subst hf
            exact ⟨rfl, w, fun g => by rw [add_flags_free d v 1 g f]; exact ha, fuel, fun g => by rw [iterFrom_flags_free d r.stop g f]; exact hr⟩

theorem iterAt_next {d : BibleData} {r : BibleRange} {it : VerseIter} {l : List BibleVerse} (h : IterAt d r it l) (f : BibleFlag) :
    (it.next ⟨d, f⟩ r).1 = .ok l[0]? ∧ IterAt d r (it.next ⟨d, f⟩ r).2 l.tail := by
  cases it with
  | fresh => exact upcoming_test h f
  | finished =>
    subst h
    exact ⟨rfl, rfl⟩
  | «at» v =>
    obtain ⟨w, hw, hu⟩ := h
    simp only [VerseIter.next, hw f]
    cases w with
    | none =>
      obtain ⟨fuel, hu⟩ := hu
      have := hu f
      cases fuel <;> (simp [BibleRange.iterFrom] at this; subst this; exact ⟨rfl, rfl⟩)
    | some w => exact upcoming_test hu f

/-- The iterator has been asked so many times and has the rest still to come. -/
structure OnTrack (d : BibleData) (it : BibleRange × VerseIter × List (Except PyErr (Option BibleVerse))) (r : BibleRange) (k : Nat) :
    Prop where
  range : it.1 = r
  given : it.2.2 = answers d r k
  state : IterAt d r it.2.1 (((if r.start.verse = 0 then [r.start] else []) ++ versesOf d false r).drop k)

theorem iterAt_fresh {d : BibleData} (h : d.WF) {r : BibleRange} (hr : RangeOK d true r) :
    IterAt d r .fresh ((if r.start.verse = 0 then [r.start] else []) ++ versesOf d false r) :=
  ⟨d.totalVerses + 2, fun f => C14_iteration ⟨d, f⟩ h r hr⟩

/-- C80: whatever a program does with any number of iterators over ranges, in any order, and however it assigns to `bibleref.flags`
in between, every iterator gives the verses that `list(range)` has, one after the other, and then `StopIteration`. No exception is
raised. -/
theorem C80_iterators (d : BibleData) (h : d.WF) (f : BibleFlag) (prog : List IterStep) (hr : ∀ r ∈ ranges prog, RangeOK d true r)
    (ht : InTurn 0 prog) (i : Nat) (r : BibleRange) (hi : (ranges prog)[i]? = some r) :
    ∃ it, (runIters d f prog).iters[i]? = some it ∧ it.1 = r ∧ it.2.2 = answers d r (asked i prog) := by
  have key : ∀ (prog : List IterStep) (s : IterState) (rs : List BibleRange) (ks : Nat → Nat), rs.length = s.iters.length →
      (∀ r ∈ ranges prog, RangeOK d true r) → InTurn s.iters.length prog → (∀ i, s.iters.length ≤ i → ks i = 0) →
      (∀ i r, rs[i]? = some r → ∃ it, s.iters[i]? = some it ∧ OnTrack d it r (ks i)) →
      ∀ i r, (rs ++ ranges prog)[i]? = some r →
        ∃ it, (prog.foldl (fun s x => x.run d s) s).iters[i]? = some it ∧ OnTrack d it r (ks i + asked i prog) := by
    intro prog
    induction prog with
    | nil =>
      intro s rs ks _ _ _ _ hs i r hi
      rw [ranges, List.append_nil] at hi
      exact hs i r hi
    | cons x prog ih =>
      intro s rs ks hl hr ht hks hs i r hi
      cases x with
      | make q =>
        have hq := hr q (.head _)
        have := ih (IterStep.run d (.make q) s) (rs ++ [q]) ks (by simp [IterStep.run, hl]) (fun r h => hr r (.tail _ h))
          (by
            rw [InTurn] at ht
            simpa [IterStep.run] using ht) (fun i hi => hks i (by simp [IterStep.run] at hi; omega)) (by
            intro i r hi
            rw [List.getElem?_append] at hi
            split at hi
            · rename_i hlt
              obtain ⟨it, h1, h2⟩ := hs i r hi
              refine ⟨it, ?_, h2⟩
              simp only [IterStep.run]
              rw [List.getElem?_append_left (by omega)]
              exact h1
            · rename_i hge
              have hi0 : i - rs.length = 0 := by
                have := (List.getElem?_eq_some_iff.mp hi).1
                simp at this
                omega
              rw [hi0] at hi
              cases hi
              refine ⟨(q, .fresh, []), ?_, ?_⟩
              · simp only [IterStep.run]
                rw [List.getElem?_append_right (by omega), show i - s.iters.length = 0 by omega]
                rfl
              · rw [hks i (by omega)]
                exact ⟨rfl, rfl, iterAt_fresh h hq⟩) i r (by rw [List.append_assoc]; exact hi)
        obtain ⟨it, h1, h2⟩ := this
        refine ⟨it, h1, ?_⟩
        rw [asked, List.count_cons_of_ne (by simp)]
        exact h2
      | setFlags g =>
        have := ih (IterStep.run d (.setFlags g) s) rs ks hl hr ht hks hs i r hi
        obtain ⟨it, h1, h2⟩ := this
        refine ⟨it, h1, ?_⟩
        rw [asked, List.count_cons_of_ne (by simp)]
        exact h2
      | next j =>
        have := ih (IterStep.run d (.next j) s) rs (fun i => ks i + if i = j then 1 else 0) (by simp [IterStep.run, hl]) hr
          (by simpa [IterStep.run] using ht.2) (fun i hi => by
            simp only [IterStep.run, List.length_modify] at hi
            have := ht.1
            rw [hks i hi, if_neg (by omega)]) (by
            intro i r hi
            obtain ⟨it, h1, h2⟩ := hs i r hi
            by_cases hij : i = j
            · subst hij
              refine ⟨_, by simp only [IterStep.run, List.getElem?_modify, h1, if_true]; rfl, ?_⟩
              obtain ⟨h3, h4⟩ := iterAt_next h2.state s.flags
              rw [if_pos rfl]
              refine ⟨h2.range, ?_, ?_⟩
              · simp only [h2.given, h2.range, h3, answers, List.range_succ, List.map_append, List.map_cons, List.map_nil]
                simp
              · simp only [h2.range]
                rw [← List.tail_drop]
                exact h4
            · refine ⟨it, ?_, ?_⟩
              · simp only [IterStep.run, List.getElem?_modify, h1]
                simp [Ne.symm hij]
              · rw [if_neg hij]; exact h2) i r hi
        obtain ⟨it, h1, h2⟩ := this
        refine ⟨it, h1, ?_⟩
        have : ks i + (if i = j then 1 else 0) + asked i prog = ks i + asked i (IterStep.next j :: prog) := by
          unfold asked
          rw [List.count_cons]
          by_cases hij : i = j
          · subst hij; simp; omega
          · rw [if_neg hij, if_neg (by simpa using Ne.symm hij)]; omega
        rw [← this]
        exact h2
  obtain ⟨it, h1, h2⟩ := key prog ⟨f, []⟩ [] (fun _ => 0) rfl hr ht (fun _ _ => rfl) (fun i r hi => by cases hi) i r hi
  refine ⟨it, h1, h2.range, ?_⟩
  rw [h2.given]
  simp

/-- C80: going through an iterator to its end gives what `list(range)` gives, whatever flags that is done under. -/
theorem C80_list (d : BibleData) (h : d.WF) (f g : BibleFlag) (r : BibleRange) (hr : RangeOK d true r) (l : List BibleVerse)
    (hl : r.iter ⟨d, g⟩ = .ok l) (n : Nat) :
    ∃ it, (runIters d f (.make r :: List.replicate (l.length + n) (.next 0))).iters = [it] ∧
      it.2.2 = l.map (fun v => .ok (some v)) ++ List.replicate n (.ok none) := by
  have hrn : ∀ k, ranges (List.replicate k (.next 0)) = [] := by
    intro k
    induction k with
    | zero => rfl
    | succ k ih => exact ih
  have hrs : ranges (.make r :: List.replicate (l.length + n) (.next 0)) = [r] := by
    rw [ranges, hrn]
  have ht : ∀ k, InTurn 1 (List.replicate k (.next 0)) := by
    intro k
    induction k with
    | zero => trivial
    | succ k ih => exact ⟨Nat.zero_lt_one, ih⟩
  obtain ⟨it, h1, h2, h3⟩ := C80_iterators d h f (.make r :: List.replicate (l.length + n) (.next 0)) (by
    rw [hrs]; intro x hx; rw [List.mem_singleton.mp hx]; exact hr) (ht _) 0 r (by rw [hrs]; rfl)
  have hlen : (runIters d f (.make r :: List.replicate (l.length + n) (.next 0))).iters.length = 1 := by
    have : ∀ k (s : IterState), ((List.replicate k (IterStep.next 0)).foldl (fun s x => x.run d s) s).iters.length = s.iters.length := by
      intro k
      induction k with
      | zero => exact fun _ => rfl
      | succ k ih =>
        intro s
        rw [List.replicate_succ, List.foldl_cons, ih]
        simp [IterStep.run]
    unfold runIters
    rw [List.foldl_cons, this]
    rfl
  refine ⟨it, ?_, ?_⟩
  · obtain ⟨a, ha⟩ := List.length_eq_one_iff.mp hlen
    rw [ha] at h1 ⊢
    cases h1
    rfl
  · rw [h3]
    have hl' := C14_iteration ⟨d, g⟩ h r hr
    rw [hl] at hl'
    have hl' := Except.ok.inj hl'
    unfold answers
    rw [show asked 0 (.make r :: List.replicate (l.length + n) (.next 0)) = l.length + n by simp [asked]]
    rw [← hl']
    apply List.ext_getElem
    · simp
    · intro k hk1 hk2
      simp only [List.getElem_map, List.getElem_range, List.getElem_append, List.length_map, List.getElem_replicate]
      split
      · rename_i hk
        rw [List.getElem?_eq_getElem hk]
      · rename_i hk
        rw [List.getElem?_eq_none (by omega)]

/-- Two iterators over the end of Mark and the beginning of Luke, with the flags changed in between. -/
example : (runIters defaultData .none [.make ⟨⟨.Mark, 16, 20⟩, ⟨.Luke, 1, 1⟩⟩, .next 0, .setFlags .ALL, .make ⟨⟨.Psa, 3, 0⟩, ⟨.Psa, 3, 1⟩⟩,
      .next 1, .next 0, .setFlags .none, .next 1, .next 0, .next 1]).iters.map (·.2.2) =
    [[.ok (some ⟨.Mark, 16, 20⟩), .ok (some ⟨.Luke, 1, 1⟩), .ok none], [.ok (some ⟨.Psa, 3, 0⟩), .ok (some ⟨.Psa, 3, 1⟩), .ok none]] := by
  decide +kernel

example : RangeOK defaultData true ⟨⟨.Psa, 3, 0⟩, ⟨.Psa, 3, 1⟩⟩ := by
  refine ⟨?_, ?_, ?_⟩ <;> decide +kernel

end Bibleref

import Verif.Props.RangeShapes
import Verif.Props.RangeArgs

/-!
# Flags and book order (C47, C48)
-/

namespace Bibleref
open Spec

/-! ## C47 -/

section
variable {e e' : Env} (hd : e.data = e'.data) {fl fl' : Option BibleFlag} (hf : e.eff fl = e'.eff fl')
include hd hf

theorem minVerseNum_congr (b : BibleBook) (c : Int) : b.minVerseNum e c fl = b.minVerseNum e' c fl' := by
  unfold BibleBook.minVerseNum; rw [hd, hf]

theorem new_congr (b : BibleBook) (c n : Int) : BibleVerse.new e b c n fl = BibleVerse.new e' b c n fl' := by
  unfold BibleVerse.new; rw [minVerseNum_congr hd hf, hd]

theorem add_congr (v : BibleVerse) (n : Int) : v.add e n fl = v.add e' n fl' := by
  have key : ∀ fuel b c n mx, BibleVerse.addLoop e (v.honourFlags (e.eff fl)) fuel b c n mx =
      BibleVerse.addLoop e' (v.honourFlags (e'.eff fl')) fuel b c n mx := by
    have h1 : e.eff (some (v.honourFlags (e.eff fl))) = e'.eff (some (v.honourFlags (e'.eff fl'))) := by
      rw [v.eff_honour, v.eff_honour, hf]
    rw [hf] at h1 ⊢
    generalize v.honourFlags (e'.eff fl') = f at h1 ⊢
    intro fuel
    induction fuel with
    | zero => intros; rfl
    | succ fuel ih =>
      intro b c n mx
      rw [BibleVerse.addLoop, BibleVerse.addLoop, new_congr hd h1]
      simp only [minVerseNum_congr hd h1, ih, hd]
  unfold BibleVerse.add
  simp only [key, hd]

theorem range_new_congr (s t : Option BibleVerse) : BibleRange.new e s t fl = BibleRange.new e' s t fl' := by
  unfold BibleRange.new; rw [hd, hf]

theorem isAdjacent_congr (a b : BibleRange) : a.isAdjacent e b fl = a.isAdjacent e' b fl' := by
  unfold BibleRange.isAdjacent
  simp only [hd, add_congr hd hf]

theorem union_congr (a b : BibleRange) : a.union e b fl = a.union e' b fl' := by
  unfold BibleRange.union
  simp only [isAdjacent_congr hd hf, range_new_congr hd hf, hd]

theorem intersection_congr (a b : BibleRange) : a.intersection e b fl = a.intersection e' b fl' := by
  unfold BibleRange.intersection
  simp only [range_new_congr hd hf, hd]

end

/-- C47 for the constructors, adding to a verse, adjacency, union and intersection: a flag passed to the call decides,
whatever the global flags are. Missing: passing `BibleFlag.NONE`, and `first_verse` with all that builds on it, subtracting
from a verse, and the difference of ranges (`C47_counterexample`). -/
theorem C47_explicit_flags_partial (e : Env) (f : BibleFlag) (hf : f ≠ .none) (g : BibleFlag) :
    (∀ b c n, BibleVerse.new (e.setFlags g) b c n (some f) = BibleVerse.new e b c n (some f)) ∧
    (∀ (v : BibleVerse) n, v.add (e.setFlags g) n (some f) = v.add e n (some f)) ∧
    (∀ s t, BibleRange.new (e.setFlags g) s t (some f) = BibleRange.new e s t (some f)) ∧
    (∀ a b : BibleRange, a.isAdjacent (e.setFlags g) b (some f) = a.isAdjacent e b (some f)) ∧
    (∀ a b : BibleRange, a.union (e.setFlags g) b (some f) = a.union e b (some f)) ∧
    (∀ a b : BibleRange, a.intersection (e.setFlags g) b (some f) = a.intersection e b (some f)) := by
  have hd : (e.setFlags g).data = e.data := rfl
  have h1 : (e.setFlags g).eff (some f) = e.eff (some f) := by rw [Env.eff_some_of_ne _ hf, Env.eff_some_of_ne _ hf]
  exact ⟨new_congr hd h1, add_congr hd h1, range_new_congr hd h1, isAdjacent_congr hd h1, union_congr hd h1, intersection_congr hd h1⟩

/-- C47: without flags the global ones are used, as if they had been passed. -/
theorem C47_global_flags (e : Env) :
    (∀ b c n, BibleVerse.new e b c n none = BibleVerse.new e b c n (some e.flags)) ∧
    (∀ (v : BibleVerse) n, v.add e n none = v.add e n (some e.flags)) ∧
    (∀ s t, BibleRange.new e s t none = BibleRange.new e s t (some e.flags)) ∧
    (∀ a b : BibleRange, a.isAdjacent e b none = a.isAdjacent e b (some e.flags)) ∧
    (∀ a b : BibleRange, a.union e b none = a.union e b (some e.flags)) ∧
    (∀ a b : BibleRange, a.intersection e b none = a.intersection e b (some e.flags)) := by
  have h1 : e.eff none = e.eff (some e.flags) := by unfold Env.eff; split <;> simp_all
  exact ⟨new_congr rfl h1, add_congr rfl h1, range_new_congr rfl h1, isAdjacent_congr rfl h1, union_congr rfl h1, intersection_congr rfl h1⟩

/-- C47: the positional constructor with all start numbers given. -/
theorem C47_positional_partial (e : Env) (h : e.data.WF) (f : BibleFlag) (hf : f ≠ .none) (g : BibleFlag) (sb : BibleBook)
    (hS : sb ∈ e.data.bookOrder) (c n : Int) (eb : Option BibleBook) (hE : ∀ b, eb = some b → b ∈ e.data.bookOrder) (ec ev : Option Int) (hn : ¬ Reversed e.data sb (some c) (some n) eb ec ev) :
    BibleRange.ofArgs (e.setFlags g) (some sb) (some c) (some n) eb ec ev (some f) =
      BibleRange.ofArgs e (some sb) (some c) (some n) eb ec ev (some f) := by
  have hd : (e.setFlags g).data = e.data := rfl
  have h1 : (e.setFlags g).eff (some f) = e.eff (some f) := by rw [Env.eff_some_of_ne _ hf, Env.eff_some_of_ne _ hf]
  have h2 : e.eff (some f) = f := Env.eff_some_of_ne _ hf
  have h3 : (e.setFlags g).eff (some f) = f := Env.eff_some_of_ne _ hf
  have hk := swapArgs_keep h hS hE hn
  rw [ofArgs_stages (e := e.setFlags g) (compareBooks_ok hS hE) hk, ofArgs_stages (compareBooks_ok hS hE) hk]
  simp only [startE, stopE, h2, h3, new_congr hd h1]
  have hl : ∀ (b : BibleBook) c, b.lastVerse (e.setFlags g) c = b.lastVerse e c := by
    intro b c
    cases c
    · rw [lastVerse_none (e := e.setFlags g) h, lastVerse_none h]
    · rw [lastVerse_eq (e := e.setFlags g) h, lastVerse_eq h]
  simp only [hl]

/-- C47 fails: an explicit `NONE` does not switch off global flags; a `VERSE_0` given to `first_verse` is used to find the
number but not to make the verse; and subtracting with `VERSE_0` skips the verse 0s of earlier chapters. -/
theorem C47_counterexample :
    BibleVerse.new dfltAll .Psa 3 0 (some .none) ≠ BibleVerse.new dflt .Psa 3 0 (some .none) ∧
    BibleBook.firstVerse dflt .Psa (some 3) (some .VERSE_0) ≠ BibleBook.firstVerse dfltAll .Psa (some 3) (some .VERSE_0) ∧
    BibleVerse.sub dflt ⟨.Psa, 5, 1⟩ 10 (some .VERSE_0) ≠ BibleVerse.sub dfltAll ⟨.Psa, 5, 1⟩ 10 (some .VERSE_0) ∧
    BibleRange.difference dflt ⟨⟨.Gen, 1, 1⟩, ⟨.Rev, 1, 10⟩⟩ ⟨⟨.Gen, 1, 5⟩, ⟨.Exod, 1, 5⟩⟩ (some .MULTIBOOK) ≠
      BibleRange.difference dfltAll ⟨⟨.Gen, 1, 1⟩, ⟨.Rev, 1, 10⟩⟩ ⟨⟨.Gen, 1, 5⟩, ⟨.Exod, 1, 5⟩⟩ (some .MULTIBOOK) := by
  decide +kernel

example : BibleFlag.VERSE_0 ≠ .none ∧ BibleVerse.new dflt .Psa 3 0 (some .VERSE_0) = .ok ⟨.Psa, 3, 0⟩ ∧
    BibleVerse.new dflt .Psa 3 0 none = .error .invalidReference ∧
    BibleVerse.new (dflt.setFlags .ALL) .Psa 3 0 none = .ok ⟨.Psa, 3, 0⟩ := by decide +kernel

/-! ## C48 -/

/-- State of the setter after a part of the list without repetitions. -/
theorem setBookOrder_fold (old : BibleBook → Option Nat) (l : List BibleBook) : ∀ (done : List BibleBook), (done ++ l).Nodup →
    ∃ s, l.foldlM setBookOrderStep (fun x => if x ∈ done then some (done.idxOf x) else old x,
        BibleBook.all.filter (fun x => x ∉ done), done.length) = .ok s ∧
      (∀ x, s.1 x = if x ∈ done ++ l then some ((done ++ l).idxOf x) else old x) ∧
      (∀ x, x ∈ s.2.1 ↔ x ∉ done ++ l) := by
  induction l with
  | nil =>
    intro done _
    refine ⟨_, rfl, ?_, ?_⟩
    · intro x; rw [List.append_nil]
    · intro x; rw [List.append_nil]; simp [BibleBook.mem_all]
  | cons b l ih =>
    intro done hnd
    have hb : b ∉ done := by
      rw [List.nodup_append] at hnd
      intro hh
      exact hnd.2.2 b hh b (List.mem_cons_self ..) rfl
    rw [show done ++ b :: l = (done ++ [b]) ++ l by simp] at hnd ⊢
    obtain ⟨s, h1, h2, h3⟩ := ih (done ++ [b]) hnd
    refine ⟨s, ?_, h2, h3⟩
    rw [List.foldlM_cons, ← h1]
    unfold setBookOrderStep
    simp only
    rw [if_pos (by simp [BibleBook.mem_all, hb])]
    simp only [bind, Except.bind]
    congr 1
    refine Prod.ext ?_ (Prod.ext ?_ ?_)
    · funext x
      simp only [List.mem_append, List.mem_singleton]
      by_cases hxb : x = b
      · subst hxb
        rw [if_pos rfl, if_pos (.inr rfl), List.idxOf_append, if_neg hb]; simp
      · rw [if_neg hxb]
        by_cases hxd : x ∈ done
        · rw [if_pos hxd, if_pos (.inl hxd), List.idxOf_append, if_pos hxd]
        · rw [if_neg hxd, if_neg (by simp [hxd, hxb])]
    · simp only [List.filter_filter]
      apply List.filter_congr
      intro x _
      simp [and_comm]
    · simp

/-- C48: an order without repetitions is accepted; then a listed book's order is its position and other books have none. -/
theorem C48_book_order (old : BibleBook → Option Nat) (l : List BibleBook) (hl : l.Nodup) :
    ∃ orders, setBookOrder old l = .ok orders ∧ (∀ (i : Nat) b, l[i]? = some b → orders b = some i) ∧
      ∀ b, b ∉ l → orders b = none := by
  obtain ⟨s, h1, h2, h3⟩ := setBookOrder_fold old l [] (by simpa using hl)
  simp only [List.not_mem_nil, not_false_eq_true, decide_true, List.filter_eq_self.mpr (fun _ _ => rfl), List.length_nil, List.nil_append, if_false] at h1 h2 h3
  refine ⟨fun x => if x ∈ s.2.1 then none else s.1 x, ?_, ?_, ?_⟩
  · unfold setBookOrder; rw [h1]; rfl
  · intro i b hb
    have hm := List.mem_of_getElem? hb
    simp only
    rw [if_neg (by rw [h3]; exact fun hh => hh hm), h2, if_pos hm]
    congr 1
    exact index_unique hl (by rw [List.getElem?_eq_getElem (List.idxOf_lt_length_of_mem hm), List.getElem_idxOf]) hb
  · intro b hb
    simp only
    rw [if_pos ((h3 b).mpr hb)]

/-- C48: an order with repetitions is refused. -/
theorem C48_repetition_refused (old : BibleBook → Option Nat) (l : List BibleBook) (hl : ¬ l.Nodup) :
    setBookOrder old l = .error .keyError := by
  have key : ∀ (l : List BibleBook) (s : (BibleBook → Option Nat) × List BibleBook × Nat),
      (∃ x, l.foldlM setBookOrderStep s = .ok x ∧ l.Nodup ∧ ∀ b ∈ l, b ∈ s.2.1) ∨ l.foldlM setBookOrderStep s = .error .keyError := by
    intro l
    induction l with
    | nil => intro s; exact .inl ⟨s, rfl, List.nodup_nil, by simp⟩
    | cons b l ih =>
      intro s
      rw [List.foldlM_cons]
      by_cases hb : b ∈ s.2.1
      · have hstep : setBookOrderStep s b = .ok (fun x => if x = b then some s.2.2 else s.1 x, s.2.1.filter (· ≠ b), s.2.2 + 1) := by
          unfold setBookOrderStep; simp only; rw [if_pos hb]
        rw [hstep]
        simp only [bind, Except.bind]
        rcases ih (fun x => if x = b then some s.2.2 else s.1 x, s.2.1.filter (· ≠ b), s.2.2 + 1) with ⟨x, h1, h2, h3⟩ | h1
        · refine .inl ⟨x, h1, ?_, ?_⟩
          · rw [List.nodup_cons]
            refine ⟨fun hh => ?_, h2⟩
            have := h3 b hh
            simp at this
          · intro c hc
            rcases List.mem_cons.mp hc with rfl | hc
            · exact hb
            · have := h3 c hc
              simp only [List.mem_filter] at this
              exact this.1
        · exact .inr h1
      · have hstep : setBookOrderStep s b = .error .keyError := by
          unfold setBookOrderStep; simp only; rw [if_neg hb]
        rw [hstep]; exact .inr rfl
  unfold setBookOrder
  rcases key l (old, BibleBook.all, 0) with ⟨x, _, h2, _⟩ | h1
  · exact absurd h2 hl
  · rw [h1]; rfl

example : ∃ orders, setBookOrder (fun _ => none) [.Matt, .Gen, .Rev] = .ok orders ∧ orders .Gen = some 1 ∧ orders .Exod = none :=
  ⟨_, rfl, by decide +kernel, by decide +kernel⟩
example : [BibleBook.Matt, .Gen, .Rev].Nodup ∧ ¬ [BibleBook.Matt, .Gen, .Matt].Nodup := by decide

end Bibleref

import Verif.Props.SplitTwice

/-!
# The number and size of the pieces of a range (C86)
-/

namespace Bibleref

open Spec

/-- All parts but the last are full. -/
theorem full_parts {α : Type} {size : α → Nat} {n : Nat} {l : List α} (h2 : Neighbours (fun p _ => size p = n) l) :
    ∀ x ∈ l.dropLast, size x = n := by
  induction l with
  | nil => simp
  | cons x l ih =>
    cases l with
    | nil => simp
    | cons y l =>
      intro z hz
      rw [List.dropLast_cons_cons] at hz
      rcases List.mem_cons.mp hz with rfl | hz
      · exact h2.1
      · exact ih h2.2 z hz

theorem sum_parts {α : Type} {size : α → Nat} {n : Nat} {l : List α} (hl : l ≠ []) (h1 : ∀ x ∈ l, size x ≤ n) (h0 : ∀ x ∈ l, 1 ≤ size x)
    (h2 : Neighbours (fun p _ => size p = n) l) : (l.length - 1) * n < (l.map size).sum ∧ (l.map size).sum ≤ l.length * n := by
  induction l with
  | nil => exact absurd rfl hl
  | cons x l ih =>
    cases l with
    | nil =>
      have := h1 x (.head _)
      have := h0 x (.head _)
      simp only [List.map_cons, List.map_nil, List.sum_cons, List.sum_nil, List.length_cons, List.length_nil]
      omega
    | cons y l =>
      obtain ⟨i1, i2⟩ := ih (by simp) (fun z hz => h1 z (.tail _ hz)) (fun z hz => h0 z (.tail _ hz)) h2.2
      have hx : size x = n := h2.1
      rw [List.map_cons, List.sum_cons, List.length_cons (as := y :: l), Nat.add_sub_cancel, Nat.succ_mul]
      rw [List.length_cons, Nat.add_sub_cancel] at i1
      rw [List.length_cons] at i2 ⊢
      have h3 := Nat.succ_mul l.length n
      constructor
      · rw [h3]; omega
      · omega

/-- What `split` gives for any existing range and the global flags, whether it regroups or not. -/
theorem split_pieces_global {e : Env} (h : e.data.WF) {r : BibleRange} (hr : RangeOK e.data true r) {v0 : Bool}
    (hv0 : v0 = (e.flags.verse0 || r.start.verse == 0 || r.stop.verse == 0)) (byBook byChap : Bool) {num : Option Int}
    (hn : ∀ n, num = some n → 1 ≤ n) {fuel : Nat} (hfuel : e.data.totalVerses < fuel) :
    ∃ l, Pieces e.data v0 byBook byChap num r l ∧ l ≠ [] ∧
      r.splitRaw e byBook byChap num none (e.data.totalVerses + 1) = .ok l ∧
      ∀ byRange, ∃ m, r.split e byBook byChap num byRange none fuel = .ok m ∧ m.flatten = l := by
  obtain ⟨l, l1, l2, l3, _⟩ := C19_split e h r hr byBook byChap num hn none v0 hv0 fuel hfuel
  have hp := (C19_exact e h r hr byBook byChap num hn none v0 hv0 fuel hfuel l).mp l1
  refine ⟨l, hp, l2, (C19_exact e h r hr byBook byChap num hn none v0 hv0 _ (Nat.lt_succ_self _) l).mpr hp, fun byRange => ?_⟩
  have up : ∀ x ∈ l, RangeOK e.data true x := fun x hx => by
    have := (rangeOK_iff h).mp (l3 x hx)
    exact (rangeOK_iff h).mpr ⟨this.s.mono, this.t.mono, this.le⟩
  obtain ⟨g1, m, g2, g3, _⟩ := C19_split_groups e h r byBook byChap num none fuel l l1 up l2
  cases byRange with
  | false => exact ⟨_, g1, by simp⟩
  | true => exact ⟨m, g2, g3⟩

/-- C86: there are as many pieces as chapters or books. -/
theorem C86_chapters_books (e : Env) (h : e.data.WF) (r : BibleRange) (hr : RangeOK e.data true r) (byRange : Bool) (fuel : Nat)
    (hfuel : e.data.totalVerses < fuel) :
    (∃ m, r.split e false true none byRange none fuel = .ok m ∧ r.chapCount e false = .ok m.flatten.length) ∧
    ∃ m, r.split e true false none byRange none fuel = .ok m ∧ r.bookCount e false = .ok m.flatten.length := by
  constructor
  · obtain ⟨l, _, _, l3, l4⟩ := split_pieces_global h hr rfl false true (num := none) (fun _ hh => by cases hh) hfuel
    obtain ⟨m, m1, rfl⟩ := l4 byRange
    refine ⟨m, m1, ?_⟩
    simp only [BibleRange.chapCount, l3, bind, Except.bind]; rfl
  · obtain ⟨l, _, _, l3, l4⟩ := split_pieces_global h hr rfl true false (num := none) (fun _ hh => by cases hh) hfuel
    obtain ⟨m, m1, rfl⟩ := l4 byRange
    refine ⟨m, m1, ?_⟩
    simp only [BibleRange.bookCount, l3, bind, Except.bind]; rfl

theorem parts_of_number {d : BibleData} (h : d.WF) {v0 : Bool} {n : Nat} {r : BibleRange} {l : List BibleRange}
    (hp : Pieces d v0 false false (some (n : Int)) r l) : (∀ x ∈ l, (versesOf d v0 x).length ≤ n) ∧ (∀ x ∈ l, 1 ≤ (versesOf d v0 x).length) ∧
    Neighbours (fun p _ => (versesOf d v0 p).length = n) l := by
  refine ⟨fun x hx => by have := hp.size _ rfl x hx; omega, fun x hx => ?_, neighbours_imp (fun x y hxy => ?_) hp.reason⟩
  · have hx' := (rangeOK_iff h).mp (hp.ranges x hx)
    have := (pos_le_ix h hx'.s hx'.t).mp hx'.le
    rw [length_versesOf h hx'.s hx'.t]
    omega
  · rcases hxy with hh | hh | hh
    · cases hh.1
    · cases hh.1
    · have := Option.some.inj hh
      omega

/-- C86: splitting into pieces of `n` verses gives `verse_count() / n` pieces, rounded up. -/
theorem C86_number (e : Env) (h : e.data.WF) (r : BibleRange) (hr : RangeOK e.data true r) (n : Nat) (hn : 1 ≤ n) (byRange : Bool) (fuel : Nat)
    (hfuel : e.data.totalVerses < fuel) : ∃ m, ∃ count : Nat, r.split e false false (some n) byRange none fuel = .ok m ∧
      r.verseCount e = .ok count ∧ (m.flatten.length - 1) * n < count ∧ count ≤ m.flatten.length * n := by
  obtain ⟨l, hp, hne, _, l4⟩ := split_pieces_global h hr rfl false false (num := some (n : Int)) (fun k hk => by cases hk; omega) hfuel
  obtain ⟨m, m1, rfl⟩ := l4 byRange
  refine ⟨m, _, m1, C15_verse_count e h r hr _ rfl, ?_⟩
  obtain ⟨p1, p2, p3⟩ := parts_of_number h hp
  rw [← hp.together, List.length_flatMap]
  exact sum_parts hne p1 p2 p3

/-- C86: all pieces but the last have exactly `n` verses, and the last has some, but not more, where verse 0s count if `VERSE_0` is set
globally or an end of the range is a verse 0. -/
theorem C86_sizes_exact (e : Env) (h : e.data.WF) (r : BibleRange) (hr : RangeOK e.data true r) (v0 : Bool)
    (hv0 : v0 = (e.flags.verse0 || r.start.verse == 0 || r.stop.verse == 0)) (n : Nat) (hn : 1 ≤ n) (byRange : Bool)
    (fuel : Nat) (hfuel : e.data.totalVerses < fuel) : ∃ m, r.split e false false (some n) byRange none fuel = .ok m ∧
      (∀ x ∈ m.flatten.dropLast, (versesOf e.data v0 x).length = n) ∧
      ∀ x ∈ m.flatten.getLast?, 1 ≤ (versesOf e.data v0 x).length ∧ (versesOf e.data v0 x).length ≤ n := by
  obtain ⟨l, hp, hne, _, l4⟩ := split_pieces_global h hr hv0 false false (num := some (n : Int)) (fun k hk => by cases hk; omega) hfuel
  obtain ⟨m, m1, rfl⟩ := l4 byRange
  obtain ⟨p1, p2, p3⟩ := parts_of_number h hp
  exact ⟨m, m1, full_parts p3, fun x hx => ⟨p2 x (List.mem_of_getLast? hx), p1 x (List.mem_of_getLast? hx)⟩⟩

/-- C86: the sizes as `verse_count()` gives them, for ranges allowed by the global flags. Missing: other ranges (below). -/
theorem C86_sizes_partial (e : Env) (h : e.data.WF) (r : BibleRange) (hr : RangeOK e.data e.flags.verse0 r) (n : Nat) (hn : 1 ≤ n) (byRange : Bool)
    (fuel : Nat) (hfuel : e.data.totalVerses < fuel) : ∃ m, r.split e false false (some n) byRange none fuel = .ok m ∧
      (∀ x ∈ m.flatten.dropLast, x.verseCount e = .ok n) ∧
      ∀ x ∈ m.flatten.getLast?, ∃ count : Nat, x.verseCount e = .ok count ∧ 1 ≤ count ∧ count ≤ n := by
  have hr' := (rangeOK_iff h).mp hr
  have hv : ∀ {x}, ROK e.data e.flags.verse0 x → e.flags.verse0 = (e.flags.verse0 || x.start.verse == 0 || x.stop.verse == 0) :=
    fun hx => by rw [hx.s.or_self, hx.t.or_self]
  have up : ∀ {x}, ROK e.data e.flags.verse0 x → RangeOK e.data true x := fun hx => (rangeOK_iff h).mpr ⟨hx.s.mono, hx.t.mono, hx.le⟩
  obtain ⟨l, hp, hne, _, l4⟩ := split_pieces_global h (up hr') (hv hr') false false (num := some (n : Int)) (fun k hk => by cases hk; omega) hfuel
  obtain ⟨m, m1, rfl⟩ := l4 byRange
  obtain ⟨p1, p2, p3⟩ := parts_of_number h hp
  have count : ∀ x ∈ m.flatten, x.verseCount e = .ok (versesOf e.data e.flags.verse0 x).length := fun x hx =>
    C15_verse_count e h x (up ((rangeOK_iff h).mp (hp.ranges x hx))) _ (hv ((rangeOK_iff h).mp (hp.ranges x hx)))
  refine ⟨m, m1, fun x hx => ?_, fun x hx => ?_⟩
  · rw [count x (List.dropLast_subset _ hx), full_parts p3 x hx]
  · have hx' := List.mem_of_getLast? hx
    exact ⟨_, count x hx', p2 x hx', p1 x hx'⟩

/-- The full C86 is false when a range has a verse 0 at an end and `VERSE_0` is not set globally: this piece of Psalms 3:0-4:3 goes on over a
verse 0 but does not count it. -/
theorem C86_counterexample : ∃ m, (⟨⟨.Psa, 3, 0⟩, ⟨.Psa, 4, 3⟩⟩ : BibleRange).split dflt false false (some 6) false none 200 = .ok m ∧
    m.flatten[1]? = some ⟨⟨.Psa, 3, 6⟩, ⟨.Psa, 4, 2⟩⟩ ∧ m.flatten.length = 3 ∧
    (⟨⟨.Psa, 3, 6⟩, ⟨.Psa, 4, 2⟩⟩ : BibleRange).verseCount dflt = .ok 5 :=
  ⟨[[⟨⟨.Psa, 3, 0⟩, ⟨.Psa, 3, 5⟩⟩, ⟨⟨.Psa, 3, 6⟩, ⟨.Psa, 4, 2⟩⟩, ⟨⟨.Psa, 4, 3⟩, ⟨.Psa, 4, 3⟩⟩]], by decide +kernel, rfl, rfl, by decide +kernel⟩

example : RangeOK dflt.data dflt.flags.verse0 exMatt ∧ exMatt.verseCount dflt = .ok 75 ∧
    (∃ m, exMatt.split dflt false false (some 20) false none 10 = .ok m ∧ m.flatten.length = 4) :=
  ⟨exMatt_ok _, by decide +kernel, by
    have : (exMatt.split dflt false false (some 20) false none 10).map (fun m => m.flatten.length) = .ok 4 := by decide +kernel
    cases hs : exMatt.split dflt false false (some 20) false none 10 with
    | error x => rw [hs] at this; cases this
    | ok m => rw [hs] at this; exact ⟨m, rfl, Except.ok.inj this⟩⟩

end Bibleref

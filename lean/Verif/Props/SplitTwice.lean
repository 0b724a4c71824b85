import Verif.Props.SplitUnique
import Verif.Props.RangeLists2

/-!
# Splitting in steps (C85)
-/

namespace Bibleref

open Spec

theorem neighbours_flatMap {α β} {R : α → α → Prop} {S : β → β → Prop} {f : α → List β} {l : List α} (hn : ∀ x ∈ l, f x ≠ [])
    (h1 : ∀ x ∈ l, Neighbours S (f x)) (h2 : Neighbours R l)
    (h3 : ∀ x ∈ l, ∀ y ∈ l, R x y → ∀ a b, (f x).getLast? = some a → (f y).head? = some b → S a b) :
    Neighbours S (l.flatMap f) := by
  induction l with
  | nil => trivial
  | cons x l ih =>
    rw [List.flatMap_cons]
    cases l with
    | nil => simpa using h1 x (.head _)
    | cons y l =>
      refine neighbours_append (h1 x (.head _)) (ih (fun z hz => hn z (.tail _ hz)) (fun z hz => h1 z (.tail _ hz)) h2.2
        fun z hz w hw => h3 z (.tail _ hz) w (.tail _ hw)) fun a b ha hb => ?_
      refine h3 x (.head _) y (.tail _ (.head _)) h2.1 a b ha ?_
      rw [List.flatMap_cons, List.head?_append] at hb
      cases hf : f y with
      | nil => exact absurd hf (hn y (.tail _ (.head _)))
      | cons z zs => rw [hf] at hb; simpa using hb

section
variable {d : BibleData} {v0 : Bool}

variable {byBook byChap : Bool} {num : Option Int} {r : BibleRange} {l : List BibleRange}

theorem Spec.Pieces.tiles (h : d.WF) (hr : ROK d v0 r) (hl : Pieces d v0 byBook byChap num r l) :
    Tiles d v0 (ix d v0 r.start) (ix d v0 r.stop) l := by
  have hle := (pos_le_ix h hr.s hr.t).mp hr.le
  have hlt := (List.getElem?_eq_some_iff.mp (ix_get h hr.t)).1
  refine tiles_of_flatMap h ?_ (fun x hx => (rangeOK_iff h).mp (hl.ranges x hx)) (hl.together.trans (versesOf_slice h hr.s hr.t)) hle hlt
  intro he
  have := congrArg List.length hl.together
  rw [he, length_versesOf h hr.s hr.t] at this
  simp at this
  omega

theorem Spec.Pieces.ends (h : d.WF) (hr : ROK d v0 r) (hl : Pieces d v0 byBook byChap num r l) :
    l ≠ [] ∧ (∀ a, l.head? = some a → a.start = r.start) ∧ ∀ a, l.getLast? = some a → a.stop = r.stop := by
  have ht := hl.tiles h hr
  refine ⟨ht.ne_nil, fun a ha => ?_, fun a ha => ?_⟩
  · obtain ⟨q, h1, h2⟩ := ht.head
    rw [h1] at ha
    cases ha
    rw [ix_get h hr.s] at h2
    exact (Option.some.inj h2).symm
  · obtain ⟨q, h1, h2⟩ := ht.last
    rw [h1] at ha
    cases ha
    rw [ix_get h hr.t] at h2
    exact (Option.some.inj h2).symm

end

/-- What `split` gives, whether it regroups or not. -/
theorem split_pieces {e : Env} (h : e.data.WF) {flags : Option BibleFlag} {r : BibleRange}
    (hr : RangeOK e.data (inForce e flags).verse0 r) (byBook byChap : Bool) {num : Option Int} (hn : ∀ n, num = some n → 1 ≤ n)
    {fuel : Nat} (hfuel : e.data.totalVerses < fuel) :
    ∃ l, Pieces e.data (inForce e flags).verse0 byBook byChap num r l ∧
      ∀ byRange, ∃ m, r.split e byBook byChap num byRange flags fuel = .ok m ∧ m.flatten = l := by
  have hr' := (rangeOK_iff h).mp hr
  have hv : (inForce e flags).verse0 = ((inForce e flags).verse0 || r.start.verse == 0 || r.stop.verse == 0) := by
    rw [hr'.s.or_self, hr'.t.or_self]
  have up : ∀ {x}, RangeOK e.data (inForce e flags).verse0 x → RangeOK e.data true x := fun hx => by
    have := (rangeOK_iff h).mp hx
    exact (rangeOK_iff h).mpr ⟨this.s.mono, this.t.mono, this.le⟩
  obtain ⟨l, l1, l2, l3, _⟩ := C19_split e h r (up hr) byBook byChap num hn flags _ hv fuel hfuel
  refine ⟨l, (C19_exact e h r (up hr) byBook byChap num hn flags _ hv fuel hfuel l).mp l1, fun byRange => ?_⟩
  obtain ⟨g1, m, g2, g3, _⟩ := C19_split_groups e h r byBook byChap num flags fuel l l1 (fun x hx => up (l3 x hx)) l2
  cases byRange with
  | false => exact ⟨_, g1, by simp⟩
  | true => exact ⟨m, g2, g3⟩

theorem mapM_exists {α β : Type} {f : α → Except PyErr β} {l : List α} {g : α → List BibleRange} {k : β → List BibleRange}
    (h : ∀ x ∈ l, ∃ m, f x = .ok m ∧ k m = g x) : ∃ ms, l.mapM f = .ok ms ∧ ms.flatMap k = l.flatMap g := by
  induction l with
  | nil => exact ⟨[], rfl, rfl⟩
  | cons x l ih =>
    obtain ⟨m, h1, h2⟩ := h x (.head _)
    obtain ⟨ms, h3, h4⟩ := ih fun y hy => h y (.tail _ hy)
    refine ⟨m :: ms, ?_, by simp [h2, h4]⟩
    rw [List.mapM_cons, h1, h3]; rfl

/-- Pieces of pieces are pieces. -/
theorem pieces_flatMap {d : BibleData} (h : d.WF) {v0 b1 c1 b2 c2 b c : Bool} {num1 num : Option Int} {r : BibleRange} {P : List BibleRange}
    (hP : Pieces d v0 b1 c1 num1 r P) {S : BibleRange → List BibleRange} (hS : ∀ p ∈ P, Pieces d v0 b2 c2 num p (S p))
    (hb : b = true → b1 = true ∨ b2 = true) (hc : c = true → c1 = true ∨ c2 = true) (hb1 : b1 = true → b = true)
    (hc1 : c1 = true → c = true) (hb2 : b2 = true → b = true) (hc2 : c2 = true → c = true)
    (hnum : ∀ p ∈ P, num1 = some ((versesOf d v0 p).length : Int) → ∀ a, (S p).getLast? = some a →
      num = some ((versesOf d v0 a).length : Int)) :
    Pieces d v0 b c num r (P.flatMap S) := by
  have ok : ∀ p ∈ P, ROK d v0 p := fun p hp => (rangeOK_iff h).mp (hP.ranges p hp)
  have within : ∀ p ∈ P, ∀ x ∈ S p, ix d v0 p.start ≤ ix d v0 x.start ∧ ix d v0 x.start ≤ ix d v0 x.stop ∧ ix d v0 x.stop ≤ ix d v0 p.stop := by
    intro p hp x hx
    have hx' := (rangeOK_iff h).mp ((hS p hp).ranges x hx)
    have mem : ∀ v, v ∈ versesOf d v0 x → v ∈ versesOf d v0 p := fun v hv => by
      rw [← (hS p hp).together]; exact List.mem_flatMap.mpr ⟨x, hx, hv⟩
    have key : ∀ v, v ∈ canon d v0 → pos d x.start ≤ pos d v → pos d v ≤ pos d x.stop → pos d p.start ≤ pos d v ∧ pos d v ≤ pos d p.stop := by
      intro v hv h1 h2
      have := mem v (List.mem_filter.mpr ⟨hv, decide_eq_true ⟨h1, h2⟩⟩)
      exact of_decide_eq_true (List.mem_filter.mp this).2
    have k1 := key x.start ((mem_canon h).mpr hx'.s) (Std.le_refl _) hx'.le
    have k2 := key x.stop ((mem_canon h).mpr hx'.t) hx'.le (Std.le_refl _)
    exact ⟨(pos_le_ix h (ok p hp).s hx'.s).mp k1.1, (pos_le_ix h hx'.s hx'.t).mp hx'.le, (pos_le_ix h hx'.t (ok p hp).t).mp k2.2⟩
  have get : ∀ {v}, Valid d v0 v → (canon d v0)[ix d v0 v]? = some v := fun hv => ix_get h hv
  refine ⟨?_, ?_, ?_, ?_, ?_, ?_⟩
  · intro x hx
    obtain ⟨p, hp, hx⟩ := List.mem_flatMap.mp hx
    exact (hS p hp).ranges x hx
  · rw [List.flatMap_assoc, ← hP.together]
    clear hnum within ok
    have := fun p hp => (hS p hp).together
    clear hS hP
    induction P with
    | nil => rfl
    | cons p P ih =>
      rw [List.flatMap_cons, List.flatMap_cons, this p (.head _), ih fun q hq => this q (.tail _ hq)]
  · intro hb' x hx
    obtain ⟨p, hp, hx⟩ := List.mem_flatMap.mp hx
    rcases hb hb' with hh | hh
    · have hx' := (rangeOK_iff h).mp ((hS p hp).ranges x hx)
      obtain ⟨w1, w2, w3⟩ := within p hp x hx
      have e := hP.books hh p hp
      exact (book_between h (get (ok p hp).s) (get hx'.s) (get (ok p hp).t) w1 (by omega) e).trans
        (book_between h (get (ok p hp).s) (get hx'.t) (get (ok p hp).t) (by omega) w3 e).symm
    · exact (hS p hp).books hh x hx
  · intro hc' x hx
    obtain ⟨p, hp, hx⟩ := List.mem_flatMap.mp hx
    rcases hc hc' with hh | hh
    · have hx' := (rangeOK_iff h).mp ((hS p hp).ranges x hx)
      obtain ⟨w1, w2, w3⟩ := within p hp x hx
      have e := hP.chaps hh p hp
      have e1 := chap_between h (get (ok p hp).s) (get hx'.s) (get (ok p hp).t) w1 (by omega) e.1 e.2
      have e2 := chap_between h (get (ok p hp).s) (get hx'.t) (get (ok p hp).t) (by omega) w3 e.1 e.2
      exact ⟨e1.1.trans e2.1.symm, e1.2.trans e2.2.symm⟩
    · exact (hS p hp).chaps hh x hx
  · intro n hn x hx
    obtain ⟨p, hp, hx⟩ := List.mem_flatMap.mp hx
    exact (hS p hp).size n hn x hx
  · refine neighbours_flatMap (fun p hp => ((hS p hp).ends h (ok p hp)).1) (fun p hp => ?_) hP.reason ?_
    · refine neighbours_imp (fun x y hxy => ?_) (hS p hp).reason
      rcases hxy with hh | hh | hh
      · exact .inl ⟨hb2 hh.1, hh.2⟩
      · exact .inr (.inl ⟨hc2 hh.1, hh.2⟩)
      · exact .inr (.inr hh)
    · intro p hp q hq hpq x y hx hy
      rw [((hS p hp).ends h (ok p hp)).2.2 x hx, ((hS q hq).ends h (ok q hq)).2.1 y hy]
      rcases hpq with hh | hh | hh
      · exact .inl ⟨hb1 hh.1, hh.2⟩
      · exact .inr (.inl ⟨hc1 hh.1, hh.2⟩)
      · exact .inr (.inr (hnum p hp hh x hx))

/-- The last of the parts of a multiple of `n` is not shorter than the others. -/
theorem last_full {α : Type} {size : α → Nat} {n : Nat} {l : List α} (h1 : ∀ x ∈ l, size x ≤ n) (h0 : ∀ x ∈ l, 1 ≤ size x)
    (h2 : Neighbours (fun p _ => size p = n) l) {a : α} (ha : l.getLast? = some a) {k : Nat} (hk : (l.map size).sum = k * n) :
    size a = n := by
  have key : ∃ j, (l.map size).sum = j * n + size a := by
    clear hk h1 h0
    induction l with
    | nil => cases ha
    | cons x l ih =>
      cases l with
      | nil => cases ha; exact ⟨0, by simp⟩
      | cons y l =>
        obtain ⟨j, hj⟩ := ih h2.2 (by simpa using ha)
        refine ⟨j + 1, ?_⟩
        rw [List.map_cons, List.sum_cons, hj, h2.1, Nat.succ_mul]
        omega
  obtain ⟨j, hj⟩ := key
  have hm := List.mem_of_getLast? ha
  have g1 := h1 a hm
  have g0 := h0 a hm
  rw [hk] at hj
  rcases Nat.lt_trichotomy k (j + 1) with hlt | heq | hlt
  · have := Nat.mul_le_mul_right n (Nat.le_of_lt_succ hlt)
    omega
  · subst heq
    rw [Nat.succ_mul] at hj
    omega
  · have := Nat.mul_le_mul_right n hlt
    rw [Nat.succ_mul, Nat.succ_mul] at this
    omega

/-- C85: splitting by book or chapter first and the pieces further afterwards gives the same as asking for everything at once. -/
theorem C85_steps (e : Env) (h : e.data.WF) (r : BibleRange) (flags : Option BibleFlag)
    (hr : RangeOK e.data (inForce e flags).verse0 r) (b1 c1 b2 c2 g1 g2 g3 : Bool) (num : Option Int) (hn : ∀ n, num = some n → 1 ≤ n)
    (fuel : Nat) (hfuel : e.data.totalVerses < fuel) :
    ∃ first, r.split e b1 c1 none g1 flags fuel = .ok first ∧
    ∃ parts, first.flatten.mapM (fun p => p.split e b2 c2 num g2 flags fuel) = .ok parts ∧
    ∃ whole, r.split e (b1 || b2) (c1 || c2) num g3 flags fuel = .ok whole ∧ whole.flatten = parts.flatMap List.flatten := by
  obtain ⟨P, hP, hp⟩ := split_pieces h hr b1 c1 (num := none) (fun _ hh => by cases hh) hfuel
  obtain ⟨first, f1, rfl⟩ := hp g1
  obtain ⟨W, hW, hw⟩ := split_pieces h hr (b1 || b2) (c1 || c2) hn hfuel
  obtain ⟨whole, w1, rfl⟩ := hw g3
  have step : ∀ p : BibleRange, ∃ l, p ∈ first.flatten → Pieces e.data (inForce e flags).verse0 b2 c2 num p l ∧
      ∃ m, p.split e b2 c2 num g2 flags fuel = .ok m ∧ m.flatten = l := by
    intro p
    by_cases hp : p ∈ first.flatten
    · obtain ⟨l, l1, l2⟩ := split_pieces h (hP.ranges p hp) b2 c2 hn hfuel
      exact ⟨l, fun _ => ⟨l1, l2 g2⟩⟩
    · exact ⟨[], fun hh => absurd hh hp⟩
  obtain ⟨S, hS⟩ := Classical.axiomOfChoice step
  obtain ⟨parts, p1, p2⟩ := mapM_exists (g := S) (k := List.flatten) fun p hp => (hS p hp).2
  refine ⟨first, f1, parts, p1, whole, w1, ?_⟩
  rw [p2]
  refine C19_unique e.data h _ _ _ num r hr _ _ hW (pieces_flatMap h hP (fun p hp => (hS p hp).1) ?_ ?_ ?_ ?_ ?_ ?_ fun _ _ hh => by cases hh)
  · exact Bool.or_eq_true_iff.mp
  · exact Bool.or_eq_true_iff.mp
  all_goals exact fun hh => by rw [hh]; simp

/-- C85: splitting into pieces of a multiple of `n` verses first makes no difference to splitting into pieces of `n` verses. -/
theorem C85_multiples (e : Env) (h : e.data.WF) (r : BibleRange) (flags : Option BibleFlag)
    (hr : RangeOK e.data (inForce e flags).verse0 r) (b c g1 g2 g3 : Bool) (k n : Nat) (hk : 1 ≤ k) (hn : 1 ≤ n)
    (fuel : Nat) (hfuel : e.data.totalVerses < fuel) :
    ∃ first, r.split e b c (some (k * n : Nat)) g1 flags fuel = .ok first ∧
    ∃ parts, first.flatten.mapM (fun p => p.split e false false (some n) g2 flags fuel) = .ok parts ∧
    ∃ whole, r.split e b c (some n) g3 flags fuel = .ok whole ∧ whole.flatten = parts.flatMap List.flatten := by
  have hkn : 1 ≤ k * n := Nat.mul_le_mul hk hn
  have hn' : ∀ m : Int, some (n : Int) = some m → 1 ≤ m := fun m hm => by cases hm; omega
  obtain ⟨P, hP, hp⟩ := split_pieces h hr b c (num := some (k * n : Nat)) (fun m hm => by cases hm; omega) hfuel
  obtain ⟨first, f1, rfl⟩ := hp g1
  obtain ⟨W, hW, hw⟩ := split_pieces h hr b c hn' hfuel
  obtain ⟨whole, w1, rfl⟩ := hw g3
  have step : ∀ p : BibleRange, ∃ l, p ∈ first.flatten → Pieces e.data (inForce e flags).verse0 false false (some (n : Int)) p l ∧
      ∃ m, p.split e false false (some n) g2 flags fuel = .ok m ∧ m.flatten = l := by
    intro p
    by_cases hp : p ∈ first.flatten
    · obtain ⟨l, l1, l2⟩ := split_pieces h (hP.ranges p hp) false false hn' hfuel
      exact ⟨l, fun _ => ⟨l1, l2 g2⟩⟩
    · exact ⟨[], fun hh => absurd hh hp⟩
  obtain ⟨S, hS⟩ := Classical.axiomOfChoice step
  obtain ⟨parts, p1, p2⟩ := mapM_exists (g := S) (k := List.flatten) fun p hp => (hS p hp).2
  refine ⟨first, f1, parts, p1, whole, w1, ?_⟩
  rw [p2]
  refine C19_unique e.data h _ _ _ _ r hr _ _ hW (pieces_flatMap h hP (fun p hp => (hS p hp).1) .inl .inl id id nofun nofun ?_)
  intro p hp hlen a ha
  have hs := (hS p hp).1
  have hsum : ((S p).map fun x => (versesOf e.data (inForce e flags).verse0 x).length).sum = k * n := by
    rw [← List.length_flatMap, hs.together]
    have := Option.some.inj hlen
    omega
  rw [last_full (fun x hx => by have := hs.size _ rfl x hx; omega) (fun x hx => ?_) (neighbours_imp (fun x y hxy => ?_) hs.reason) ha hsum]
  · have hx' := (rangeOK_iff h).mp (hs.ranges x hx)
    have := (pos_le_ix h hx'.s hx'.t).mp hx'.le
    rw [length_versesOf h hx'.s hx'.t]
    omega
  · rcases hxy with hh | hh | hh
    · cases hh.1
    · cases hh.1
    · have := Option.some.inj hh
      omega

/-- C85: a piece is not split further by the same request. -/
theorem C85_again (e : Env) (h : e.data.WF) (r : BibleRange) (flags : Option BibleFlag)
    (hr : RangeOK e.data (inForce e flags).verse0 r) (b c g1 g2 : Bool) (num : Option Int) (hn : ∀ n, num = some n → 1 ≤ n)
    (fuel : Nat) (hfuel : e.data.totalVerses < fuel) :
    ∃ first, r.split e b c num g1 flags fuel = .ok first ∧
    ∀ p ∈ first.flatten, ∃ again, p.split e b c num g2 flags fuel = .ok again ∧ again.flatten = [p] := by
  obtain ⟨P, hP, hp⟩ := split_pieces h hr b c hn hfuel
  obtain ⟨first, f1, rfl⟩ := hp g1
  refine ⟨first, f1, fun p hp => ?_⟩
  obtain ⟨l, l1, l2⟩ := split_pieces h (hP.ranges p hp) b c hn hfuel
  obtain ⟨again, a1, rfl⟩ := l2 g2
  refine ⟨again, a1, C19_unique e.data h _ _ _ num p (hP.ranges p hp) _ _ l1 ⟨?_, by simp, ?_, ?_, ?_, trivial⟩⟩
  · simpa using hP.ranges p hp
  · simpa using fun hb => hP.books hb p hp
  · simpa using fun hc => hP.chaps hc p hp
  · simpa using fun n hn => hP.size n hn p hp

/-- C85: splitting by the number of verses first and then by chapter is not the same as asking for both at once. -/
theorem C85_number_last_counterexample (fuel : Nat) (hf : dflt.data.totalVerses < fuel) : ∃ first parts whole : List RangeList,
    [BibleRange.split dflt ⟨⟨.Matt, 1, 1⟩, ⟨.Matt, 2, 20⟩⟩ false false (some 20) false none 10] = first.map .ok ∧
    (first.flatMap List.flatten).map (fun p => p.split dflt false true none false none 10) = parts.map .ok ∧
    [BibleRange.split dflt ⟨⟨.Matt, 1, 1⟩, ⟨.Matt, 2, 20⟩⟩ false true (some 20) false none 10] = whole.map .ok ∧
    (parts.flatMap List.flatten).length = 4 ∧ (whole.flatMap List.flatten).length = 3 :=
  ⟨[[[⟨⟨.Matt, 1, 1⟩, ⟨.Matt, 1, 20⟩⟩, ⟨⟨.Matt, 1, 21⟩, ⟨.Matt, 2, 15⟩⟩, ⟨⟨.Matt, 2, 16⟩, ⟨.Matt, 2, 20⟩⟩]]],
    [[[⟨⟨.Matt, 1, 1⟩, ⟨.Matt, 1, 20⟩⟩]], [[⟨⟨.Matt, 1, 21⟩, ⟨.Matt, 1, 25⟩⟩, ⟨⟨.Matt, 2, 1⟩, ⟨.Matt, 2, 15⟩⟩]],
      [[⟨⟨.Matt, 2, 16⟩, ⟨.Matt, 2, 20⟩⟩]]],
    [[[⟨⟨.Matt, 1, 1⟩, ⟨.Matt, 1, 20⟩⟩, ⟨⟨.Matt, 1, 21⟩, ⟨.Matt, 1, 25⟩⟩, ⟨⟨.Matt, 2, 1⟩, ⟨.Matt, 2, 20⟩⟩]]],
    by decide +kernel⟩

example (fuel : Nat) (hf : dflt.data.totalVerses < fuel) : ∃ first, exMatt.split dflt false true none true none fuel = .ok first ∧
    ∃ parts, first.flatten.mapM (fun p => p.split dflt false false (some 20) true none fuel) = .ok parts ∧
    ∃ whole, exMatt.split dflt false true (some 20) true none fuel = .ok whole ∧
      whole.flatten = parts.flatMap List.flatten :=
  C85_steps dflt defaultData_wf exMatt none (exMatt_ok _) false true false false true true true (some 20) (by simp) fuel hf

example (fuel : Nat) (hf : dflt.data.totalVerses < fuel) : ∃ first, exMatt.split dflt false true (some (3 * 10 : Nat)) true none fuel = .ok first ∧
    ∃ parts, first.flatten.mapM (fun p => p.split dflt false false (some (10 : Nat)) true none fuel) = .ok parts ∧
    ∃ whole, exMatt.split dflt false true (some (10 : Nat)) true none fuel = .ok whole ∧
      whole.flatten = parts.flatMap List.flatten :=
  C85_multiples dflt defaultData_wf exMatt none (exMatt_ok _) false true true true true 3 10 (by decide) (by decide) fuel hf

example (fuel : Nat) (hf : dflt.data.totalVerses < fuel) : ∃ first, exMatt.split dflt true true (some 7) true none fuel = .ok first ∧
    ∀ p ∈ first.flatten, ∃ again, p.split dflt true true (some 7) false none fuel = .ok again ∧
      again.flatten = [p] :=
  C85_again dflt defaultData_wf exMatt none (exMatt_ok _) true true true false (some 7) (by simp) fuel hf

end Bibleref

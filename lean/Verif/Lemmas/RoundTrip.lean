import Verif.Lemmas.SubExact

/-! When adding and subtracting undo each other. -/

namespace Bibleref
open Spec

theorem sorted_get {α} {r : α → α → Prop} [DecidableRel r] (irrefl : ∀ a, ¬ r a a) (asymm : ∀ a b, r a b → ¬ r b a)
    {l : List α} (hl : l.Pairwise r) {k : Nat} {x : α} : l[k]? = some x ↔ x ∈ l ∧ l.countP (fun u => r u x) = k := by
  induction l generalizing k with
  | nil => simp
  | cons y l ih =>
    rw [List.pairwise_cons] at hl
    have hxy : ∀ x ∈ l, x ≠ y := fun z hz he => irrefl y (by have := hl.1 z hz; rwa [he] at this)
    have hc : (y :: l).countP (fun u => r u x) = l.countP (fun u => r u x) + if r y x then 1 else 0 := by
      rw [List.countP_cons]; simp
    rw [hc]
    cases k with
    | zero =>
      simp only [List.getElem?_cons_zero, Option.some.injEq, List.mem_cons]
      constructor
      · rintro rfl
        refine ⟨Or.inl rfl, ?_⟩
        rw [if_neg (irrefl y), List.countP_eq_zero.mpr]
        intro u hu
        simp only [decide_eq_true_eq]
        exact asymm _ _ (hl.1 u hu)
      · rintro ⟨rfl | hx, h2⟩
        · rfl
        · rw [if_pos (hl.1 x hx)] at h2; omega
    | succ k =>
      rw [List.getElem?_cons_succ, ih hl.2]
      constructor
      · rintro ⟨hx, hk⟩
        exact ⟨List.mem_cons_of_mem _ hx, by rw [if_pos (hl.1 x hx), hk]⟩
      · rintro ⟨hx, hk⟩
        rcases List.mem_cons.mp hx with rfl | hx
        · rw [if_neg (irrefl x)] at hk
          have : l.countP (fun u => r u x) = 0 := by
            rw [List.countP_eq_zero]
            intro u hu
            simp only [decide_eq_true_eq]
            exact asymm _ _ (hl.1 u hu)
          omega
        · rw [if_pos (hl.1 x hx)] at hk
          exact ⟨hx, by omega⟩

theorem countP_eq_iff {α} {p q : α → Bool} {l : List α} (hpq : ∀ a ∈ l, p a = true → q a = true) :
    l.countP p = l.countP q ↔ ∀ a ∈ l, p a = q a := by
  induction l with
  | nil => simp
  | cons a l ih =>
    have hm := List.countP_mono_left (fun a ha => hpq a (List.mem_cons_of_mem _ ha)) (l := l)
    have ih := ih fun a ha => hpq a (List.mem_cons_of_mem _ ha)
    have h1 := hpq a List.mem_cons_self
    simp only [List.countP_cons, List.forall_mem_cons]
    cases hp : p a <;> cases hq : q a <;> simp [hp, hq] at h1 ⊢ <;> first | exact ih | omega

variable {d : BibleData} (h : d.WF)
include h

theorem pairwise_walk (mb v0 b) : (walk d mb v0 b).Pairwise (fun v w => v.lt d w = true) := by
  cases mb
  · exact h.pairwise_bookVerses _ _
  · exact h.pairwise_canon _

theorem walk_filter (mb v0) {b : BibleBook} (hb : b ∈ d.bookOrder) :
    (walk d mb true b).filter (fun u => u.verse ≠ 0 || v0) = walk d mb v0 b := by
  have hp := h.nChaps_pos b
  have := filter_walk h (mb := mb) (v0 := v0) (g := v0) (v := ⟨b, 1, 1⟩) (fun _ => hb) (by simp) (by simp; omega)
  simp only [ite_self] at this
  rw [this, walk_split h (fun _ => hb) (x := (b, 1)) (by simp) (by simp; omega), List.flatMap_append, List.flatMap_cons, List.append_assoc]

theorem mem_walk_iff {mb v0 b v} (hb : b ∈ d.bookOrder) : v ∈ walk d mb v0 b ↔ (mb = true ∨ v.book = b) ∧ Valid d v0 v := by
  cases mb
  · rw [show walk d false v0 b = bookVerses d v0 b from rfl, mem_bookVerses, valid_iff]
    exact ⟨fun hh => ⟨.inr hh.1, hh.2, hh.1 ▸ hb⟩, fun hh => ⟨hh.1.resolve_left (by simp), hh.2.1⟩⟩
  · simp [walk, mem_canon h]

/-- The number of verses between two verses, of those with some property. -/
def between (d : BibleData) (mb : Bool) (b : BibleBook) (p : BibleVerse → Bool) (v w : BibleVerse) : Nat :=
  (walk d mb true b).countP fun u => p u && (v.le d u && u.lt d w)

theorem walk_get {b} (hb : b ∈ d.bookOrder) (mb p) {x : BibleVerse} {k : Nat} : ((walk d mb true b).filter p)[k]? = some x ↔
    ((mb = true ∨ x.book = b) ∧ Valid d true x ∧ p x = true) ∧
      (walk d mb true b).countP (fun u => p u && u.lt d x) = k := by
  have := sorted_get (r := fun v w => v.lt d w = true) (fun a => h.lt_irrefl a) (fun a b hab => h.lt_asymm hab)
    (l := (walk d mb true b).filter p) ((pairwise_walk h mb true b).filter _) (k := k) (x := x)
  rw [this, List.mem_filter, mem_walk_iff h hb, List.countP_filter, and_assoc]
  simp only [Bool.decide_eq_true, Bool.and_comm, and_assoc]

omit h in
theorem between_congr {mb b p q} {v w : BibleVerse} (hpq : ∀ u, p u = true → q u = true) :
    between d mb b p v w = between d mb b q v w ↔
      ∀ u ∈ walk d mb true b, v.le d u = true → u.lt d w = true → p u = q u := by
  unfold between
  rw [countP_eq_iff]
  · constructor
    · intro hx u hu h1 h2
      have := hx u hu
      simpa [h1, h2] using this
    · intro hx u hu
      cases h1 : v.le d u <;> cases h2 : u.lt d w <;> simp
      exact hx u hu h1 h2
  · intro u _ hu
    simp only [Bool.and_eq_true] at hu ⊢
    exact ⟨hpq u hu.1, hu.2⟩

theorem between_add {mb b p} (hb : b ∈ d.bookOrder) {v w : BibleVerse} (hv : Valid d true v) (hvw : v.le d w = true) :
    (walk d mb true b).countP (fun u => p u && u.lt d w) =
    (walk d mb true b).countP (fun u => p u && u.lt d v) + between d mb b p v w := by
  unfold between
  have : ∀ l : List BibleVerse, (∀ u ∈ l, Valid d true u) → l.countP (fun u => p u && u.lt d w) =
      l.countP (fun u => p u && u.lt d v) + l.countP (fun u => p u && (v.le d u && u.lt d w)) := by
    intro l hl
    induction l with
    | nil => rfl
    | cons u l ih =>
      rw [List.countP_cons, List.countP_cons, List.countP_cons, ih fun x hx => hl x (List.mem_cons_of_mem _ hx)]
      have hu := hl u List.mem_cons_self
      cases p u
      · simp
      · have h1 : u.lt d v = true ↔ ¬ v.le d u = true := by
          rw [h.lt_pos hu hv, h.le_pos hv hu]; omega
        have h2 : u.lt d v = true → u.lt d w = true := by
          intro hx
          rw [h.le_iff_lt_or_eq] at hvw
          rcases hvw with h3 | rfl
          · rw [h.lt_iff] at hx h3 ⊢; grind
          · exact hx
        cases hx : u.lt d v <;> cases hy : v.le d u <;> cases hz : u.lt d w <;> simp_all <;> omega
  exact this _ fun u hu => ((mem_walk_iff h hb).mp hu).2

omit h in
/-- When subtracting undoes adding. -/
theorem sub_of_add {e : Env} (h : e.data.WF) {v w : BibleVerse} {flags : Option BibleFlag} {n : Nat}
    (hv : Valid e.data ((e.eff flags).verse0 || v.verse == 0) v) (ha : v.add e n flags = .ok (some w)) :
    w.sub e n flags = .ok (some v) ↔
      (∀ u : BibleVerse, Valid e.data true u → u.verse = 0 → v.le e.data u = true → u.lt e.data w = true →
        (if u.book = w.book ∧ u.chap = w.chap then (e.eff flags).verse0 || w.verse == 0 else e.flags.verse0) =
          ((e.eff flags).verse0 || v.verse == 0)) ∧
      (v.verse = 0 → ((e.eff flags).verse0 || w.verse == 0) = true) := by
  generalize hmb : (e.eff flags).multibook = mb
  generalize hv0 : ((e.eff flags).verse0 || v.verse == 0) = v0 at hv ⊢
  generalize hw0 : ((e.eff flags).verse0 || w.verse == 0) = w0
  obtain ⟨i, hi⟩ : ∃ i : Nat, (walk e.data mb v0 v.book)[i]? = some v :=
    List.mem_iff_getElem?.mp ((mem_walk_iff h hv.listed).mpr ⟨Or.inr rfl, hv⟩)
  have had := add_walk h (v := v) (flags := flags) (i := i) (by rw [hmb, hv0]; exact hi) n
  rw [hmb, hv0, ha] at had
  have hwi : (walk e.data mb v0 v.book)[i + n]? = some w := (Except.ok.inj had).symm
  have hwm := (mem_walk_iff h hv.listed).mp (List.mem_of_getElem? hwi)
  have hwk : ∀ b0, walk e.data mb b0 w.book = walk e.data mb b0 v.book := by
    intro b0
    rcases hwm.1 with rfl | hb
    · rfl
    · rw [hb]
  have hvT := hv.mono
  have hwT := hwm.2.mono
  rw [← walk_filter h mb v0 hv.listed, walk_get h hv.listed] at hi hwi
  have hle : v.le e.data w = true := by
    rw [h.le_pos hv hwm.2]
    rcases Nat.eq_zero_or_pos n with rfl | hn
    · rw [Nat.add_zero] at hwi
      have h1 := (walk_get h hv.listed mb (fun u => u.verse ≠ 0 || v0) (x := v)).mpr hi
      have h2 := (walk_get h hv.listed mb (fun u => u.verse ≠ 0 || v0) (x := w)).mpr hwi
      rw [h1] at h2
      rw [Option.some.inj h2]; omega
    · have h1 := (walk_get h hv.listed mb (fun u => u.verse ≠ 0 || v0) (x := v)).mpr hi
      have h2 := (walk_get h hv.listed mb (fun u => u.verse ≠ 0 || v0) (x := w)).mpr hwi
      have := (index_lt_iff (r := fun v w => v.lt e.data w = true) (fun a => h.lt_irrefl a) (fun a b hab => h.lt_asymm hab)
        ((pairwise_walk h mb true v.book).filter _) h1 h2).mpr (by omega)
      rw [h.lt_pos hv hwm.2] at this
      omega
  have hn : between e.data mb v.book (fun u => u.verse ≠ 0 || v0) v w = n := by
    have := between_add h hv.listed (mb := mb) (p := fun u => u.verse ≠ 0 || v0) hvT hle
    have h1 := hi.2
    have h2 := hwi.2
    omega
  -- the list that `subtract` walks on
  let q : BibleVerse → Bool := fun u => u.verse ≠ 0 || (if u.book = w.book ∧ u.chap = w.chap then w0 else e.flags.verse0)
  have hwq : q w = true := by
    simp only [q, and_self, if_true]
    rw [← hw0]
    by_cases h0 : w.verse = 0 <;> simp [h0]
  obtain ⟨j, hj⟩ : ∃ j : Nat, ((walk e.data mb true v.book).filter q)[j]? = some w :=
    List.mem_iff_getElem?.mp (List.mem_filter.mpr ⟨(mem_walk_iff h hv.listed).mpr ⟨hwm.1, hwT⟩, hwq⟩)
  have hsub := sub_exact h (v := w) (flags := flags) (i := j) (l := (walk e.data mb true v.book).filter q)
    (by rw [hmb, hw0, hwk]) hj n
  rw [hw0] at hsub
  rw [hsub]
  have hland : ∀ o : Option BibleVerse, landing w0 o = .ok (some v) ↔ o = some v ∧ (v.verse = 0 → w0 = true) := by
    intro o
    unfold landing
    cases o with
    | none => simp
    | some u =>
      simp only
      split
      · rename_i hx
        simp only [reduceCtorEq, false_iff]
        rintro ⟨he, h1⟩
        obtain rfl := Option.some.inj he
        have := h1 hx.1
        rw [hx.2] at this; cases this
      · rename_i hx
        constructor
        · intro he
          obtain rfl := Option.some.inj (Except.ok.inj he)
          refine ⟨rfl, fun h0 => ?_⟩
          cases w0
          · exact absurd ⟨h0, rfl⟩ hx
          · rfl
        · rintro ⟨he, _⟩
          rw [he]
  rw [hland, and_congr_left_iff]
  intro hz
  have hjc := ((walk_get h hv.listed mb q (x := w)).mp hj).2
  have hba := between_add h hv.listed (mb := mb) (p := q) hvT hle
  have hcount : (if n ≤ j then ((walk e.data mb true v.book).filter q)[j - n]? else none) = some v ↔
      q v = true ∧ between e.data mb v.book q v w = n := by
    by_cases hnj : n ≤ j
    · rw [if_pos hnj, walk_get h hv.listed]
      constructor
      · rintro ⟨⟨_, _, h1⟩, h2⟩
        exact ⟨h1, by omega⟩
      · rintro ⟨h1, h2⟩
        exact ⟨⟨Or.inr rfl, hvT, h1⟩, by omega⟩
    · rw [if_neg hnj]
      simp only [reduceCtorEq, false_iff]
      rintro ⟨_, h2⟩
      omega
  rw [hcount]
  have hqv : ∀ u : BibleVerse, u.verse = 0 →
      q u = (if u.book = w.book ∧ u.chap = w.chap then w0 else e.flags.verse0) := by
    intro u hu
    simp [q, hu]
  have heq : between e.data mb v.book q v w = n ↔ ∀ u ∈ walk e.data mb true v.book, v.le e.data u = true →
      u.lt e.data w = true → (decide (u.verse ≠ 0) || v0) = q u := by
    rw [← hn]
    cases v0 with
    | false =>
      rw [eq_comm, between_congr]
      intro u hu
      simp only [Bool.or_false, decide_eq_true_eq] at hu
      simp [q, hu]
    | true =>
      rw [between_congr]
      · constructor <;> exact fun hx u hu h1 h2 => (hx u hu h1 h2).symm
      · intro u _; simp
  rw [heq]
  constructor
  · rintro ⟨_, hx⟩ u hu h0 h1 h2
    have hb : mb = true ∨ u.book = v.book := by
      rcases hwm.1 with hm | hb
      · exact Or.inl hm
      · right
        rw [h.le_iff] at h1
        rw [h.lt_iff] at h2
        rw [hb] at h2
        have := h.bidx_inj (a := u.book) (b := v.book)
        grind
    have := hx u ((mem_walk_iff h hv.listed).mpr ⟨hb, hu⟩) h1 h2
    rw [hqv u h0] at this
    simpa [h0] using this.symm
  · intro hx
    constructor
    · by_cases h0 : v.verse = 0
      · rw [hqv v h0]
        rw [h.le_iff_lt_or_eq] at hle
        rcases hle with hlt | he
        · rw [hx v hvT h0 ((h.le_iff_lt_or_eq _ _).mpr (Or.inr rfl)) hlt, ← hv0, h0]; simp
        · rw [he] at hz h0 ⊢
          rw [if_pos ⟨rfl, rfl⟩]; exact hz h0
      · simp [q, h0]
    · intro u hu h1 h2
      by_cases h0 : u.verse = 0
      · rw [hqv u h0, hx u ((mem_walk_iff h hv.listed).mp hu).2 h0 h1 h2, h0]; simp
      · simp [q, h0]

omit h in
theorem add_some {e : Env} (h : e.data.WF) {v w : BibleVerse} {flags : Option BibleFlag} {n : Nat}
    (hv : Valid e.data ((e.eff flags).verse0 || v.verse == 0) v) (hw : Valid e.data ((e.eff flags).verse0 || v.verse == 0) w)
    (hb : (e.eff flags).multibook = true ∨ w.book = v.book) (hle : v.le e.data w = true) :
    v.add e n flags = .ok (some w) ↔ between e.data (e.eff flags).multibook v.book
      (fun u => u.verse ≠ 0 || ((e.eff flags).verse0 || v.verse == 0)) v w = n := by
  generalize hmb : (e.eff flags).multibook = mb at *
  generalize hv0 : ((e.eff flags).verse0 || v.verse == 0) = v0 at hv hw ⊢
  obtain ⟨i, hi⟩ : ∃ i : Nat, (walk e.data mb v0 v.book)[i]? = some v :=
    List.mem_iff_getElem?.mp ((mem_walk_iff h hv.listed).mpr ⟨Or.inr rfl, hv⟩)
  rw [add_walk h (v := v) (flags := flags) (i := i) (by rw [hmb, hv0]; exact hi) n, hmb, hv0]
  have hba := between_add h hv.listed (mb := mb) (p := fun u => u.verse ≠ 0 || v0) hv.mono hle
  rw [← walk_filter h mb v0 hv.listed, walk_get h hv.listed] at hi
  rw [Except.ok.injEq, ← walk_filter h mb v0 hv.listed, walk_get h hv.listed]
  have hpw : (decide (w.verse ≠ 0) || v0) = true := by
    by_cases h0 : w.verse = 0
    · have h1 := hw.2.2.1
      rw [h0] at h1
      cases v0
      · simp [firstNum] at h1
      · simp
    · simp [h0]
  have h1 := hi.2
  constructor
  · rintro ⟨_, h2⟩; omega
  · intro h2; exact ⟨⟨hb, hw.mono, hpw⟩, by omega⟩

omit h in
theorem sub_some {e : Env} (h : e.data.WF) {v w : BibleVerse} {flags : Option BibleFlag} {n : Nat}
    (hv : Valid e.data true v) (hw : Valid e.data ((e.eff flags).verse0 || w.verse == 0) w) :
    w.sub e n flags = .ok (some v) ↔ ((e.eff flags).multibook = true ∨ v.book = w.book) ∧ v.le e.data w = true ∧
      (v.verse = 0 → (if v.book = w.book ∧ v.chap = w.chap then (e.eff flags).verse0 || w.verse == 0 else e.flags.verse0) = true) ∧
      (v.verse = 0 → ((e.eff flags).verse0 || w.verse == 0) = true) ∧
      between e.data (e.eff flags).multibook w.book (fun u => u.verse ≠ 0 ||
        (if u.book = w.book ∧ u.chap = w.chap then (e.eff flags).verse0 || w.verse == 0 else e.flags.verse0)) v w = n := by
  generalize hmb : (e.eff flags).multibook = mb
  generalize hw0 : ((e.eff flags).verse0 || w.verse == 0) = w0 at hw ⊢
  let q : BibleVerse → Bool := fun u => u.verse ≠ 0 || (if u.book = w.book ∧ u.chap = w.chap then w0 else e.flags.verse0)
  have hwq : q w = true := by
    simp only [q, and_self, if_true]
    rw [← hw0]
    by_cases h0 : w.verse = 0 <;> simp [h0]
  obtain ⟨j, hj⟩ : ∃ j : Nat, ((walk e.data mb true w.book).filter q)[j]? = some w :=
    List.mem_iff_getElem?.mp (List.mem_filter.mpr ⟨(mem_walk_iff h hw.listed).mpr ⟨Or.inr rfl, hw.mono⟩, hwq⟩)
  have hsub := sub_exact h (v := w) (flags := flags) (i := j) (l := (walk e.data mb true w.book).filter q)
    (by rw [hmb, hw0]) hj n
  rw [hw0] at hsub
  rw [hsub]
  have hland : ∀ o : Option BibleVerse, landing w0 o = .ok (some v) ↔ o = some v ∧ (v.verse = 0 → w0 = true) := by
    intro o
    unfold landing
    cases o with
    | none => simp
    | some u =>
      simp only
      split
      · rename_i hx
        simp only [reduceCtorEq, false_iff]
        rintro ⟨he, h1⟩
        obtain rfl := Option.some.inj he
        have := h1 hx.1
        rw [hx.2] at this; cases this
      · rename_i hx
        constructor
        · intro he
          obtain rfl := Option.some.inj (Except.ok.inj he)
          refine ⟨rfl, fun h0 => ?_⟩
          cases w0
          · exact absurd ⟨h0, rfl⟩ hx
          · rfl
        · rintro ⟨he, _⟩
          rw [he]
  have hqv : q v = true ↔ (v.verse = 0 → (if v.book = w.book ∧ v.chap = w.chap then w0 else e.flags.verse0) = true) := by
    by_cases h0 : v.verse = 0 <;> simp [q, h0]
  have hjc := ((walk_get h hw.listed mb q (x := w)).mp hj).2
  rw [hland, ← hqv]
  constructor
  · rintro ⟨hx, hz⟩
    by_cases hnj : n ≤ j
    · rw [if_pos hnj] at hx
      have hle : v.le e.data w = true := by
        rw [h.le_iff_lt_or_eq]
        rcases Nat.eq_zero_or_pos n with rfl | hn
        · right
          rw [Nat.sub_zero, hj] at hx
          exact (Option.some.inj hx).symm
        · left
          exact (index_lt_iff (r := fun v w => v.lt e.data w = true) (fun a => h.lt_irrefl a) (fun a b hab => h.lt_asymm hab)
            ((pairwise_walk h mb true w.book).filter _) hx hj).mpr (by omega)
      rw [walk_get h hw.listed] at hx
      have hba := between_add h hw.listed (mb := mb) (p := q) hv hle
      have h2 := hx.2
      exact ⟨hx.1.1, hle, hx.1.2.2, hz, by show between e.data mb w.book q v w = n; omega⟩
    · rw [if_neg hnj] at hx; cases hx
  · rintro ⟨hb, hle, hq, hz, hn⟩
    have hba := between_add h hw.listed (mb := mb) (p := q) hv hle
    change between e.data mb w.book q v w = n at hn
    refine ⟨?_, hz⟩
    rw [if_pos (by omega), walk_get h hw.listed]
    exact ⟨⟨hb, hv, hq⟩, by omega⟩

omit h in
theorem add_valid {e : Env} (h : e.data.WF) {v w : BibleVerse} {flags : Option BibleFlag} {n : Nat}
    (hv : Valid e.data ((e.eff flags).verse0 || v.verse == 0) v) (ha : v.add e n flags = .ok (some w)) : Valid e.data true w := by
  generalize hmb : (e.eff flags).multibook = mb
  generalize hv0 : ((e.eff flags).verse0 || v.verse == 0) = v0 at hv
  obtain ⟨i, hi⟩ : ∃ i : Nat, (walk e.data mb v0 v.book)[i]? = some v :=
    List.mem_iff_getElem?.mp ((mem_walk_iff h hv.listed).mpr ⟨Or.inr rfl, hv⟩)
  have had := add_walk h (v := v) (flags := flags) (i := i) (by rw [hmb, hv0]; exact hi) n
  rw [hmb, hv0, ha] at had
  have hwi : (walk e.data mb v0 v.book)[i + n]? = some w := (Except.ok.inj had).symm
  exact ((mem_walk_iff h hv.listed).mp (List.mem_of_getElem? hwi)).2.mono

omit h in
/-- When adding undoes subtracting. -/
theorem add_of_sub {e : Env} (h : e.data.WF) {v w : BibleVerse} {flags : Option BibleFlag} {n : Nat}
    (hv : Valid e.data true v) (hw : Valid e.data ((e.eff flags).verse0 || w.verse == 0) w)
    (hs : w.sub e n flags = .ok (some v)) :
    v.add e n flags = .ok (some w) ↔
      (∀ u : BibleVerse, Valid e.data true u → u.verse = 0 → v.le e.data u = true → u.lt e.data w = true →
        (if u.book = w.book ∧ u.chap = w.chap then (e.eff flags).verse0 || w.verse == 0 else e.flags.verse0) =
          ((e.eff flags).verse0 || v.verse == 0)) ∧
      (w.verse = 0 → ((e.eff flags).verse0 || v.verse == 0) = true) := by
  have hs' := (sub_some h hv hw).mp hs
  have hvv : Valid e.data ((e.eff flags).verse0 || v.verse == 0) v := by
    by_cases h0 : v.verse = 0
    · simpa [h0] using hv
    · exact hv.of_ne_zero h0
  constructor
  · intro ha
    refine ⟨((sub_of_add h hvv ha).mp hs).1, fun h0 => ?_⟩
    have hx : (walk e.data (e.eff flags).multibook ((e.eff flags).verse0 || v.verse == 0) v.book) ≠ [] ∧
        w ∈ (walk e.data (e.eff flags).multibook ((e.eff flags).verse0 || v.verse == 0) v.book) := by
      obtain ⟨i, hi⟩ : ∃ i : Nat, (walk e.data (e.eff flags).multibook ((e.eff flags).verse0 || v.verse == 0) v.book)[i]? = some v :=
        List.mem_iff_getElem?.mp ((mem_walk_iff h hvv.listed).mpr ⟨Or.inr rfl, hvv⟩)
      rw [add_walk h hi n] at ha
      have := List.mem_of_getElem? (Except.ok.inj ha)
      exact ⟨List.ne_nil_of_mem this, this⟩
    have h1 := (mem_walk h hx.2).2.2.1
    rw [h0] at h1
    cases hc : ((e.eff flags).verse0 || v.verse == 0)
    · rw [hc] at h1; simp [firstNum] at h1
    · rfl
  · rintro ⟨hx, hz⟩
    have hww : Valid e.data ((e.eff flags).verse0 || v.verse == 0) w := by
      by_cases h0 : w.verse = 0
      · rw [hz h0]; exact hw.mono
      · exact hw.mono.of_ne_zero h0
    rw [add_some h hvv hww (hs'.1.imp id Eq.symm) hs'.2.1, ← hs'.2.2.2.2]
    have hwk : walk e.data (e.eff flags).multibook true w.book = walk e.data (e.eff flags).multibook true v.book := by
      rcases hs'.1 with hm | hb
      · rw [hm]; rfl
      · rw [hb]
    unfold between
    rw [hwk]
    apply List.countP_congr
    intro u hu
    simp only [Bool.and_eq_true, Bool.or_eq_true, decide_eq_true_eq]
    apply and_congr_left
    rintro ⟨h1, h2⟩
    by_cases h0 : u.verse = 0
    · have := hx u ((mem_walk_iff h hv.listed).mp hu).2 h0 h1 h2
      simp only [h0, ne_eq, not_true_eq_false, false_or, this]
      simp
    · simp [h0]

end Bibleref

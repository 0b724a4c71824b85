import Verif.Lemmas.Range

/-! Splitting a range: the pieces tile an interval of the reading-order list. -/

namespace Bibleref
open Spec

theorem neighbours_append {α} {R : α → α → Prop} {l l' : List α} (h1 : Neighbours R l) (h2 : Neighbours R l')
    (h3 : ∀ a b, l.getLast? = some a → l'.head? = some b → R a b) : Neighbours R (l ++ l') := by
  induction l with
  | nil => exact h2
  | cons x l ih =>
    cases l with
    | nil =>
      cases l' with
      | nil => exact h1
      | cons y l' => exact ⟨h3 x y rfl rfl, h2⟩
    | cons y l =>
      refine ⟨h1.1, ih h1.2 ?_⟩
      intro a b ha hb
      exact h3 a b (by simpa using ha) hb

theorem neighbours_imp {α} {R S : α → α → Prop} {l : List α} (h : ∀ a b, R a b → S a b) (hl : Neighbours R l) :
    Neighbours S l := by
  induction l with
  | nil => trivial
  | cons x l ih =>
    cases l with
    | nil => trivial
    | cons y l => exact ⟨h _ _ hl.1, ih hl.2⟩

/-- The ranges tile the places `i` to `k` of the reading-order list. -/
inductive Tiles (d : BibleData) (v0 : Bool) : Nat → Nat → List BibleRange → Prop
  | one {i k : Nat} {r : BibleRange} : (canon d v0)[i]? = some r.start → (canon d v0)[k]? = some r.stop → i ≤ k →
      Tiles d v0 i k [r]
  | cons {i j k : Nat} {r : BibleRange} {l} : (canon d v0)[i]? = some r.start → (canon d v0)[j]? = some r.stop → i ≤ j →
      Tiles d v0 (j + 1) k l → Tiles d v0 i k (r :: l)

namespace Tiles
variable {d : BibleData} {v0 : Bool}

theorem le {i k : Nat} {l} (ht : Tiles d v0 i k l) : i ≤ k := by
  induction ht with
  | one _ _ h => exact h
  | cons _ _ h _ ih => omega

theorem append {i j k : Nat} {l l'} (ht : Tiles d v0 i j l) (ht' : Tiles d v0 (j + 1) k l') : Tiles d v0 i k (l ++ l') := by
  induction ht with
  | one h1 h2 h3 => exact .cons h1 h2 h3 ht'
  | cons h1 h2 h3 _ ih => exact .cons h1 h2 h3 (ih ht')

theorem head {i k : Nat} {l} (ht : Tiles d v0 i k l) : ∃ r, l.head? = some r ∧ (canon d v0)[i]? = some r.start := by
  cases ht with
  | one h1 _ _ => exact ⟨_, rfl, h1⟩
  | cons h1 _ _ _ => exact ⟨_, rfl, h1⟩

theorem last {i k : Nat} {l} (ht : Tiles d v0 i k l) : ∃ r, l.getLast? = some r ∧ (canon d v0)[k]? = some r.stop := by
  induction ht with
  | one _ h2 _ => exact ⟨_, rfl, h2⟩
  | @cons i j k r l h1 h2 h3 ht ih =>
    obtain ⟨r', h4, h5⟩ := ih
    cases l with
    | nil => cases h4
    | cons x l => exact ⟨r', by simpa using h4, h5⟩

theorem pieces (h : d.WF) {i k : Nat} {l} (ht : Tiles d v0 i k l) {r} (hr : r ∈ l) :
    ROK d v0 r ∧ i ≤ ix d v0 r.start ∧ ix d v0 r.start ≤ ix d v0 r.stop ∧ ix d v0 r.stop ≤ k := by
  have mk : ∀ {i j : Nat} {r : BibleRange}, (canon d v0)[i]? = some r.start → (canon d v0)[j]? = some r.stop → i ≤ j →
      ROK d v0 r ∧ ix d v0 r.start = i ∧ ix d v0 r.stop = j := by
    intro i j r h1 h2 h3
    have e1 := ix_of_get h h1
    have e2 := ix_of_get h h2
    refine ⟨⟨valid_of_get h h1, valid_of_get h h2, ?_⟩, e1, e2⟩
    rw [pos_le_ix h (valid_of_get h h1) (valid_of_get h h2)]; omega
  induction ht with
  | one h1 h2 h3 =>
    rw [List.mem_singleton] at hr; subst hr
    obtain ⟨a, b, c⟩ := mk h1 h2 h3
    exact ⟨a, by omega, by omega, by omega⟩
  | cons h1 h2 h3 ht ih =>
    have := ht.le
    rcases List.mem_cons.mp hr with rfl | hr
    · obtain ⟨a, b, c⟩ := mk h1 h2 h3
      exact ⟨a, by omega, by omega, by omega⟩
    · obtain ⟨a, b, c, e⟩ := ih hr
      exact ⟨a, by omega, by omega, by omega⟩

theorem consecutive {i k : Nat} {l} (ht : Tiles d v0 i k l) :
    Neighbours (fun p q => ∃ j : Nat, (canon d v0)[j]? = some p.stop ∧ (canon d v0)[j + 1]? = some q.start) l := by
  induction ht with
  | one => trivial
  | @cons i j k r l h1 h2 h3 ht ih =>
    cases l with
    | nil => trivial
    | cons x l =>
      obtain ⟨r', h4, h5⟩ := ht.head
      cases h4
      exact ⟨⟨j, h2, h5⟩, ih⟩

theorem flatMap (h : d.WF) {i k : Nat} {l} (ht : Tiles d v0 i k l) :
    l.flatMap (versesOf d v0) = ((canon d v0).drop i).take (k + 1 - i) := by
  induction ht with
  | one h1 h2 h3 =>
    simp only [List.flatMap_cons, List.flatMap_nil, List.append_nil]
    rw [versesOf_slice h (valid_of_get h h1) (valid_of_get h h2), ix_of_get h h1, ix_of_get h h2]
  | @cons i j k r l h1 h2 h3 ht ih =>
    have := ht.le
    rw [List.flatMap_cons, ih, versesOf_slice h (valid_of_get h h1) (valid_of_get h h2), ix_of_get h h1, ix_of_get h h2]
    rw [← slice_append (canon d v0) (i := i) (j := j) (k := k) (by omega) (by omega)]
    congr 2; omega

end Tiles

/-- Books never go down along the list. -/
theorem book_mono {d : BibleData} (h : d.WF) {v0} {i j : Nat} {v w : BibleVerse} (hi : (canon d v0)[i]? = some v)
    (hj : (canon d v0)[j]? = some w) (hij : i ≤ j) : bidx d v.book ≤ bidx d w.book := by
  apply book_le_of_pos h (valid_of_get h hi) (valid_of_get h hj)
  rw [pos_le_ix h (valid_of_get h hi) (valid_of_get h hj), ix_of_get h hi, ix_of_get h hj]; exact hij

theorem book_between {d : BibleData} (h : d.WF) {v0} {i j k : Nat} {v w u : BibleVerse} (hi : (canon d v0)[i]? = some v)
    (hj : (canon d v0)[j]? = some w) (hk : (canon d v0)[k]? = some u) (hij : i ≤ j) (hjk : j ≤ k) (hb : v.book = u.book) :
    w.book = v.book := by
  have h1 := book_mono h hi hj hij
  have h2 := book_mono h hj hk hjk
  rw [← hb] at h2
  exact h.bidx_inj.mp (by omega)

theorem chap_between {d : BibleData} (h : d.WF) {v0} {i j k : Nat} {v w u : BibleVerse} (hi : (canon d v0)[i]? = some v)
    (hj : (canon d v0)[j]? = some w) (hk : (canon d v0)[k]? = some u) (hij : i ≤ j) (hjk : j ≤ k) (hb : v.book = u.book)
    (hc : v.chap = u.chap) : w.book = v.book ∧ w.chap = v.chap := by
  have hb' := book_between h hi hj hk hij hjk hb
  refine ⟨hb', ?_⟩
  have h1 : v.le d w = true := by
    rw [le_ix h (valid_of_get h hi) (valid_of_get h hj), ix_of_get h hi, ix_of_get h hj]; exact hij
  have h2 : w.le d u = true := by
    rw [le_ix h (valid_of_get h hj) (valid_of_get h hk), ix_of_get h hj, ix_of_get h hk]; exact hjk
  rw [h.le_iff, hb'] at h1 h2
  rw [← hb] at h2
  omega

/-- What the `endOf` argument of `chop` must satisfy: from an existing verse it finds a later existing verse of the same
book. -/
def EndOk (d : BibleData) (v0 : Bool) (endOf : BibleVerse → Except PyErr BibleVerse) (en : BibleVerse → BibleVerse) : Prop :=
  ∀ v, Valid d v0 v → endOf v = .ok (en v) ∧ Valid d v0 (en v) ∧ ix d v0 v ≤ ix d v0 (en v) ∧ (en v).book = v.book

/-- The loop over books or chapters. -/
theorem chop_spec {e : Env} (h : e.data.WF) {f : BibleFlag} (hf : e.eff (some f) = f) {endOf en}
    (hend : EndOk e.data f.verse0 endOf en) (fuel : Nat) : ∀ {i k : Nat} {s t : BibleVerse},
    (canon e.data f.verse0)[i]? = some s → (canon e.data f.verse0)[k]? = some t → i ≤ k →
    (f.multibook = true ∨ s.book = t.book) → k - i < fuel →
    ∃ l, BibleRange.chop e f endOf fuel s t = .ok l ∧ Tiles e.data f.verse0 i k l ∧
      (∀ p ∈ l, ix e.data f.verse0 p.stop ≤ ix e.data f.verse0 (en p.start)) ∧
      Neighbours (fun p _ => p.stop = en p.start) l := by
  induction fuel with
  | zero => intro i k s t _ _ _ _ h5; omega
  | succ fuel ih =>
    intro i k s t hi hk hik hmb hfuel
    have hs := valid_of_get h hi
    have ht := valid_of_get h hk
    obtain ⟨he, hv, hle, hbk⟩ := hend s hs
    have exi := ix_of_get h hi
    have exk := ix_of_get h hk
    rw [BibleRange.chop, he]
    simp only [bind, Except.bind, BibleVerse.less_eq (comparable_listed hv ht)]
    have hgj := ix_get h hv
    by_cases hlt : (en s).lt e.data t = true
    · rw [if_pos hlt]
      rw [lt_ix h hv ht] at hlt
      have hps : pos e.data s ≤ pos e.data (en s) := (pos_le_ix h hs hv).mpr hle
      rw [new_range_ok h hs hv hps (.inr hbk.symm)]
      simp only
      have hadd := add_canon h (v := en s) (flags := some f) (v0 := f.verse0) (by rw [hf]; exact hv.or_self.symm) hgj 1
      rw [show (((1 : Nat) : Int)) = 1 from rfl] at hadd
      have hklen := (List.getElem?_eq_some_iff.mp hk).1
      have hj1 : ix e.data f.verse0 (en s) + 1 < (canon e.data f.verse0).length := by omega
      have hg1 := List.getElem?_eq_getElem hj1
      generalize (canon e.data f.verse0)[ix e.data f.verse0 (en s) + 1] = s' at hg1
      have hb' : f.multibook = true ∨ s'.book = t.book := by
        rcases hmb with hm | hm
        · exact .inl hm
        · right
          have := book_between h hi hg1 hk (by omega) (by omega) hm
          rw [this, hm]
      rw [hadd, hg1, hf]
      have hfil : Option.filter (fun w => f.multibook || decide (w.book = (en s).book)) (some s') = some s' := by
        rw [Option.filter_some, if_pos]
        rcases hmb with hm | hm
        · simp [hm]
        · have := book_between h hi hg1 hk (by omega) (by omega) hm
          simp [this, hbk]
      rw [hfil]
      simp only
      obtain ⟨l, h1, h2, h3, h4⟩ := ih hg1 hk (by omega) hb' (by omega)
      rw [h1]
      refine ⟨_, rfl, .cons (r := ⟨s, en s⟩) hi hgj (by omega) h2, ?_, ?_⟩
      · intro p hp
        rcases List.mem_cons.mp hp with rfl | hp
        · exact Nat.le_refl _
        · exact h3 p hp
      · cases l with
        | nil => trivial
        | cons x l => exact ⟨rfl, h4⟩
    · rw [if_neg hlt]
      rw [lt_ix h hv ht] at hlt
      have hps : pos e.data s ≤ pos e.data t := (pos_le_ix h hs ht).mpr (by omega)
      rw [new_range_ok h hs ht hps (by rw [hf]; exact hmb)]
      refine ⟨_, rfl, .one (r := ⟨s, t⟩) hi hk hik, ?_, trivial⟩
      intro p hp
      rw [List.mem_singleton] at hp; subst hp
      simp only; omega

theorem chopNum_succ (e : Env) (f : BibleFlag) (n : Int) (t : BibleVerse) (fuel : Nat) (s q : Option BibleVerse) :
    BibleRange.chopNum e f n t (fuel + 1) s q = match q with
      | none => do
        let piece ← BibleRange.new e s (some t) (some f)
        return [piece]
      | some stop => do
        let more ← stop.less e.data t
        if more then
          let piece ← BibleRange.new e s (some stop) (some f)
          let start' ← stop.add e 1 (some f)
          let stop' ← stop.add e n (some f)
          let rest ← BibleRange.chopNum e f n t fuel start' stop'
          return piece :: rest
        else
          let piece ← BibleRange.new e s (some t) (some f)
          return [piece] := by
  cases q <;> rfl

/-- The loop over numbers of verses. -/
theorem chopNum_spec {e : Env} (h : e.data.WF) {f : BibleFlag} (hf : e.eff (some f) = f) {n : Nat} (hn : 1 ≤ n) (fuel : Nat) :
    ∀ {i k : Nat} {s t : BibleVerse},
    (canon e.data f.verse0)[i]? = some s → (canon e.data f.verse0)[k]? = some t → i ≤ k →
    (f.multibook = true ∨ s.book = t.book) → k - i < fuel →
    ∃ l, BibleRange.chopNum e f n t fuel (some s)
        ((canon e.data f.verse0)[i + (n - 1)]?.filter (fun w => f.multibook || decide (w.book = s.book))) = .ok l ∧
      Tiles e.data f.verse0 i k l ∧
      (∀ p ∈ l, ix e.data f.verse0 p.stop + 1 - ix e.data f.verse0 p.start ≤ n) ∧
      Neighbours (fun p _ => ix e.data f.verse0 p.stop + 1 - ix e.data f.verse0 p.start = n) l := by
  induction fuel with
  | zero => intro i k s t _ _ _ _ h5; omega
  | succ fuel ih =>
    intro i k s t hi hk hik hmb hfuel
    have hs := valid_of_get h hi
    have ht := valid_of_get h hk
    have exi := ix_of_get h hi
    have exk := ix_of_get h hk
    have hklen := (List.getElem?_eq_some_iff.mp hk).1
    have hps : pos e.data s ≤ pos e.data t := (pos_le_ix h hs ht).mpr (by omega)
    rw [chopNum_succ]
    have hdone : BibleRange.new e (some s) (some t) (some f) = .ok ⟨s, t⟩ :=
      new_range_ok h hs ht hps (by rw [hf]; exact hmb)
    simp only [bind, Except.bind, hdone, pure, Except.pure]
    have fin : k ≤ i + (n - 1) → ∃ l, (Except.ok [⟨s, t⟩] : Except PyErr (List BibleRange)) = .ok l ∧ Tiles e.data f.verse0 i k l ∧
      (∀ p ∈ l, ix e.data f.verse0 p.stop + 1 - ix e.data f.verse0 p.start ≤ n) ∧
      Neighbours (fun p _ => ix e.data f.verse0 p.stop + 1 - ix e.data f.verse0 p.start = n) l := by
      intro hle
      refine ⟨_, rfl, .one (r := ⟨s, t⟩) hi hk hik, ?_, trivial⟩
      intro p hp
      rw [List.mem_singleton] at hp; subst hp
      simp only; omega
    by_cases hlt : i + (n - 1) < k
    · have hg := List.getElem?_eq_getElem (show i + (n - 1) < (canon e.data f.verse0).length by omega)
      generalize (canon e.data f.verse0)[i + (n - 1)] = w at hg
      have hw := valid_of_get h hg
      have exw := ix_of_get h hg
      have hsw : f.multibook = true ∨ s.book = w.book := by
        rcases hmb with hm | hm
        · exact .inl hm
        · exact .inr (book_between h hi hg hk (by omega) (by omega) hm).symm
      rw [hg]
      have hfil : Option.filter (fun w => f.multibook || decide (w.book = s.book)) (some w) = some w := by
        rw [Option.filter_some, if_pos]
        rcases hsw with hm | hm
        · simp [hm]
        · simp [hm]
      rw [hfil]
      simp only [BibleVerse.less_eq (comparable_listed hw ht)]
      rw [if_pos (by rw [lt_ix h hw ht]; omega)]
      have hpw : pos e.data s ≤ pos e.data w := (pos_le_ix h hs hw).mpr (by omega)
      rw [new_range_ok h hs hw hpw (by rw [hf]; exact hsw)]
      simp only
      have ho : f.verse0 = ((e.eff (some f)).verse0 || w.verse == 0) := by rw [hf]; exact hw.or_self.symm
      have hadd1 := add_canon h (v := w) (flags := some f) (v0 := f.verse0) ho hg 1
      have haddn := add_canon h (v := w) (flags := some f) (v0 := f.verse0) ho hg n
      rw [show (((1 : Nat) : Int)) = 1 from rfl] at hadd1
      rw [hadd1, haddn, hf]
      simp only
      have hg1 := List.getElem?_eq_getElem (show i + (n - 1) + 1 < (canon e.data f.verse0).length by omega)
      generalize (canon e.data f.verse0)[i + (n - 1) + 1] = s' at hg1
      have hws' : f.multibook = true ∨ s'.book = w.book := by
        rcases hmb with hm | hm
        · exact .inl hm
        · right
          rw [book_between h hi hg1 hk (by omega) (by omega) hm, book_between h hi hg hk (by omega) (by omega) hm]
      have hb' : f.multibook = true ∨ s'.book = t.book := by
        rcases hmb with hm | hm
        · exact .inl hm
        · right
          rw [book_between h hi hg1 hk (by omega) (by omega) hm, hm]
      rw [hg1]
      have hfil1 : Option.filter (fun u => f.multibook || decide (u.book = w.book)) (some s') = some s' := by
        rw [Option.filter_some, if_pos]
        rcases hws' with hm | hm
        · simp [hm]
        · simp [hm]
      rw [hfil1]
      have hsame : (fun u : BibleVerse => f.multibook || decide (u.book = w.book)) =
          (fun u => f.multibook || decide (u.book = s'.book)) := by
        funext u
        rcases hws' with hm | hm
        · simp [hm]
        · rw [hm]
      rw [hsame, show i + (n - 1) + n = (i + (n - 1) + 1) + (n - 1) by omega]
      obtain ⟨l, h1, h2, h3, h4⟩ := ih hg1 hk (by omega) hb' (by omega)
      rw [h1]
      refine ⟨_, rfl, .cons (r := ⟨s, w⟩) hi hg (by omega) h2, ?_, ?_⟩
      · intro p hp
        rcases List.mem_cons.mp hp with rfl | hp
        · simp only; omega
        · exact h3 p hp
      · cases l with
        | nil => trivial
        | cons x l => exact ⟨by simp only; omega, h4⟩
    · cases hq : Option.filter (fun w => f.multibook || decide (w.book = s.book)) (canon e.data f.verse0)[i + (n - 1)]? with
      | none => exact fin (by omega)
      | some w =>
        have hg : (canon e.data f.verse0)[i + (n - 1)]? = some w := Option.eq_some_of_filter_eq_some hq
        have hw := valid_of_get h hg
        have exw := ix_of_get h hg
        simp only [BibleVerse.less_eq (comparable_listed hw ht)]
        rw [if_neg (by rw [lt_ix h hw ht]; omega)]
        exact fin (by omega)

/-- Splitting every piece of a tiling gives a tiling. -/
theorem splitEach_spec {d : BibleData} (h : d.WF) {v0} {i k : Nat} {l : List BibleRange} (ht : Tiles d v0 i k l)
    {step : BibleRange → Except PyErr (List BibleRange)} {P : BibleRange → Prop} {C : BibleVerse → BibleVerse → Prop}
    {B : BibleRange → BibleRange → Prop} (hC : Neighbours (fun p q => C p.stop q.start) l)
    (hstep : ∀ r ∈ l, ∃ lr, step r = .ok lr ∧ Tiles d v0 (ix d v0 r.start) (ix d v0 r.stop) lr ∧ (∀ x ∈ lr, P x) ∧
      Neighbours B lr) :
    ∃ L, BibleRange.splitEach step l = .ok L ∧ Tiles d v0 i k L ∧ (∀ x ∈ L, P x) ∧
      Neighbours (fun p q => C p.stop q.start ∨ B p q) L := by
  suffices hs : ∃ ls, l.mapM step = .ok ls ∧ Tiles d v0 i k ls.flatten ∧ (∀ x ∈ ls.flatten, P x) ∧
      Neighbours (fun p q => C p.stop q.start ∨ B p q) ls.flatten by
    obtain ⟨ls, h1, h2⟩ := hs
    refine ⟨ls.flatten, ?_, h2⟩
    simp [BibleRange.splitEach, h1, bind, Except.bind, pure, Except.pure]
  induction ht with
  | @one i k r h1 h2 h3 =>
    obtain ⟨lr, a, b, c, n⟩ := hstep r (by simp)
    refine ⟨[lr], ?_, ?_, ?_, ?_⟩
    · simp [List.mapM_cons, a, bind, Except.bind, pure, Except.pure]
    · rw [ix_of_get h h1, ix_of_get h h2] at b
      simpa using b
    · simpa using c
    · simpa using neighbours_imp (fun _ _ => Or.inr) n
  | @cons i j k r l h1 h2 h3 ht ih =>
    obtain ⟨lr, a, b, c, n⟩ := hstep r (by simp)
    have hC' : Neighbours (fun p q : BibleRange => C p.stop q.start) l := by
      cases l with
      | nil => trivial
      | cons x l => exact hC.2
    obtain ⟨ls, a', b', c', n'⟩ := ih hC' (fun r hr => hstep r (List.mem_cons_of_mem _ hr))
    rw [ix_of_get h h1, ix_of_get h h2] at b
    refine ⟨lr :: ls, ?_, ?_, ?_, ?_⟩
    · simp [List.mapM_cons, a, a', bind, Except.bind, pure, Except.pure]
    · rw [List.flatten_cons]; exact b.append b'
    · intro x hx
      rw [List.flatten_cons, List.mem_append] at hx
      exact hx.elim (c x) (c' x)
    · rw [List.flatten_cons]
      refine neighbours_append (neighbours_imp (fun _ _ => Or.inr) n) n' ?_
      intro p q hp hq
      left
      obtain ⟨p', hp', hp2⟩ := b.last
      obtain ⟨q', hq', hq2⟩ := b'.head
      rw [hp'] at hp; cases hp
      rw [hq'] at hq; cases hq
      have e1 : p.stop = r.stop := by rw [h2] at hp2; exact (Option.some.inj hp2).symm
      obtain ⟨x, hx, hx2⟩ := ht.head
      cases l with
      | nil => cases hx
      | cons y l =>
        have hxy : y = x := by simpa using hx
        subst hxy
        have e2 : q.start = y.start := by rw [hx2] at hq2; exact (Option.some.inj hq2).symm
        rw [e1, e2]; exact hC.1

theorem length_canon_le {d : BibleData} (h : d.WF) (v0) : (canon d v0).length ≤ d.totalVerses := by
  have hsum : ∀ (l : List BibleBook) (f g : BibleBook → Nat), (∀ b, f b ≤ g b) → (l.map f).sum ≤ (l.map g).sum := by
    intro l f g hfg
    induction l with
    | nil => simp
    | cons b l ih => have := hfg b; simp only [List.map_cons, List.sum_cons]; omega
  rw [canon, List.length_flatMap, BibleData.totalVerses]
  refine Nat.le_trans ?_ (sum_books_le h.nodup _)
  apply hsum
  intro b
  obtain ⟨m, h1, h2, h3, h4⟩ := h.table b
  rw [bookVerses, List.length_flatMap, chapters, h4, h1]
  have : intRange 1 (m.length : Int) = (List.range m.length).map (fun (i : Nat) => 1 + (i : Int)) := by
    rw [intRange]; congr 2; omega
  rw [this, List.map_map, Option.getD_some]
  have hm : m.map (fun x => (x + 1).toNat) = (List.range m.length).map (fun i => (m[i]?.getD 0 + 1).toNat) := by
    apply List.ext_getElem?
    intro i
    simp only [List.getElem?_map]
    by_cases hi : i < m.length
    · rw [List.getElem?_range hi, List.getElem?_eq_getElem hi]; simp [List.getElem?_eq_getElem hi]
    · rw [List.getElem?_eq_none (by omega), List.getElem?_eq_none (by simp; omega)]; rfl
  rw [hm]
  have hsum' : ∀ (l : List Nat) (f g : Nat → Nat), (∀ b, f b ≤ g b) → (l.map f).sum ≤ (l.map g).sum := by
    intro l f g hfg
    induction l with
    | nil => simp
    | cons b l ih => have := hfg b; simp only [List.map_cons, List.sum_cons]; omega
  apply hsum'
  intro i
  simp only [Function.comp, chapVerses, List.length_map, length_intRange]
  have hF := firstNum_nonneg d v0 b (1 + i)
  have hL : lastNum d b (1 + i) = m[i]?.getD 0 := by
    rw [lastNum, h1]
    rw [show ((1 : Int) + i - 1).toNat = i by omega]; rfl
  rw [hL]; omega

end Bibleref

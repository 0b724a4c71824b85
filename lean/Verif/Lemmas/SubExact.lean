import Verif.Lemmas.AddSub

/-! What `subtract` does for all flags: in the chapter of the verse it counts with the flags in force, in all other chapters with
the global flags. -/

namespace Bibleref
open Spec

/-- What becomes of the verse arrived at. -/
def landing (v0 : Bool) : Option BibleVerse → Except PyErr (Option BibleVerse)
  | none => .ok none
  | some u => if u.verse = 0 ∧ v0 = false then .error .invalidReference else .ok (some u)

variable {e : Env} (h : e.data.WF)
include h

theorem subLoop_mixed {f : BibleFlag} (hf : e.eff (some f) = f) (fuel : Nat) :
    ∀ (b : BibleBook) (c : Int) (k : Nat) (w : Bool),
    (f.multibook = true → b ∈ e.data.bookOrder) → 1 ≤ c → c ≤ nChaps e.data b →
    (before e.data f.multibook (b, c)).length < fuel →
    BibleVerse.subLoop e f fuel b c (lastNum e.data b c - k) (firstNum e.data w b c) =
      landing f.verse0 ((cv e.data w (b, c)).reverse ++
        (before e.data f.multibook (b, c)).flatMap (fun x => (cv e.data e.flags.verse0 x).reverse))[k]? := by
  induction fuel with
  | zero => intro b c k w _ _ _ h3; omega
  | succ fuel ih =>
    intro b c k w hb h1 h2 h3
    have hl := h.lastNum_pos h1 h2
    have hF := firstNum_le_one e.data w b c
    unfold BibleVerse.subLoop
    by_cases hk : lastNum e.data b c - k < firstNum e.data w b c
    · rw [List.getElem?_append_right (by rw [List.length_reverse, length_cv]; simp only; omega), List.length_reverse, length_cv]
      rw [if_pos hk]
      have hae := before_eq h hb (c := c)
      rw [h.minChapNum]
      by_cases hc : c - 1 < 1
      · rw [if_pos hc]
        rw [if_pos hc] at hae
        by_cases hm : f.multibook = false
        · rw [if_pos hm]
          rw [if_pos hm] at hae
          simp [hae, landing]
        · rw [if_neg hm]
          rw [if_neg hm] at hae
          cases hn : b.prev e.data with
          | none => rw [hn] at hae; simp [hae, landing]
          | some b' =>
            rw [hn] at hae
            simp only at hae ⊢
            have hp := h.nChaps_pos b'
            rw [h.maxChapNum, h.minVerseNum, h.maxVerseNum, if_pos (by omega), if_pos (by omega), Env.eff]
            simp only [bind, Except.bind]
            rw [hae] at h3 ⊢
            rw [List.flatMap_cons]
            rw [← ih b' _ (k - (lastNum e.data b c + 1 - firstNum e.data w b c).toNat) _
              (fun _ => BibleData.WF.prev_mem hn) (by omega) (by omega)
              (by simp only [List.length_cons] at h3; omega)]
            congr 1; omega
      · rw [if_neg hc]
        rw [if_neg hc] at hae
        simp only
        rw [h.minVerseNum, h.maxVerseNum, if_pos (by omega), if_pos (by omega), Env.eff]
        simp only [bind, Except.bind]
        rw [hae] at h3 ⊢
        rw [List.flatMap_cons]
        rw [← ih b (c - 1) (k - (lastNum e.data b c + 1 - firstNum e.data w b c).toNat) _ hb (by omega) (by omega)
          (by simp only [List.length_cons] at h3; omega)]
        congr 1; omega
    · rw [List.getElem?_append_left (by rw [List.length_reverse, length_cv]; simp only; omega), getElem?_cv_reverse h _ _ _ h1 h2]
      rw [if_neg hk]
      simp only
      rw [if_pos (by omega)]
      have hF' : firstNum e.data w b c = 0 → c ∈ e.data.verse0s b := by
        unfold firstNum; split
        · rename_i hx; exact fun _ => hx.2
        · intro h0; omega
      have hF0 : 0 ≤ firstNum e.data w b c := by unfold firstNum; split <;> omega
      unfold landing
      simp only
      by_cases hz : lastNum e.data b c - k = 0 ∧ f.verse0 = false
      · rw [if_pos hz, BibleVerse.new_exists h, if_neg (by
          rw [hf]; simp only [Exists, firstNum, hz.2]; intro hv; simp at hv; omega)]
        rfl
      · rw [if_neg hz, BibleVerse.new_exists h, if_pos (by
          rw [hf]; simp only [Exists, firstNum]
          refine ⟨h1, h2, ?_, by omega⟩
          by_cases h0 : lastNum e.data b c - k = 0
          · have hv : f.verse0 = true := by simpa [h0] using hz
            rw [if_pos ⟨hv, hF' (by omega)⟩]; omega
          · split <;> omega)]
        rfl

omit h in
theorem cv_filter {d : BibleData} (h : d.WF) (w : Bool) {x : BibleBook × Int} (h1 : 1 ≤ x.2) (h2 : x.2 ≤ nChaps d x.1) :
    (cv d true x).filter (fun u => u.verse ≠ 0 || w) = cv d w x := by
  have hl := h.lastNum_pos h1 h2
  have h3 : ∀ a : Int, 0 < a → ((intRange a (lastNum d x.1 x.2)).map fun n => (⟨x.1, x.2, n⟩ : BibleVerse)).filter
      (fun u => u.verse ≠ 0 || w) = (intRange a (lastNum d x.1 x.2)).map fun n => (⟨x.1, x.2, n⟩ : BibleVerse) := by
    intro a ha
    rw [List.filter_eq_self]
    intro u hu
    obtain ⟨n, hn, rfl⟩ := List.mem_map.mp hu
    simp only [intRange, List.mem_map] at hn
    obtain ⟨i, _, rfl⟩ := hn
    simp; left; omega
  unfold cv chapVerses firstNum
  by_cases hc : x.2 ∈ d.verse0s x.1
  · cases w
    · simp only [hc, and_true, if_true, Bool.false_eq_true, if_false]
      rw [intRange_cons (by omega), List.map_cons, List.filter_cons]
      simpa using h3 1 (by omega)
    · simp [hc]
  · simp only [hc, and_false, if_false]
    exact h3 1 (by omega)

omit h in
/-- The verses that `subtract` counts. -/
theorem filter_walk {d : BibleData} (h : d.WF) {mb v0 g} {v : BibleVerse} (hb : mb = true → v.book ∈ d.bookOrder)
    (h1 : 1 ≤ v.chap) (h2 : v.chap ≤ nChaps d v.book) :
    (walk d mb true v.book).filter (fun u => u.verse ≠ 0 || (if u.book = v.book ∧ u.chap = v.chap then v0 else g)) =
    ((before d mb (v.book, v.chap)).reverse.flatMap (cv d g)) ++ cv d v0 (v.book, v.chap) ++
      (after d mb (v.book, v.chap)).flatMap (cv d g) := by
  have hsp := walk_split h hb (mb := mb) (v0 := true) (x := (v.book, v.chap)) h1 h2
  have hN := nodup_walk h mb true v.book
  have hC : ∀ x ∈ (before d mb (v.book, v.chap)).reverse ++ (v.book, v.chap) :: after d mb (v.book, v.chap),
      1 ≤ x.2 ∧ x.2 ≤ nChaps d x.1 := by
    intro x hx
    cases mb
    · rw [← bookSeq_split h1 h2] at hx
      obtain ⟨c, hc, rfl⟩ := List.mem_map.mp hx
      exact mem_chapters.mp hc
    · rw [← chapSeq_split h (hb rfl) h1 h2, chapSeq] at hx
      obtain ⟨b, _, hb⟩ := List.mem_flatMap.mp hx
      obtain ⟨c, hc', rfl⟩ := List.mem_map.mp hb
      exact mem_chapters.mp hc'
  have hone : (⟨v.book, v.chap, 1⟩ : BibleVerse) ∈ cv d true (v.book, v.chap) := by
    have hl := h.lastNum_pos h1 h2
    have hF := firstNum_le_one d true v.book v.chap
    simp only [cv, chapVerses, List.mem_map, mem_intRange]
    exact ⟨1, ⟨hF, hl⟩, rfl⟩
  simp only at hsp
  rw [hsp, List.flatMap_append, List.flatMap_cons] at hN
  have hN1 : ∀ x ∈ (before d mb (v.book, v.chap)).reverse, x ≠ (v.book, v.chap) := by
    rintro x hx rfl
    exact (List.nodup_append.mp hN).2.2 _ (List.mem_flatMap.mpr ⟨_, hx, hone⟩) _ (List.mem_append_left _ hone) rfl
  have hN2 : ∀ x ∈ after d mb (v.book, v.chap), x ≠ (v.book, v.chap) := by
    rintro x hx rfl
    exact (List.nodup_append.mp (List.nodup_append.mp hN).2.1).2.2 _ hone _ (List.mem_flatMap.mpr ⟨_, hx, hone⟩) rfl
  have hcv : ∀ x : BibleBook × Int, 1 ≤ x.2 → x.2 ≤ nChaps d x.1 →
      (cv d true x).filter (fun u => u.verse ≠ 0 || (if u.book = v.book ∧ u.chap = v.chap then v0 else g)) =
      cv d (if x = (v.book, v.chap) then v0 else g) x := by
    intro x h3 h4
    rw [← cv_filter h (if x = (v.book, v.chap) then v0 else g) h3 h4]
    apply List.filter_congr
    intro u hu
    obtain ⟨n, _, rfl⟩ := List.mem_map.mp hu
    simp only [Prod.ext_iff]
  have hout : ∀ l : List (BibleBook × Int), (∀ x ∈ l, x ≠ (v.book, v.chap)) → (∀ x ∈ l, 1 ≤ x.2 ∧ x.2 ≤ nChaps d x.1) →
      (l.flatMap (cv d true)).filter (fun u => u.verse ≠ 0 || (if u.book = v.book ∧ u.chap = v.chap then v0 else g)) =
      l.flatMap (cv d g) := by
    intro l
    induction l with
    | nil => intro _ _; rfl
    | cons x l ih =>
      intro hx hy
      rw [List.flatMap_cons, List.flatMap_cons, List.filter_append, ih (fun y hm => hx y (List.mem_cons_of_mem _ hm))
        (fun y hm => hy y (List.mem_cons_of_mem _ hm)), hcv x (hy x List.mem_cons_self).1 (hy x List.mem_cons_self).2,
        if_neg (hx x List.mem_cons_self)]
  rw [hsp, List.flatMap_append, List.flatMap_cons, List.filter_append, List.filter_append,
    hout _ hN1 (fun x hx => hC x (List.mem_append_left _ hx)),
    hout _ hN2 (fun x hx => hC x (List.mem_append_right _ (List.mem_cons_of_mem _ hx))), hcv _ h1 h2, if_pos rfl,
    List.append_assoc]

/-- `subtract` for all flags. -/
theorem sub_exact {v : BibleVerse} {flags : Option BibleFlag} {i : Nat} {l : List BibleVerse}
    (hl : l = (walk e.data (e.eff flags).multibook true v.book).filter (fun u => u.verse ≠ 0 ||
      (if u.book = v.book ∧ u.chap = v.chap then (e.eff flags).verse0 || v.verse == 0 else e.flags.verse0)))
    (hi : l[i]? = some v) (n : Nat) :
    v.sub e n flags = landing ((e.eff flags).verse0 || v.verse == 0) (if n ≤ i then l[i - n]? else none) := by
  have hf := v.eff_honour e flags
  have hm := v.honour_multibook (e.eff flags)
  have hv0 := v.honour_verse0 (e.eff flags)
  unfold BibleVerse.sub
  rw [← hm, ← hv0] at hl
  rw [← hv0]
  generalize hfe : v.honourFlags (e.eff flags) = f at *
  have hmem := List.mem_of_getElem? hi
  have hlm := hmem
  rw [hl, List.mem_filter] at hlm
  have hV := mem_walk h hlm.1
  have hL := walk_listed h hlm.1
  rw [filter_walk h hL hV.1 hV.2.1] at hl
  have hN : l.Nodup := by
    have := nodup_walk h f.multibook true v.book
    rw [hl, ← filter_walk h hL hV.1 hV.2.1]
    exact this.filter _
  have hVc : v ∈ cv e.data f.verse0 (v.book, v.chap) := by
    have h3 := hlm.2
    rw [if_pos ⟨rfl, rfl⟩] at h3
    rw [← cv_filter h _ hV.1 hV.2.1, List.mem_filter]
    refine ⟨?_, by simpa using h3⟩
    simp only [cv, chapVerses, List.mem_map, mem_intRange]
    exact ⟨v.verse, ⟨hV.2.2.1, hV.2.2.2⟩, rfl⟩
  have hVn : firstNum e.data f.verse0 v.book v.chap ≤ v.verse := by
    simp only [cv, chapVerses, List.mem_map, mem_intRange] at hVc
    obtain ⟨m, hm1, hm2⟩ := hVc
    rw [← hm2]; exact hm1.1
  simp only
  rw [h.minVerseNum, if_pos ⟨hV.1, hV.2.1⟩, hf]
  simp only [bind, Except.bind]
  obtain ⟨k, hk⟩ : ∃ k : Nat, v.verse = lastNum e.data v.book v.chap - k :=
    ⟨(lastNum e.data v.book v.chap - v.verse).toNat, by have := hV.2.2.2; omega⟩
  have hsp : l.reverse = (after e.data f.multibook (v.book, v.chap)).reverse.flatMap (fun x => (cv e.data e.flags.verse0 x).reverse)
      ++ ((cv e.data f.verse0 (v.book, v.chap)).reverse ++ (before e.data f.multibook (v.book, v.chap)).flatMap
        (fun x => (cv e.data e.flags.verse0 x).reverse)) := by
    rw [hl, List.reverse_append, List.reverse_append, List.reverse_flatMap, List.reverse_flatMap]
    simp [Function.comp_def]
  generalize hA : (after e.data f.multibook (v.book, v.chap)).reverse.flatMap
    (fun x => (cv e.data e.flags.verse0 x).reverse) = A at *
  have hget : ∀ m : Nat, l.reverse[A.length + m]? = ((cv e.data f.verse0 (v.book, v.chap)).reverse ++
      (before e.data f.multibook (v.book, v.chap)).flatMap (fun x => (cv e.data e.flags.verse0 x).reverse))[m]? := by
    intro m; rw [hsp, List.getElem?_append_right (by omega)]; congr 1; omega
  have hvk : l.reverse[A.length + k]? = some v := by
    rw [hget, List.getElem?_append_left, getElem?_cv_reverse h _ _ _ hV.1 hV.2.1]
    · simp only
      rw [if_pos (by omega), ← hk]
    · rw [List.length_reverse, length_cv]; simp only; omega
  obtain ⟨hlt, _⟩ := List.getElem?_eq_some_iff.mp hi
  have hii : l.reverse[l.length - 1 - i]? = some v := by
    rw [List.getElem?_reverse (by omega), show l.length - 1 - (l.length - 1 - i) = i by omega, hi]
  have hii := index_unique (l := l.reverse) (by rw [List.Nodup, List.pairwise_reverse]; exact hN.imp Ne.symm) hii hvk
  have := subLoop_mixed h hf _ v.book v.chap (k + n) f.verse0 hL hV.1 hV.2.1
    (length_before_le h hL hV.1 hV.2.1)
  rw [← hget] at this
  rw [show v.verse - (n : Int) = lastNum e.data v.book v.chap - ((k + n : Nat) : Int) by omega, this, ← Nat.add_assoc, ← hii]
  congr 1
  by_cases hn : n ≤ i
  · rw [if_pos hn, List.getElem?_reverse (by omega)]
    congr 1; omega
  · rw [if_neg hn, List.getElem?_eq_none (by rw [List.length_reverse]; omega)]

end Bibleref

import Verif.Lemmas.Walk

/-! The loops of `add` and `subtract` walk along `canon`. -/

namespace Bibleref
open Spec

variable {e : Env} (h : e.data.WF)
include h

/-- One run of the loop of `add`: starting `k` places after the first verse of chapter `x`. -/
theorem addLoop_spec {f : BibleFlag} (hf : e.eff (some f) = f) (fuel : Nat) : ∀ (b : BibleBook) (c : Int) (k : Nat),
    (f.multibook = true → b ∈ e.data.bookOrder) → 1 ≤ c → c ≤ nChaps e.data b → (after e.data f.multibook (b, c)).length < fuel →
    BibleVerse.addLoop e f fuel b c (firstNum e.data f.verse0 b c + k) (lastNum e.data b c) =
      .ok (((b, c) :: after e.data f.multibook (b, c)).flatMap (cv e.data f.verse0))[k]? := by
  induction fuel with
  | zero => intro b c k _ _ _ h3; omega
  | succ fuel ih =>
    intro b c k hB h1 h2 h3
    have hl := h.lastNum_pos h1 h2
    have hF := firstNum_le_one e.data f.verse0 b c
    unfold BibleVerse.addLoop
    rw [List.flatMap_cons]
    by_cases hk : firstNum e.data f.verse0 b c + k > lastNum e.data b c
    · rw [List.getElem?_append_right (by rw [length_cv]; simp only; omega), length_cv]
      rw [if_pos hk]
      have hae := after_eq h (mb := f.multibook) (b := b) (c := c)
      rw [h.maxChapNum]
      by_cases hc : c + 1 > nChaps e.data b
      · rw [if_pos hc]
        rw [if_pos hc] at hae
        by_cases hm : f.multibook = false
        · rw [if_pos hm]
          rw [if_pos hm] at hae
          simp [hae]
        · rw [if_neg hm]
          rw [if_neg hm] at hae
          cases hn : b.next e.data with
          | none => rw [hn] at hae; simp [hae]
          | some b' =>
            rw [hn] at hae
            simp only at hae ⊢
            have hp := h.nChaps_pos b'
            rw [h.minChapNum, h.minVerseNum, h.maxVerseNum, if_pos (by omega), if_pos (by omega), hf]
            simp only [bind, Except.bind]
            rw [hae] at h3 ⊢
            rw [← ih b' 1 (k - (lastNum e.data b c + 1 - firstNum e.data f.verse0 b c).toNat)
              (fun _ => BibleData.WF.next_mem hn) (by omega) (by omega) (by simp only [List.length_cons] at h3; omega)]
            congr 1; omega
      · rw [if_neg hc]
        rw [if_neg hc] at hae
        simp only
        rw [h.minVerseNum, h.maxVerseNum, if_pos (by omega), if_pos (by omega), hf]
        simp only [bind, Except.bind]
        rw [hae] at h3 ⊢
        rw [← ih b (c + 1) (k - (lastNum e.data b c + 1 - firstNum e.data f.verse0 b c).toNat) hB (by omega) (by omega)
          (by simp only [List.length_cons] at h3; omega)]
        congr 1; omega
    · rw [List.getElem?_append_left (by rw [length_cv]; simp only; omega), getElem?_cv]
      rw [if_neg hk]
      simp only
      rw [if_pos (by omega), BibleVerse.new_exists h, if_pos (by rw [hf]; exact ⟨h1, h2, by simp only; omega, by simp only; omega⟩)]
      rfl

theorem getElem?_cv_reverse (v0) (x : BibleBook × Int) (k : Nat) (h1 : 1 ≤ x.2) (h2 : x.2 ≤ nChaps e.data x.1) :
    (cv e.data v0 x).reverse[k]? =
    if firstNum e.data v0 x.1 x.2 ≤ lastNum e.data x.1 x.2 - k then
      some ⟨x.1, x.2, lastNum e.data x.1 x.2 - k⟩ else none := by
  have hl := h.lastNum_pos h1 h2
  have hF := firstNum_le_one e.data v0 x.1 x.2
  by_cases hk : k < (cv e.data v0 x).length
  · rw [List.getElem?_reverse hk, getElem?_cv]
    rw [length_cv] at hk ⊢
    rw [if_pos (by omega), if_pos (by omega)]
    congr 2; omega
  · rw [List.getElem?_eq_none (by simpa using hk)]
    rw [length_cv] at hk
    rw [if_neg (by omega)]

/-- One run of the loop of `subtract`: starting `k` places before the last verse of chapter `x`, when the global flags
agree with the flags in force about verse 0s. -/
theorem subLoop_spec {f : BibleFlag} (hf : e.eff (some f) = f) (hg : e.flags.verse0 = f.verse0) (fuel : Nat) :
    ∀ (b : BibleBook) (c : Int) (k : Nat),
    (f.multibook = true → b ∈ e.data.bookOrder) → 1 ≤ c → c ≤ nChaps e.data b → (before e.data f.multibook (b, c)).length < fuel →
    BibleVerse.subLoop e f fuel b c (lastNum e.data b c - k) (firstNum e.data f.verse0 b c) =
      .ok (((b, c) :: before e.data f.multibook (b, c)).flatMap (fun x => (cv e.data f.verse0 x).reverse))[k]? := by
  induction fuel with
  | zero => intro b c k _ _ _ h3; omega
  | succ fuel ih =>
    intro b c k hB h1 h2 h3
    have hl := h.lastNum_pos h1 h2
    have hF := firstNum_le_one e.data f.verse0 b c
    unfold BibleVerse.subLoop
    rw [List.flatMap_cons]
    by_cases hk : lastNum e.data b c - k < firstNum e.data f.verse0 b c
    · rw [List.getElem?_append_right (by rw [List.length_reverse, length_cv]; simp only; omega), List.length_reverse, length_cv]
      rw [if_pos hk]
      have hae := before_eq h (mb := f.multibook) (c := c) hB
      rw [h.minChapNum]
      by_cases hc : c - 1 < 1
      · rw [if_pos hc]
        rw [if_pos hc] at hae
        by_cases hm : f.multibook = false
        · rw [if_pos hm]
          rw [if_pos hm] at hae
          simp [hae]
        · rw [if_neg hm]
          rw [if_neg hm] at hae
          cases hn : b.prev e.data with
          | none => rw [hn] at hae; simp [hae]
          | some b' =>
            rw [hn] at hae
            simp only at hae ⊢
            have hp := h.nChaps_pos b'
            rw [h.maxChapNum, h.minVerseNum, h.maxVerseNum, if_pos (by omega), if_pos (by omega), Env.eff, hg]
            simp only [bind, Except.bind]
            rw [hae] at h3 ⊢
            rw [← ih b' _ (k - (lastNum e.data b c + 1 - firstNum e.data f.verse0 b c).toNat)
              (fun _ => BibleData.WF.prev_mem hn) (by omega) (by omega) (by simp only [List.length_cons] at h3; omega)]
            congr 1; omega
      · rw [if_neg hc]
        rw [if_neg hc] at hae
        simp only
        rw [h.minVerseNum, h.maxVerseNum, if_pos (by omega), if_pos (by omega), Env.eff, hg]
        simp only [bind, Except.bind]
        rw [hae] at h3 ⊢
        rw [← ih b (c - 1) (k - (lastNum e.data b c + 1 - firstNum e.data f.verse0 b c).toNat) hB (by omega) (by omega)
          (by simp only [List.length_cons] at h3; omega)]
        congr 1; omega
    · rw [List.getElem?_append_left (by rw [List.length_reverse, length_cv]; simp only; omega), getElem?_cv_reverse h _ _ _ h1 h2]
      rw [if_neg hk]
      simp only
      rw [if_pos (by omega), BibleVerse.new_exists h, if_pos (by rw [hf]; exact ⟨h1, h2, by simp only; omega, by simp only; omega⟩)]
      rfl

/-- The list walked on: the Bible or one book. -/
def walk (d : BibleData) (mb v0 : Bool) (b : BibleBook) : List BibleVerse := if mb then canon d v0 else bookVerses d v0 b

omit h in
theorem mem_walk {d : BibleData} (h : d.WF) {mb v0 b v} (hv : v ∈ walk d mb v0 b) : Exists d v0 v := by
  cases mb
  · exact (mem_bookVerses.mp hv).2
  · exact (valid_iff.mp ((mem_canon h).mp hv)).1

omit h in
theorem walk_listed {d : BibleData} (h : d.WF) {mb v0 b v} (hv : v ∈ walk d mb v0 b) (hb : mb = true) :
    v.book ∈ d.bookOrder := by
  subst hb; exact ((mem_canon h).mp hv).listed

omit h in
theorem mem_walk_valid {d : BibleData} (h : d.WF) {mb v0 b v} (hb : b ∈ d.bookOrder) (hv : v ∈ walk d mb v0 b) :
    Valid d v0 v := by
  refine valid_iff.mpr ⟨mem_walk h hv, ?_⟩
  cases mb
  · rw [(mem_bookVerses.mp hv).1]; exact hb
  · exact walk_listed h hv rfl

omit h in
theorem nodup_walk {d : BibleData} (h : d.WF) (mb v0 b) : (walk d mb v0 b).Nodup := by
  cases mb
  · exact h.nodup_bookVerses _ _
  · exact h.nodup_canon _

omit h in
theorem walk_split {d : BibleData} (h : d.WF) {mb v0} {x : BibleBook × Int} (hb : mb = true → x.1 ∈ d.bookOrder) (h1 : 1 ≤ x.2)
    (h2 : x.2 ≤ nChaps d x.1) : walk d mb v0 x.1 = ((before d mb x).reverse ++ x :: after d mb x).flatMap (cv d v0) := by
  cases mb
  · simp only [walk, Bool.false_eq_true, if_false]
    rw [bookVerses_eq, bookSeq_split h1 h2]
  · simp only [walk, if_true]
    rw [canon_eq_chapSeq, chapSeq_split h (hb rfl) h1 h2]

/-- `add` along `walk`. -/
theorem add_walk {v : BibleVerse} {flags : Option BibleFlag} {i : Nat}
    (hi : (walk e.data (e.eff flags).multibook ((e.eff flags).verse0 || v.verse == 0) v.book)[i]? = some v) (n : Nat) :
    v.add e n flags =
      .ok (walk e.data (e.eff flags).multibook ((e.eff flags).verse0 || v.verse == 0) v.book)[i + n]? := by
  have hf := v.eff_honour e flags
  have hm := v.honour_multibook (e.eff flags)
  have hv0 := v.honour_verse0 (e.eff flags)
  unfold BibleVerse.add
  rw [← hm, ← hv0] at hi ⊢
  generalize hfe : v.honourFlags (e.eff flags) = f at *
  have hV := mem_walk h (List.mem_of_getElem? hi)
  have hB : f.multibook = true → v.book ∈ e.data.bookOrder := walk_listed h (List.mem_of_getElem? hi)
  simp only
  rw [h.maxVerseNum, if_pos ⟨hV.1, hV.2.1⟩]
  simp only [bind, Except.bind]
  obtain ⟨k, hk⟩ : ∃ k : Nat, v.verse = firstNum e.data f.verse0 v.book v.chap + k :=
    ⟨(v.verse - firstNum e.data f.verse0 v.book v.chap).toNat, by have := hV.2.2.1; omega⟩
  have hsp := walk_split h (mb := f.multibook) (v0 := f.verse0) (x := (v.book, v.chap)) hB hV.1 hV.2.1
  rw [List.flatMap_append] at hsp
  simp only at hsp
  have hget : ∀ m : Nat, (walk e.data f.multibook f.verse0 v.book)[((before e.data f.multibook (v.book, v.chap)).reverse.flatMap
      (cv e.data f.verse0)).length + m]? =
      (((v.book, v.chap) :: after e.data f.multibook (v.book, v.chap)).flatMap (cv e.data f.verse0))[m]? := by
    intro m; rw [hsp, List.getElem?_append_right (by omega)]; congr 1; omega
  have hvk : (walk e.data f.multibook f.verse0 v.book)[((before e.data f.multibook (v.book, v.chap)).reverse.flatMap
      (cv e.data f.verse0)).length + k]? = some v := by
    rw [hget, List.flatMap_cons, List.getElem?_append_left, getElem?_cv]
    · simp only
      rw [if_pos (by have := hV.2.2.2; omega), ← hk]
    · rw [length_cv]; simp only; have := hV.2.2.2; omega
  have hii := index_unique (nodup_walk h _ _ _) hi hvk
  subst hii
  have := addLoop_spec h hf _ v.book v.chap (k + n) hB hV.1 hV.2.1 (length_after_le h hB hV.1 hV.2.1)
  rw [← hget] at this
  rw [show v.verse + (n : Int) = firstNum e.data f.verse0 v.book v.chap + ((k + n : Nat) : Int) by omega, this, Nat.add_assoc]

/-- `subtract` along `walk`, when the global flags agree about verse 0s. -/
theorem sub_walk {v : BibleVerse} {flags : Option BibleFlag} {i : Nat}
    (hg : e.flags.verse0 = ((e.eff flags).verse0 || v.verse == 0))
    (hi : (walk e.data (e.eff flags).multibook ((e.eff flags).verse0 || v.verse == 0) v.book)[i]? = some v) (n : Nat) :
    v.sub e n flags = .ok (if n ≤ i then
      (walk e.data (e.eff flags).multibook ((e.eff flags).verse0 || v.verse == 0) v.book)[i - n]? else none) := by
  have hf := v.eff_honour e flags
  have hm := v.honour_multibook (e.eff flags)
  have hv0 := v.honour_verse0 (e.eff flags)
  unfold BibleVerse.sub
  rw [← hm, ← hv0] at hi ⊢
  rw [← hv0] at hg
  generalize hfe : v.honourFlags (e.eff flags) = f at *
  have hV := mem_walk h (List.mem_of_getElem? hi)
  have hB : f.multibook = true → v.book ∈ e.data.bookOrder := walk_listed h (List.mem_of_getElem? hi)
  simp only
  rw [h.minVerseNum, if_pos ⟨hV.1, hV.2.1⟩, hf]
  simp only [bind, Except.bind]
  obtain ⟨k, hk⟩ : ∃ k : Nat, v.verse = lastNum e.data v.book v.chap - k :=
    ⟨(lastNum e.data v.book v.chap - v.verse).toNat, by have := hV.2.2.2; omega⟩
  have hsp := walk_split h (mb := f.multibook) (v0 := f.verse0) (x := (v.book, v.chap)) hB hV.1 hV.2.1
  simp only at hsp
  generalize hW : walk e.data f.multibook f.verse0 v.book = W at *
  have hN : W.Nodup := hW ▸ nodup_walk h _ _ _
  replace hsp : W.reverse = (after e.data f.multibook (v.book, v.chap)).reverse.flatMap (fun x => (cv e.data f.verse0 x).reverse)
      ++ ((v.book, v.chap) :: before e.data f.multibook (v.book, v.chap)).flatMap (fun x => (cv e.data f.verse0 x).reverse) := by
    rw [hsp, List.reverse_flatMap, ← List.flatMap_append]
    simp [Function.comp_def]
  generalize hA : (after e.data f.multibook (v.book, v.chap)).reverse.flatMap (fun x => (cv e.data f.verse0 x).reverse) = A at *
  have hget : ∀ m : Nat, W.reverse[A.length + m]? = (((v.book, v.chap) :: before e.data f.multibook (v.book, v.chap)).flatMap
      (fun x => (cv e.data f.verse0 x).reverse))[m]? := by
    intro m; rw [hsp, List.getElem?_append_right (by omega)]; congr 1; omega
  have hvk : W.reverse[A.length + k]? = some v := by
    rw [hget, List.flatMap_cons, List.getElem?_append_left, getElem?_cv_reverse h _ _ _ hV.1 hV.2.1]
    · simp only
      rw [if_pos (by have := hV.2.2.1; omega), ← hk]
    · rw [List.length_reverse, length_cv]; simp only; have := hV.2.2.1; omega
  obtain ⟨hlt, _⟩ := List.getElem?_eq_some_iff.mp hi
  have hii : W.reverse[W.length - 1 - i]? = some v := by
    rw [List.getElem?_reverse (by omega), show W.length - 1 - (W.length - 1 - i) = i by omega, hi]
  have hii := index_unique (l := W.reverse) (by rw [List.Nodup, List.pairwise_reverse]; exact hN.imp Ne.symm) hii hvk
  have := subLoop_spec h hf hg _ v.book v.chap (k + n) hB hV.1 hV.2.1 (length_before_le h hB hV.1 hV.2.1)
  rw [← hget] at this
  rw [show v.verse - (n : Int) = lastNum e.data v.book v.chap - ((k + n : Nat) : Int) by omega, this, ← Nat.add_assoc, ← hii]
  congr 1
  by_cases hn : n ≤ i
  · rw [if_pos hn, List.getElem?_reverse (by omega)]
    congr 1; omega
  · rw [if_neg hn, List.getElem?_eq_none (by rw [List.length_reverse]; omega)]

end Bibleref

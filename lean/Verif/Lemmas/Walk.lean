import Verif.Lemmas.Order

/-! `add` and `subtract` as walks along `canon`. -/

namespace Bibleref
open Spec

theorem Env.eff_eff (e : Env) (f : Option BibleFlag) : e.eff (some (e.eff f)) = e.eff f := by
  cases f with
  | none => by_cases hf : e.flags = .none <;> simp [eff, hf]
  | some f => by_cases hf : f = .none <;> simp [eff, hf]

theorem Env.eff_some_of_ne (e : Env) {f : BibleFlag} (h : f ≠ .none) : e.eff (some f) = f := by
  simp [eff, h]

theorem BibleVerse.honour_verse0 (v : BibleVerse) (f : BibleFlag) :
    (v.honourFlags f).verse0 = (f.verse0 || v.verse == 0) := by
  unfold honourFlags BibleFlag.union BibleFlag.VERSE_0; split <;> simp_all

theorem BibleVerse.honour_multibook (v : BibleVerse) (f : BibleFlag) :
    (v.honourFlags f).multibook = f.multibook := by
  unfold honourFlags BibleFlag.union BibleFlag.VERSE_0; split <;> simp_all

theorem BibleVerse.eff_honour (e : Env) (v : BibleVerse) (f : Option BibleFlag) :
    e.eff (some (v.honourFlags (e.eff f))) = v.honourFlags (e.eff f) := by
  by_cases hv : v.verse = 0
  · refine e.eff_some_of_ne ?_
    intro hh
    have := congrArg BibleFlag.verse0 hh
    rw [honour_verse0] at this
    simp [hv, BibleFlag.none] at this
  · simp only [honourFlags, hv, if_false]
    exact e.eff_eff f

theorem intRange_cons {a b : Int} (h : a ≤ b) : intRange a b = a :: intRange (a + 1) b := by
  have : (b + 1 - a).toNat = (b + 1 - (a + 1)).toNat + 1 := by omega
  simp only [intRange]
  rw [this, List.range_succ_eq_map, List.map_cons, List.map_map]
  rw [show a + ((0 : Nat) : Int) = a by omega]
  congr 1
  apply List.map_congr_left
  intro i _; simp only [Function.comp]; omega

theorem intRange_nil {a b : Int} (h : b < a) : intRange a b = [] := by
  have : (b + 1 - a).toNat = 0 := by omega
  simp [intRange, this]

theorem intRange_append {a b c : Int} (h1 : a ≤ b + 1) (h2 : b ≤ c) :
    intRange a c = intRange a b ++ intRange (b + 1) c := by
  apply List.ext_getElem?
  intro i
  rw [List.getElem?_append, length_intRange]
  simp only [getElem?_intRange]
  by_cases hi : i < (b + 1 - a).toNat
  · rw [if_pos hi, if_pos (by omega), if_pos (by omega)]
  · rw [if_neg hi]
    by_cases hc : a + i ≤ c
    · rw [if_pos hc, if_pos (by omega)]; congr 1; omega
    · rw [if_neg hc, if_neg (by omega)]

/-- The chapters of the whole Bible. -/
def chapSeq (d : BibleData) : List (BibleBook × Int) :=
  d.bookOrder.flatMap fun b => (chapters d b).map fun c => (b, c)

/-- Verses of a chapter given as a pair. -/
def cv (d : BibleData) (v0 : Bool) (x : BibleBook × Int) : List BibleVerse := chapVerses d v0 x.1 x.2

theorem canon_eq_chapSeq (d v0) : canon d v0 = (chapSeq d).flatMap (cv d v0) := by
  simp only [canon, chapSeq, List.flatMap_assoc, List.flatMap_map, cv]
  rfl

theorem bookVerses_eq (d v0 b) : bookVerses d v0 b = ((chapters d b).map fun c => (b, c)).flatMap (cv d v0) := by
  simp only [bookVerses, List.flatMap_map, cv]

/-- A sum over different books is at most the sum over all books. -/
theorem sum_books_le {l : List BibleBook} (hl : l.Nodup) (f : BibleBook → Nat) : (l.map f).sum ≤ (BibleBook.all.map f).sum := by
  have key : ∀ (l m : List BibleBook), l.Nodup → (∀ b ∈ l, b ∈ m) → (l.map f).sum ≤ (m.map f).sum := by
    intro l
    induction l with
    | nil => simp
    | cons b l ih =>
      intro m hl hm
      have hp := (List.perm_cons_erase (hm b List.mem_cons_self)).map f
      rw [hp.sum_nat, List.map_cons, List.map_cons, List.sum_cons, List.sum_cons]
      have := ih (m.erase b) (List.nodup_cons.mp hl).2 (fun x hx =>
        (List.mem_erase_of_ne (fun hh => (List.nodup_cons.mp hl).1 (by rw [← hh]; exact hx))).mpr (hm x (List.mem_cons_of_mem _ hx)))
      omega
  exact key l _ hl (fun b _ => BibleBook.mem_all b)

theorem length_chapSeq {d : BibleData} (h : d.WF) : (chapSeq d).length ≤ d.totalChaps := by
  simp only [chapSeq, BibleData.totalChaps, List.length_flatMap, List.length_map, chapters, length_intRange, h.maxChapNum]
  refine Nat.le_trans (Nat.le_of_eq ?_) (sum_books_le h.nodup _)
  congr 1
  apply List.map_congr_left
  intro b _; omega

theorem nChaps_le_total {d : BibleData} (h : d.WF) (b : BibleBook) : nChaps d b ≤ d.totalChaps := by
  simp only [BibleData.totalChaps, h.maxChapNum]
  have key : ∀ l : List BibleBook, b ∈ l → nChaps d b ≤ (l.map fun b => ((nChaps d b : Nat) : Int).toNat).sum := by
    intro l
    induction l with
    | nil => exact fun hb => absurd hb (by simp)
    | cons x l ih =>
      intro hb
      rw [List.map_cons, List.sum_cons]
      rcases List.mem_cons.mp hb with rfl | hb
      · omega
      · have := ih hb; omega
  exact key _ (BibleBook.mem_all b)

theorem length_cv (d v0) (x : BibleBook × Int) :
    (cv d v0 x).length = (lastNum d x.1 x.2 + 1 - firstNum d v0 x.1 x.2).toNat := by
  simp [cv, chapVerses, length_intRange]

theorem getElem?_cv (d v0) (x : BibleBook × Int) (k : Nat) : (cv d v0 x)[k]? =
    if firstNum d v0 x.1 x.2 + k ≤ lastNum d x.1 x.2 then some ⟨x.1, x.2, firstNum d v0 x.1 x.2 + k⟩ else none := by
  simp only [cv, chapVerses, List.getElem?_map, getElem?_intRange]
  split <;> rfl

/-- The chapters after a chapter: of the book, and with `mb` of the Bible. -/
def after (d : BibleData) (mb : Bool) (x : BibleBook × Int) : List (BibleBook × Int) :=
  ((intRange (x.2 + 1) (nChaps d x.1)).map fun c => (x.1, c)) ++
    if mb then (d.bookOrder.drop (bidx d x.1 + 1)).flatMap fun b => (chapters d b).map fun c => (b, c) else []

/-- The chapters before a chapter, last one first. -/
def before (d : BibleData) (mb : Bool) (x : BibleBook × Int) : List (BibleBook × Int) :=
  ((intRange 1 (x.2 - 1)).map fun c => (x.1, c)).reverse ++
    if mb then ((d.bookOrder.take (bidx d x.1)).flatMap fun b => (chapters d b).map fun c => (b, c)).reverse else []

variable {d : BibleData} (h : d.WF)
include h

theorem chapSeq_split {x : BibleBook × Int} (hl : x.1 ∈ d.bookOrder) (h1 : 1 ≤ x.2) (h2 : x.2 ≤ nChaps d x.1) :
    chapSeq d = (before d true x).reverse ++ x :: after d true x := by
  have hb : d.bookOrder = d.bookOrder.take (bidx d x.1) ++ x.1 :: d.bookOrder.drop (bidx d x.1 + 1) := by
    have := h.bidx_lt hl
    conv => lhs; rw [← List.take_append_drop (bidx d x.1) d.bookOrder]
    rw [List.drop_eq_getElem_cons this]
    congr 2
    simp [bidx_of_mem hl]
  simp only [before, after, if_true, List.reverse_append, List.reverse_reverse]
  unfold chapSeq
  conv => lhs; rw [hb]
  rw [List.flatMap_append, List.flatMap_cons, List.append_assoc]
  congr 1
  rw [chapters, intRange_append (b := x.2 - 1) (by omega) (by omega), List.map_append, List.append_assoc]
  congr 1
  rw [intRange_cons (by omega)]
  simp only [List.map_cons, List.cons_append]
  have : x.2 - 1 + 1 = x.2 := by omega
  rw [this]

omit h in
theorem bookSeq_split {x : BibleBook × Int} (h1 : 1 ≤ x.2) (h2 : x.2 ≤ nChaps d x.1) :
    ((chapters d x.1).map fun c => (x.1, c)) = (before d false x).reverse ++ x :: after d false x := by
  simp only [before, after, Bool.false_eq_true, if_false, List.append_nil, List.reverse_reverse]
  rw [chapters, intRange_append (b := x.2 - 1) (by omega) (by omega), List.map_append]
  congr 1
  rw [intRange_cons (by omega)]
  have : x.2 - 1 + 1 = x.2 := by omega
  simp only [List.map_cons, this]

/-- What comes after a chapter, unrolled by one step. -/
theorem after_eq {mb : Bool} {b : BibleBook} {c : Int} :
    after d mb (b, c) =
      if c + 1 > nChaps d b then
        (if mb = false then [] else match b.next d with
          | none => []
          | some b' => (b', 1) :: after d mb (b', 1))
      else (b, c + 1) :: after d mb (b, c + 1) := by
  split
  · rename_i hc
    simp only [after]
    rw [intRange_nil (by omega)]
    cases mb with
    | false => simp
    | true =>
      simp only [List.map_nil, List.nil_append, if_true, Bool.true_eq_false, if_false]
      by_cases hl : b ∈ d.bookOrder
      rotate_left
      · simp only [BibleBook.next, order_of_not_mem hl, bidx_of_not_mem hl]
        rw [List.drop_eq_nil_of_le (by omega)]; rfl
      simp only [BibleBook.next, h.order_eq hl]
      have hlt := h.bidx_lt hl
      split
      · rename_i hn
        split at hn
        · rw [List.drop_eq_nil_of_le (by omega)]; rfl
        · rw [List.getElem?_eq_none_iff] at hn; omega
      · rename_i b' hn
        split at hn
        · cases hn
        · obtain ⟨hi, hg⟩ := List.getElem?_eq_some_iff.mp hn
          have hb' := h.bidx_of_get hn
          rw [List.drop_eq_getElem_cons hi, hg, List.flatMap_cons, hb', chapters,
            intRange_cons (by have := h.nChaps_pos b'; omega)]
          simp
  · rename_i hc
    simp only [after]
    rw [intRange_cons (by omega)]
    simp

/-- What comes before a chapter, unrolled by one step. -/
theorem before_eq {mb : Bool} {b : BibleBook} {c : Int} (hl : mb = true → b ∈ d.bookOrder) :
    before d mb (b, c) =
      if c - 1 < 1 then
        (if mb = false then [] else match b.prev d with
          | none => []
          | some b' => (b', (nChaps d b' : Int)) :: before d mb (b', (nChaps d b' : Int)))
      else (b, c - 1) :: before d mb (b, c - 1) := by
  split
  · rename_i hc
    simp only [before]
    rw [intRange_nil (by omega)]
    cases mb with
    | false => simp
    | true =>
      simp only [List.map_nil, List.reverse_nil, List.nil_append, if_true, Bool.true_eq_false, if_false]
      replace hl := hl rfl
      simp only [BibleBook.prev, h.order_eq hl]
      have hlt := h.bidx_lt hl
      split
      · rename_i hn
        split at hn
        · rename_i h0; rw [h0]; rfl
        · rw [List.getElem?_eq_none_iff] at hn; omega
      · rename_i b' hn
        split at hn
        · cases hn
        · rename_i h0
          obtain ⟨hi, hg⟩ := List.getElem?_eq_some_iff.mp hn
          have hb' := h.bidx_of_get hn
          have hp := h.nChaps_pos b'
          have : bidx d b = bidx d b' + 1 := by omega
          rw [this, List.take_add_one, h.bidx_get (hg ▸ List.getElem_mem hi), List.flatMap_append]
          simp only [Option.toList_some, List.flatMap_cons, List.flatMap_nil, List.append_nil, List.reverse_append]
          rw [chapters, intRange_append (b := (nChaps d b' : Int) - 1) (by omega) (by omega),
            show (nChaps d b' : Int) - 1 + 1 = nChaps d b' by omega, intRange_cons (a := (nChaps d b' : Int)) (by omega),
            intRange_nil (a := (nChaps d b' : Int) + 1) (by omega)]
          simp
  · rename_i hc
    simp only [before]
    rw [intRange_append (b := c - 1 - 1) (c := c - 1) (by omega) (by omega),
      show c - 1 - 1 + 1 = c - 1 by omega, intRange_cons (a := c - 1) (by omega), intRange_nil (a := c - 1 + 1) (by omega)]
    simp

theorem length_after_le {mb} {x : BibleBook × Int} (hl : mb = true → x.1 ∈ d.bookOrder) (h1 : 1 ≤ x.2)
    (h2 : x.2 ≤ nChaps d x.1) : (after d mb x).length < d.totalChaps + 1 := by
  cases mb
  · have := nChaps_le_total h x.1
    simp only [after, Bool.false_eq_true, if_false, List.append_nil, List.length_map, length_intRange]
    omega
  replace hl := hl rfl
  have h3 := chapSeq_split h hl h1 h2
  have h4 := length_chapSeq h
  rw [h3] at h4
  simp only [List.length_append, List.length_cons] at h4
  omega

theorem length_before_le {mb} {x : BibleBook × Int} (hl : mb = true → x.1 ∈ d.bookOrder) (h1 : 1 ≤ x.2)
    (h2 : x.2 ≤ nChaps d x.1) : (before d mb x).length < d.totalChaps + 1 := by
  cases mb
  · have := nChaps_le_total h x.1
    simp only [before, Bool.false_eq_true, if_false, List.append_nil, List.length_reverse, List.length_map, length_intRange]
    omega
  replace hl := hl rfl
  have h3 := chapSeq_split h hl h1 h2
  have h4 := length_chapSeq h
  rw [h3] at h4
  simp only [List.length_append, List.length_reverse, List.length_cons] at h4
  omega

end Bibleref

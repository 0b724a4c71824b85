import Verif.Model.Positions
import Verif.Lemmas.Grammar

/-!
# What Lark reads, and the grammar
-/

namespace Bibleref
open Spec

variable {u : Uni} {d : BibleData}

/-! ## Leaving out the end of a string -/

theorem numTok_cut {s : List Char} {n : Nat} {y z : List Char} (h : NumTok s n (y ++ z)) : ∃ p, s = p ++ z ∧ NumTok p n y := by
  obtain ⟨ds, h1, h2, h3, h4, h5⟩ := h
  refine ⟨ds ++ y, by rw [h3, List.append_assoc], ds, h1, h2, rfl, ?_, h5⟩
  intro c hc
  cases y with
  | nil => cases hc
  | cons a y => exact h4 c hc

theorem nameTok_cut {s name y z : List Char} (h : NameTok u d s name (y ++ z)) : ∃ p, s = p ++ z ∧ NameTok u d p name y := by
  obtain ⟨h1, h2, h3⟩ := h
  refine ⟨name ++ y, by rw [h2, List.append_assoc], h1, rfl, ?_⟩
  intro name' rest' hn he
  refine h3 name' (rest' ++ z) hn ?_
  rw [h2, ← List.append_assoc, he, List.append_assoc]

theorem skips_cut {s y z : List Char} (h : Skips s (y ++ z)) : ∃ p, s = p ++ z ∧ Skips p y := by
  obtain ⟨w, h1, h2⟩ := h
  exact ⟨w ++ y, by rw [h2, List.append_assoc], w, h1, rfl⟩

theorem single_cut {s : List Char} {a : Single} {y z : List Char} (h : SingleRule u d s a (y ++ z)) :
    ∃ p, s = p ++ z ∧ SingleRule u d p a y := by
  generalize hr : y ++ z = r at h
  cases h with
  | book h1 h2 =>
    subst hr
    obtain ⟨p, rfl, h2'⟩ := nameTok_cut h2
    obtain ⟨p, rfl, h1'⟩ := skips_cut h1
    exact ⟨p, rfl, .book h1' h2'⟩
  | bookNum h1 h2 h3 h4 =>
    subst hr
    obtain ⟨p, rfl, h4'⟩ := numTok_cut h4
    obtain ⟨p, rfl, h3'⟩ := skips_cut h3
    obtain ⟨p, rfl, h2'⟩ := nameTok_cut h2
    obtain ⟨p, rfl, h1'⟩ := skips_cut h1
    exact ⟨p, rfl, .bookNum h1' h2' h3' h4'⟩
  | bookChapVerse h1 h2 h3 h4 h5 hx h6 h7 =>
    subst hr
    obtain ⟨p, rfl, h7'⟩ := numTok_cut h7
    obtain ⟨p, rfl, h6'⟩ := skips_cut h6
    rw [← List.cons_append] at h5
    obtain ⟨p, rfl, h5'⟩ := skips_cut h5
    obtain ⟨p, rfl, h4'⟩ := numTok_cut h4
    obtain ⟨p, rfl, h3'⟩ := skips_cut h3
    obtain ⟨p, rfl, h2'⟩ := nameTok_cut h2
    obtain ⟨p, rfl, h1'⟩ := skips_cut h1
    exact ⟨p, rfl, .bookChapVerse h1' h2' h3' h4' h5' hx h6' h7'⟩
  | chapVerse h3 h4 h5 hx h6 h7 =>
    subst hr
    obtain ⟨p, rfl, h7'⟩ := numTok_cut h7
    obtain ⟨p, rfl, h6'⟩ := skips_cut h6
    rw [← List.cons_append] at h5
    obtain ⟨p, rfl, h5'⟩ := skips_cut h5
    obtain ⟨p, rfl, h4'⟩ := numTok_cut h4
    obtain ⟨p, rfl, h3'⟩ := skips_cut h3
    exact ⟨p, rfl, .chapVerse h3' h4' h5' hx h6' h7'⟩
  | num h3 h4 =>
    subst hr
    obtain ⟨p, rfl, h4'⟩ := numTok_cut h4
    obtain ⟨p, rfl, h3'⟩ := skips_cut h3
    exact ⟨p, rfl, .num h3' h4'⟩

theorem ref_cut {s : List Char} {a : Ref} {y z : List Char} (h : RefRule u d s a (y ++ z)) :
    ∃ p, s = p ++ z ∧ RefRule u d p a y := by
  generalize hr : y ++ z = r at h
  cases h with
  | single h => subst hr; obtain ⟨p, rfl, h'⟩ := single_cut h; exact ⟨p, rfl, .single h'⟩
  | dual h1 h2 h3 =>
    subst hr
    obtain ⟨p, rfl, h3'⟩ := single_cut h3
    rw [← List.cons_append] at h2
    obtain ⟨p, rfl, h2'⟩ := skips_cut h2
    obtain ⟨p, rfl, h1'⟩ := single_cut h1
    exact ⟨p, rfl, .dual h1' h2' h3'⟩

/-! ## The machine as a relation -/

/-- Places where a name may come next, and what comes then. -/
inductive NameNext : Place → Place → Prop
  | ref {b} : NameNext (.ref b) (.book b)
  | item : NameNext .item (.book false)

/-- Places where a number may come next. -/
inductive NumNext : Place → Place → Prop
  | ref {b} : NumNext (.ref b) (.num b)
  | item : NumNext .item (.num false)
  | book {b} : NumNext (.book b) (.num b)
  | sep {b} : NumNext (.sep b) (.verse b)

/-- Places after a reference. -/
inductive AtEnd : Place → Bool → Prop
  | book {b} : AtEnd (.book b) b
  | num {b} : AtEnd (.num b) b
  | verse {b} : AtEnd (.verse b) b

/-- Places where a separator may come next. -/
inductive CharNext (d : BibleData) : Place → Char → Place → Prop
  | range {q} : AtEnd q false → CharNext d q d.rangeSep (.ref true)
  | list {q b} (m : Bool) : AtEnd q b → CharNext d q (listSep d m) .item
  | verse {b c} : (c = d.verseSepStd ∨ c = d.verseSepAlt) → CharNext d (.num b) c (.sep b)

/-- One step: from a place and a string to a place and the rest of the string. -/
inductive Reading (u : Uni) (d : BibleData) : Place → List Char → Place → List Char → Prop
  | ws {q w s} : w ≠ [] → (∀ c ∈ w, isWs c = true) → (∀ c, s.head? = some c → isWs c = false) → Reading u d q (w ++ s) q s
  | name {q q' s name rest} : NameNext q q' → NameTok u d s name rest → Reading u d q s q' rest
  | num {q q' s n rest} : NumNext q q' → NumTok s n rest → Reading u d q s q' rest
  | char {q c q' s} : CharNext d q c q' → Reading u d q (c :: s) q' s

/-- Any number of steps. -/
inductive Readings (u : Uni) (d : BibleData) : Place → List Char → Place → List Char → Prop
  | refl {q s} : Readings u d q s q s
  | step {q s q1 s1 q' s'} : Reading u d q s q1 s1 → Readings u d q1 s1 q' s' → Readings u d q s q' s'

theorem Readings.trans {q s q1 s1 q' s'} (h : Readings u d q s q1 s1) (h' : Readings u d q1 s1 q' s') : Readings u d q s q' s' := by
  induction h with
  | refl => exact h'
  | step h1 _ ih => exact .step h1 (ih h')

theorem Readings.one {q s q' s'} (h : Reading u d q s q' s') : Readings u d q s q' s' := .step h .refl

theorem Reading.append {q s q' s'} (h : Reading u d q s q' s') : ∃ p, p ≠ [] ∧ s = p ++ s' := by
  cases h with
  | ws h1 h2 h3 => exact ⟨_, h1, rfl⟩
  | name _ h =>
    obtain ⟨⟨c, m, x, h1, _⟩, h2, _⟩ := h
    exact ⟨_, by rw [h1]; simp, h2⟩
  | num _ h => obtain ⟨ds, h1, _, h2, _⟩ := h; exact ⟨ds, h1, h2⟩
  | char _ => exact ⟨[_], by simp, rfl⟩

theorem Reading.length {q s q' s'} (h : Reading u d q s q' s') : s'.length < s.length := by
  obtain ⟨p, h1, rfl⟩ := h.append
  have := List.length_pos_iff.mpr h1
  simp; omega

theorem Readings.append {q s q' s'} (h : Readings u d q s q' s') : ∃ p, s = p ++ s' := by
  induction h with
  | refl => exact ⟨[], rfl⟩
  | step h1 _ ih =>
    obtain ⟨p, _, h1⟩ := h1.append
    obtain ⟨p', h2⟩ := ih
    exact ⟨p ++ p', by rw [h1, h2, List.append_assoc]⟩

/-! ### The model's steps -/

theorem mem_scanChar {p : Char → Bool} {q q' : Place} {s s' : List Char} :
    (q', s') ∈ scanChar p q s ↔ q' = q ∧ ∃ c, p c = true ∧ s = c :: s' := by
  cases s with
  | nil => simp [scanChar, lexChar]
  | cons c s =>
    unfold scanChar lexChar
    by_cases hc : p c = true
    · simp only [hc, if_true, List.mem_singleton, Prod.mk.injEq, List.cons.injEq]
      constructor
      · rintro ⟨rfl, rfl⟩; exact ⟨rfl, c, hc, rfl, rfl⟩
      · rintro ⟨rfl, _, _, _, rfl⟩; exact ⟨rfl, rfl⟩
    · simp only [hc]
      constructor
      · intro h; simp at h
      · rintro ⟨_, c', hc', h⟩
        cases h
        exact absurd hc' hc

theorem mem_scanNum {q q' : Place} {s s' : List Char} : (q', s') ∈ scanNum q s ↔ q' = q ∧ ∃ n, NumTok s n s' := by
  unfold scanNum
  cases h : lexNum s with
  | none =>
    simp only [List.not_mem_nil, false_iff, not_and, not_exists]
    intro _ n hn
    rw [lexNum_iff.mpr hn] at h; cases h
  | some x =>
    obtain ⟨n, r⟩ := x
    simp only [List.mem_singleton, Prod.mk.injEq]
    constructor
    · rintro ⟨rfl, rfl⟩; exact ⟨rfl, n, lexNum_iff.mp h⟩
    · rintro ⟨rfl, n', hn⟩
      rw [lexNum_iff.mpr hn] at h
      cases h; exact ⟨rfl, rfl⟩

theorem mem_scanName {q q' : Place} {s s' : List Char} :
    (q', s') ∈ scanName u d q s ↔ q' = q ∧ ∃ name, NameTok u d s name s' := by
  unfold scanName
  cases h : lexName u d s with
  | none =>
    simp only [List.not_mem_nil, false_iff, not_and, not_exists]
    intro _ n hn
    rw [lexName_iff.mpr hn] at h; cases h
  | some x =>
    obtain ⟨n, r⟩ := x
    simp only [List.mem_singleton, Prod.mk.injEq]
    constructor
    · rintro ⟨rfl, rfl⟩; exact ⟨rfl, n, lexName_iff.mp h⟩
    · rintro ⟨rfl, n', hn⟩
      rw [lexName_iff.mpr hn] at h
      cases h; exact ⟨rfl, rfl⟩

theorem dropWhile_first {p : Char → Bool} (s : List Char) (c : Char) (h : (s.dropWhile p).head? = some c) : p c = false := by
  induction s with
  | nil => cases h
  | cons a s ih =>
    by_cases ha : p a = true
    · rw [List.dropWhile_cons_of_pos ha] at h; exact ih h
    · rw [List.dropWhile_cons_of_neg ha] at h
      cases h
      simpa using ha

theorem takeDrop_ws {w s : List Char} (h : ∀ c ∈ w, isWs c = true) (hs : ∀ c, s.head? = some c → isWs c = false) :
    (w ++ s).takeWhile isWs = w ∧ (w ++ s).dropWhile isWs = s := by
  induction w with
  | nil =>
    cases s with
    | nil => exact ⟨rfl, rfl⟩
    | cons a s =>
      have := hs a rfl
      simp [this]
  | cons a w ih =>
    have ha := h a (List.mem_cons_self ..)
    have := ih (fun c hc => h c (List.mem_cons_of_mem _ hc))
    simp [ha, this]

theorem mem_scanWs {q q' : Place} {s s' : List Char} : (q', s') ∈ scanWs q s ↔
    q' = q ∧ ∃ w, w ≠ [] ∧ (∀ c ∈ w, isWs c = true) ∧ (∀ c, s'.head? = some c → isWs c = false) ∧ s = w ++ s' := by
  unfold scanWs
  constructor
  · intro h
    by_cases hw : (s.takeWhile isWs).isEmpty = true
    · rw [if_pos hw] at h; cases h
    · rw [if_neg hw] at h
      simp only [List.mem_singleton, Prod.mk.injEq] at h
      refine ⟨h.1, s.takeWhile isWs, by simpa using hw, fun c hc => List.all_eq_true.1 List.all_takeWhile c hc, ?_, ?_⟩
      · rw [h.2]; exact fun c hc => dropWhile_first s c hc
      · rw [h.2]; exact (List.takeWhile_append_dropWhile).symm
  · rintro ⟨rfl, w, h1, h2, h3, rfl⟩
    obtain ⟨h4, h5⟩ := takeDrop_ws h2 h3
    rw [h4, h5, if_neg (by simpa using h1)]
    simp

theorem mem_scanEnd {b : Bool} {q' : Place} {s s' : List Char} : (q', s') ∈ scanEnd d b s ↔
    (b = false ∧ q' = .ref true ∧ s = d.rangeSep :: s') ∨ (q' = .item ∧ ∃ m, s = listSep d m :: s') := by
  unfold scanEnd
  simp only [List.mem_append, mem_scanChar, decide_eq_true_eq]
  have h1 : (q', s') ∈ (if b then [] else scanChar (· = d.rangeSep) (.ref true) s) ↔
      (b = false ∧ q' = .ref true ∧ s = d.rangeSep :: s') := by
    cases b with
    | true => simp
    | false => simp [mem_scanChar]
  rw [h1]
  constructor
  · rintro ((h | ⟨rfl, c, rfl, rfl⟩) | ⟨rfl, c, rfl, rfl⟩)
    · exact .inl h
    · exact .inr ⟨rfl, true, rfl⟩
    · exact .inr ⟨rfl, false, rfl⟩
  · rintro (h | ⟨rfl, m, rfl⟩)
    · exact .inl (.inl h)
    · cases m with
      | true => exact .inl (.inr ⟨rfl, _, rfl, rfl⟩)
      | false => exact .inr ⟨rfl, _, rfl, rfl⟩

theorem scanEnd_step {q q' : Place} {b : Bool} {s s' : List Char} (hq : AtEnd q b) (h : (q', s') ∈ scanEnd d b s) :
    Reading u d q s q' s' := by
  rcases mem_scanEnd.mp h with ⟨rfl, rfl, rfl⟩ | ⟨rfl, m, rfl⟩
  · exact .char (.range hq)
  · exact .char (.list m hq)

theorem mem_scan {q q' : Place} {s s' : List Char} : (q', s') ∈ scan u d q s ↔ Reading u d q s q' s' := by
  constructor
  · intro h
    rcases List.mem_append.mp h with h | h
    · obtain ⟨rfl, w, h1, h2, h3, rfl⟩ := mem_scanWs.mp h
      exact .ws h1 h2 h3
    · cases q with
      | ref b =>
        rcases List.mem_append.mp h with h | h
        · obtain ⟨rfl, n, h⟩ := mem_scanName.mp h; exact .name .ref h
        · obtain ⟨rfl, n, h⟩ := mem_scanNum.mp h; exact .num .ref h
      | item =>
        rcases List.mem_append.mp h with h | h
        · obtain ⟨rfl, n, h⟩ := mem_scanName.mp h; exact .name .item h
        · obtain ⟨rfl, n, h⟩ := mem_scanNum.mp h; exact .num .item h
      | book b =>
        rcases List.mem_append.mp h with h | h
        · obtain ⟨rfl, n, h⟩ := mem_scanNum.mp h; exact .num .book h
        · exact scanEnd_step .book h
      | num b =>
        rcases List.mem_append.mp h with h | h
        · obtain ⟨rfl, c, hc, rfl⟩ := mem_scanChar.mp h
          exact .char (.verse (by simpa [isVerseSep] using hc))
        · exact scanEnd_step .num h
      | sep b => obtain ⟨rfl, n, h⟩ := mem_scanNum.mp h; exact .num .sep h
      | verse b => exact scanEnd_step .verse h
  · intro h
    refine List.mem_append.mpr ?_
    cases h with
    | ws h1 h2 h3 => exact .inl (mem_scanWs.mpr ⟨rfl, _, h1, h2, h3, rfl⟩)
    | name hq h =>
      cases hq with
      | ref => exact .inr (List.mem_append.mpr (.inl (mem_scanName.mpr ⟨rfl, _, h⟩)))
      | item => exact .inr (List.mem_append.mpr (.inl (mem_scanName.mpr ⟨rfl, _, h⟩)))
    | num hq h =>
      cases hq with
      | ref => exact .inr (List.mem_append.mpr (.inr (mem_scanNum.mpr ⟨rfl, _, h⟩)))
      | item => exact .inr (List.mem_append.mpr (.inr (mem_scanNum.mpr ⟨rfl, _, h⟩)))
      | book => exact .inr (List.mem_append.mpr (.inl (mem_scanNum.mpr ⟨rfl, _, h⟩)))
      | sep => exact .inr (mem_scanNum.mpr ⟨rfl, _, h⟩)
    | char hq =>
      cases hq with
      | range ha =>
        have := mem_scanEnd (d := d) (b := false) (q' := .ref true) (s := d.rangeSep :: s') (s' := s') |>.mpr (.inl ⟨rfl, rfl, rfl⟩)
        cases ha with
        | book => exact .inr (List.mem_append.mpr (.inr this))
        | num => exact .inr (List.mem_append.mpr (.inr this))
        | verse => exact .inr this
      | @list _ b m ha =>
        have := mem_scanEnd (d := d) (b := b) (q' := .item) (s := listSep d m :: s') (s' := s') |>.mpr (.inr ⟨rfl, m, rfl⟩)
        cases ha with
        | book => exact .inr (List.mem_append.mpr (.inr this))
        | num => exact .inr (List.mem_append.mpr (.inr this))
        | verse => exact .inr this
      | verse hc => exact .inr (List.mem_append.mpr (.inl (mem_scanChar.mpr ⟨rfl, _, by simpa [isVerseSep] using hc, rfl⟩)))

theorem foldl_min_le (l : List Nat) : ∀ a : Nat, l.foldl min a ≤ a ∧ ∀ x ∈ l, l.foldl min a ≤ x := by
  induction l with
  | nil => intro a; simp
  | cons b l ih =>
    intro a
    have := ih (min a b)
    simp only [List.foldl_cons, List.mem_cons]
    refine ⟨by omega, ?_⟩
    rintro x (rfl | hx)
    · omega
    · exact this.2 x hx

theorem foldl_min_mem (l : List Nat) : ∀ a : Nat, l.foldl min a = a ∨ l.foldl min a ∈ l := by
  induction l with
  | nil => intro a; simp
  | cons b l ih =>
    intro a
    simp only [List.foldl_cons, List.mem_cons]
    rcases ih (min a b) with h | h
    · rw [h]; omega
    · exact .inr (.inr h)

theorem leftOver_reached (fuel : Nat) : ∀ (q : Place) (s : List Char),
    ∃ q' s', Readings u d q s q' s' ∧ s'.length = leftOver u d fuel q s := by
  induction fuel with
  | zero => intro q s; exact ⟨q, s, .refl, rfl⟩
  | succ n ih =>
    intro q s
    rw [leftOver]
    rcases foldl_min_mem ((scan u d q s).map fun x => leftOver u d n x.1 x.2) s.length with h | h
    · exact ⟨q, s, .refl, h.symm⟩
    · obtain ⟨⟨q1, s1⟩, hm, he⟩ := List.mem_map.mp h
      obtain ⟨q', s', h1, h2⟩ := ih q1 s1
      exact ⟨q', s', .step (mem_scan.mp hm) h1, h2.trans he⟩

theorem leftOver_le {q s q' s'} (h : Readings u d q s q' s') : ∀ fuel, s.length ≤ fuel → leftOver u d fuel q s ≤ s'.length := by
  induction h with
  | @refl q s =>
    intro fuel _
    cases fuel with
    | zero => exact Nat.le_refl _
    | succ n => rw [leftOver]; exact (foldl_min_le _ _).1
  | @step q s q1 s1 q' s' h1 h2 ih =>
    intro fuel hf
    have := h1.length
    cases fuel with
    | zero => omega
    | succ n =>
      rw [leftOver]
      refine Nat.le_trans ((foldl_min_le _ _).2 _ (List.mem_map.mpr ⟨(q1, s1), mem_scan.mpr h1, rfl⟩)) ?_
      exact ih n (by omega)

/-! ## Readings and the grammar -/

/-- Places where the string may end. -/
inductive Final : Place → Prop
  | item : Final .item
  | book {b} : Final (.book b)
  | num {b} : Final (.num b)
  | verse {b} : Final (.verse b)

/-- The rest of a list. -/
def RestOk (u : Uni) (d : BibleData) (s : List Char) : Prop := ∃ l t, RestRule u d s l t

/-- The rest of a list, or of a range and a list. -/
def PlaceEnd (u : Uni) (d : BibleData) (b : Bool) (s : List Char) : Prop :=
  RestOk u d s ∨ (b = false ∧ ∃ s2 a r, Skips s (d.rangeSep :: s2) ∧ SingleRule u d s2 a r ∧ RestOk u d r)

/-- A number and the rest. -/
def VerseOk (u : Uni) (d : BibleData) (b : Bool) (s : List Char) : Prop :=
  ∃ s6 v r, Skips s s6 ∧ NumTok s6 v r ∧ PlaceEnd u d b r

/-- What comes after the first number. -/
def NumOk (u : Uni) (d : BibleData) (b : Bool) (s : List Char) : Prop :=
  PlaceEnd u d b s ∨ ∃ x s5, Skips s (x :: s5) ∧ (x = d.verseSepStd ∨ x = d.verseSepAlt) ∧ VerseOk u d b s5

/-- What comes after a name. -/
def BookOk (u : Uni) (d : BibleData) (b : Bool) (s : List Char) : Prop :=
  PlaceEnd u d b s ∨ ∃ s3 n r, Skips s s3 ∧ NumTok s3 n r ∧ NumOk u d b r

/-- A reference and the rest. -/
def RefOk (u : Uni) (d : BibleData) (b : Bool) (s : List Char) : Prop :=
  (∃ s1 name r, Skips s s1 ∧ NameTok u d s1 name r ∧ BookOk u d b r) ∨ ∃ s3 n r, Skips s s3 ∧ NumTok s3 n r ∧ NumOk u d b r

/-- What the grammar allows from a place on. -/
def PlaceOk (u : Uni) (d : BibleData) : Place → List Char → Prop
  | .ref b, s => RefOk u d b s
  | .item, s => Skips s [] ∨ RefOk u d false s
  | .book b, s => BookOk u d b s
  | .num b, s => NumOk u d b s
  | .sep b, s => VerseOk u d b s
  | .verse b, s => PlaceEnd u d b s

theorem skips_trans {s s1 s2 : List Char} (h : Skips s s1) (h' : Skips s1 s2) : Skips s s2 := by
  obtain ⟨w, h1, rfl⟩ := h
  obtain ⟨w', h1', rfl⟩ := h'
  refine ⟨w ++ w', ?_, by rw [List.append_assoc]⟩
  intro c hc
  rcases List.mem_append.mp hc with hc | hc
  · exact h1 c hc
  · exact h1' c hc

theorem RestOk.skip {s s1} (hs : Skips s s1) (h : RestOk u d s1) : RestOk u d s := by
  obtain ⟨l, t, h⟩ := h
  cases h with
  | done h => exact ⟨_, _, .done (skips_trans hs h)⟩
  | trailing h h' => exact ⟨_, _, .trailing (skips_trans hs h) h'⟩
  | cons h h' h'' => exact ⟨_, _, .cons (skips_trans hs h) h' h''⟩

theorem PlaceEnd.skip {b s s1} (hs : Skips s s1) (h : PlaceEnd u d b s1) : PlaceEnd u d b s := by
  rcases h with h | ⟨hb, s2, a, r, h1, h2, h3⟩
  · exact .inl (h.skip hs)
  · exact .inr ⟨hb, s2, a, r, skips_trans hs h1, h2, h3⟩

theorem VerseOk.skip {b s s1} (hs : Skips s s1) (h : VerseOk u d b s1) : VerseOk u d b s := by
  obtain ⟨s6, v, r, h1, h2⟩ := h
  exact ⟨s6, v, r, skips_trans hs h1, h2⟩

theorem NumOk.skip {b s s1} (hs : Skips s s1) (h : NumOk u d b s1) : NumOk u d b s := by
  rcases h with h | ⟨x, s5, h1, h2⟩
  · exact .inl (h.skip hs)
  · exact .inr ⟨x, s5, skips_trans hs h1, h2⟩

theorem BookOk.skip {b s s1} (hs : Skips s s1) (h : BookOk u d b s1) : BookOk u d b s := by
  rcases h with h | ⟨s3, n, r, h1, h2⟩
  · exact .inl (h.skip hs)
  · exact .inr ⟨s3, n, r, skips_trans hs h1, h2⟩

theorem RefOk.skip {b s s1} (hs : Skips s s1) (h : RefOk u d b s1) : RefOk u d b s := by
  rcases h with ⟨s2, name, r, h1, h2⟩ | ⟨s3, n, r, h1, h2⟩
  · exact .inl ⟨s2, name, r, skips_trans hs h1, h2⟩
  · exact .inr ⟨s3, n, r, skips_trans hs h1, h2⟩

theorem PlaceOk.skip {q s s1} (hs : Skips s s1) (h : PlaceOk u d q s1) : PlaceOk u d q s := by
  cases q with
  | ref b => exact RefOk.skip hs h
  | item =>
    rcases h with h | h
    · exact .inl (skips_trans hs h)
    · exact .inr (RefOk.skip hs h)
  | book b => exact BookOk.skip hs h
  | num b => exact NumOk.skip hs h
  | sep b => exact VerseOk.skip hs h
  | verse b => exact PlaceEnd.skip hs h

theorem PlaceEnd.place {q b s} (hq : AtEnd q b) (h : PlaceEnd u d b s) : PlaceOk u d q s := by
  cases hq with
  | book => exact .inl h
  | num => exact .inl h
  | verse => exact h

/-- A reference and the rest, in terms of the rules. -/
theorem RefOk.single {b s} (h : RefOk u d b s) : ∃ a r, SingleRule u d s a r ∧ PlaceEnd u d b r := by
  rcases h with ⟨s1, name, r, h1, h2, h | ⟨s3, n, r', h3, h4, h | ⟨x, s5, h5, hx, s6, v, r'', h6, h7, h⟩⟩⟩ |
      ⟨s3, n, r', h3, h4, h | ⟨x, s5, h5, hx, s6, v, r'', h6, h7, h⟩⟩
  · exact ⟨_, _, .book h1 h2, h⟩
  · exact ⟨_, _, .bookNum h1 h2 h3 h4, h⟩
  · exact ⟨_, _, .bookChapVerse h1 h2 h3 h4 h5 hx h6 h7, h⟩
  · exact ⟨_, _, .num h3 h4, h⟩
  · exact ⟨_, _, .chapVerse h3 h4 h5 hx h6 h7, h⟩

/-- A string fits the grammar. -/
theorem RefOk.list {s} (h : RefOk u d false s) : ∃ t, ListRule u d s t := by
  obtain ⟨a, r, h1, ⟨l, t, h2⟩ | ⟨_, s2, a', r', h2, h3, l, t, h4⟩⟩ := h.single
  · exact ⟨⟨.single a, l, t⟩, r, .single h1, h2⟩
  · exact ⟨⟨.dual a a', l, t⟩, r', .dual h1 h2 h3, h4⟩

theorem RefOk.rest {s s1 m} (hs : Skips s (listSep d m :: s1)) (h : RefOk u d false s1) : RestOk u d s := by
  obtain ⟨a, r, h1, ⟨l, t, h2⟩ | ⟨_, s2, a', r', h2, h3, l, t, h4⟩⟩ := h.single
  · exact ⟨_, _, .cons hs (.single h1) h2⟩
  · exact ⟨_, _, .cons hs (.dual h1 h2 h3) h4⟩

theorem Reading.placeOk {q s q' s'} (h : Reading u d q s q' s') (h' : PlaceOk u d q' s') : PlaceOk u d q s := by
  cases h with
  | @ws w _ h1 h2 h3 => exact h'.skip ⟨w, h2, rfl⟩
  | name hq h =>
    cases hq with
    | ref => exact .inl ⟨_, _, _, skips_self _, h, h'⟩
    | item => exact .inr (.inl ⟨_, _, _, skips_self _, h, h'⟩)
  | num hq h =>
    cases hq with
    | ref => exact .inr ⟨_, _, _, skips_self _, h, h'⟩
    | item => exact .inr (.inr ⟨_, _, _, skips_self _, h, h'⟩)
    | book => exact .inr ⟨_, _, _, skips_self _, h, h'⟩
    | sep => exact ⟨_, _, _, skips_self _, h, h'⟩
  | char hq =>
    cases hq with
    | range ha =>
      refine PlaceEnd.place ha (.inr ⟨rfl, ?_⟩)
      obtain ⟨a, r, h1, h2⟩ := RefOk.single h'
      rcases h2 with h2 | ⟨hb, _⟩
      · exact ⟨s', a, r, skips_self _, h1, h2⟩
      · cases hb
    | list m ha =>
      refine PlaceEnd.place ha (.inl ?_)
      rcases h' with h' | h'
      · exact ⟨_, _, .trailing (skips_self _) h'⟩
      · exact RefOk.rest (skips_self _) h'
    | verse hc => exact .inr ⟨_, _, skips_self _, hc, h'⟩

theorem Final.placeOk {q} (h : Final q) : PlaceOk u d q [] := by
  have : PlaceEnd u d false [] := .inl ⟨_, _, .done (skips_self _)⟩
  have : ∀ b, PlaceEnd u d b [] := fun b => .inl ⟨_, _, .done (skips_self _)⟩
  cases h with
  | item => exact .inl (skips_self _)
  | book => exact .inl (this _)
  | num => exact .inl (this _)
  | verse => exact this _

theorem Readings.placeOk {q s q' s'} (h : Readings u d q s q' s') (h' : PlaceOk u d q' s') : PlaceOk u d q s := by
  induction h with
  | refl => exact h'
  | step h1 _ ih => exact h1.placeOk (ih h')

/-- What the machine reads up to the end fits the grammar. -/
theorem accepted_list {s q} (h : Readings u d (.ref false) s q []) (hq : Final q) : ∃ t, ListRule u d s t :=
  RefOk.list (h.placeOk hq.placeOk)

/-! ### From rules to readings -/

theorem Spec.Skips.steps {q s s'} (h : Skips s s') (hs : ∀ c, s'.head? = some c → isWs c = false) : Readings u d q s q s' := by
  obtain ⟨w, h1, rfl⟩ := h
  by_cases hw : w = []
  · subst hw; exact .refl
  · exact .one (.ws hw h1 hs)

theorem Spec.NumTok.head_ws {s n r} (h : NumTok s n r) : ∀ c, s.head? = some c → isWs c = false := by
  obtain ⟨c, s', rfl, hc⟩ := h.head
  intro c' h'
  cases h'
  exact isDigit_ws hc

theorem Spec.NameTok.head_ws {s n r} (h : NameTok u d s n r) : ∀ c, s.head? = some c → isWs c = false := by
  obtain ⟨c, s', rfl, hc⟩ := h.head
  intro c' h'
  cases h'
  exact isWord_ws hc

theorem skips_num {q q' s s1 n r} (h : Skips s s1) (hn : NumTok s1 n r) (hq : NumNext q q') : Readings u d q s q' r :=
  (h.steps hn.head_ws).trans (.one (.num hq hn))

theorem skips_name {q q' s s1 n r} (h : Skips s s1) (hn : NameTok u d s1 n r) (hq : NameNext q q') : Readings u d q s q' r :=
  (h.steps hn.head_ws).trans (.one (.name hq hn))

section
variable (hd : PlainSeps u d)
include hd

theorem skips_char {q q' s c r} (h : Skips s (c :: r)) (hc : c ∈ [d.rangeSep, d.majorListSep, d.minorListSep, d.verseSepStd, d.verseSepAlt])
    (hq : CharNext d q c q') : Readings u d q s q' r := by
  refine (h.steps ?_).trans (.one (.char hq))
  intro c' h'
  cases h'
  exact (sep_plain hd hc).2.2.2.1

omit hd in
theorem verseSep_among {x : Char} (hx : x = d.verseSepStd ∨ x = d.verseSepAlt) :
    x ∈ [d.rangeSep, d.majorListSep, d.minorListSep, d.verseSepStd, d.verseSepAlt] := by
  rcases hx with rfl | rfl <;> simp

theorem single_steps {s a r} (b : Bool) (h : SingleRule u d s a r) {q} (hq : q = .ref b ∨ (q = .item ∧ b = false)) :
    ∃ q', AtEnd q' b ∧ Readings u d q s q' r := by
  have hname : NameNext q (.book b) := by
    rcases hq with rfl | ⟨rfl, rfl⟩
    · exact .ref
    · exact .item
  have hnum : NumNext q (.num b) := by
    rcases hq with rfl | ⟨rfl, rfl⟩
    · exact .ref
    · exact .item
  cases h with
  | book h1 h2 => exact ⟨_, .book, skips_name h1 h2 hname⟩
  | bookNum h1 h2 h3 h4 => exact ⟨_, .num, (skips_name h1 h2 hname).trans (skips_num h3 h4 .book)⟩
  | bookChapVerse h1 h2 h3 h4 h5 hx h6 h7 =>
    exact ⟨_, .verse, (skips_name h1 h2 hname).trans ((skips_num h3 h4 .book).trans
      ((skips_char hd h5 (verseSep_among hx) (.verse hx)).trans (skips_num h6 h7 .sep)))⟩
  | chapVerse h3 h4 h5 hx h6 h7 =>
    exact ⟨_, .verse, (skips_num h3 h4 hnum).trans
      ((skips_char hd h5 (verseSep_among hx) (.verse hx)).trans (skips_num h6 h7 .sep))⟩
  | num h3 h4 => exact ⟨_, .num, skips_num h3 h4 hnum⟩

theorem ref_steps {s a r} (h : RefRule u d s a r) {q} (hq : q = .ref false ∨ q = .item) :
    ∃ q' b, AtEnd q' b ∧ Readings u d q s q' r := by
  have hq' : q = .ref false ∨ (q = .item ∧ false = false) := by
    rcases hq with hq | hq
    · exact .inl hq
    · exact .inr ⟨hq, rfl⟩
  cases h with
  | single h => obtain ⟨q', h1, h2⟩ := single_steps hd false h hq'; exact ⟨q', _, h1, h2⟩
  | dual h1 h2 h3 =>
    obtain ⟨q1, k1, k2⟩ := single_steps hd false h1 hq'
    obtain ⟨q2, k3, k4⟩ := single_steps hd true h3 (.inl rfl)
    exact ⟨q2, _, k3, k2.trans ((skips_char hd h2 (by simp) (.range k1)).trans k4)⟩

theorem rest_steps {s l t} (h : RestRule u d s l t) : ∀ {q b}, AtEnd q b → ∃ q', Final q' ∧ Readings u d q s q' [] := by
  induction h with
  | done h =>
    intro q b hq
    refine ⟨q, ?_, h.steps (by simp)⟩
    cases hq with
    | book => exact .book
    | num => exact .num
    | verse => exact .verse
  | trailing h h' =>
    intro q b hq
    exact ⟨_, .item, (skips_char hd h (listSep_mem _).1 (.list _ hq)).trans (h'.steps (by simp))⟩
  | cons h h' _ ih =>
    intro q b hq
    obtain ⟨q1, b1, k1, k2⟩ := ref_steps hd h' (.inr rfl)
    obtain ⟨q2, k3, k4⟩ := ih k1
    exact ⟨q2, k3, (skips_char hd h (listSep_mem _).1 (.list _ hq)).trans (k2.trans k4)⟩

/-- What fits the grammar the machine reads up to the end. -/
theorem list_accepted {s t} (h : ListRule u d s t) : ∃ q, Final q ∧ Readings u d (.ref false) s q [] := by
  obtain ⟨s1, h1, h2⟩ := h
  obtain ⟨q1, b1, k1, k2⟩ := ref_steps hd h1 (.inl rfl)
  obtain ⟨q2, k3, k4⟩ := rest_steps hd h2 k1
  exact ⟨q2, k3, k2.trans k4⟩

end

/-! ## Other ends of the string -/

theorem append_split {a b c e : List Char} (h : a ++ b = c ++ e) (hl : c.length ≤ a.length) : ∃ m, a = c ++ m ∧ e = m ++ b := by
  rcases List.append_eq_append_iff.mp h with ⟨x, h1, h2⟩ | ⟨x, h1, h2⟩
  · subst h1
    simp only [List.length_append] at hl
    have : x = [] := List.length_eq_zero_iff.mp (by omega)
    subst this
    exact ⟨[], by simp, by simpa using h2.symm⟩
  · exact ⟨x, h1, h2⟩

theorem Reading.cut {q s q' y z} (h : Reading u d q s q' (y ++ z)) : ∃ p, s = p ++ z ∧ Reading u d q p q' y := by
  generalize hr : y ++ z = r at h
  cases h with
  | @ws w _ h1 h2 h3 =>
    subst hr
    refine ⟨w ++ y, by rw [List.append_assoc], .ws h1 h2 ?_⟩
    intro c hc
    cases y with
    | nil => cases hc
    | cons a y => exact h3 c hc
  | name hq h => subst hr; obtain ⟨p, h1, h2⟩ := nameTok_cut h; exact ⟨p, h1, .name hq h2⟩
  | num hq h => subst hr; obtain ⟨p, h1, h2⟩ := numTok_cut h; exact ⟨p, h1, .num hq h2⟩
  | char hq => subst hr; exact ⟨_ :: y, rfl, .char hq⟩

theorem Readings.cut {q s q' s'} (h : Readings u d q s q' s') : ∀ y z, s' = y ++ z → ∃ p, s = p ++ z ∧ Readings u d q p q' y := by
  induction h with
  | refl => intro y z h; exact ⟨y, h, .refl⟩
  | step h1 _ ih =>
    intro y z h
    obtain ⟨p, rfl, h2⟩ := ih y z h
    obtain ⟨p', rfl, h1'⟩ := h1.cut
    exact ⟨p', rfl, .step h1' h2⟩

theorem isName_last {name : List Char} (h : IsName u d name) : ∃ p x, name = p ++ [x] ∧ isDigit x = false := by
  obtain ⟨c, m, x, h1, _, _, h2, _⟩ := h
  exact ⟨c :: m, x, by rw [h1]; rfl, h2⟩

theorem isName_ne {name : List Char} (h : IsName u d name) : name ≠ [] := by
  obtain ⟨p, x, h1, _⟩ := isName_last h
  rw [h1]; simp

/-- A name does not end within digits at the end of the string. -/
theorem name_before {x z name r : List Char} (hz : ∀ c ∈ z, isDigit c = true) (hn : IsName u d name) (h : x ++ z = name ++ r) :
    ∃ m, x = name ++ m ∧ r = m ++ z := by
  refine append_split h ?_
  rcases Nat.lt_or_ge x.length name.length with hl | hl
  · exfalso
    obtain ⟨m, h1, h2⟩ := append_split h.symm (Nat.le_of_lt hl)
    obtain ⟨p, c, h3, h4⟩ := isName_last hn
    have hm : m ≠ [] := by
      rintro rfl
      rw [h1] at hl; simp at hl
    obtain ⟨m', c', rfl⟩ : ∃ m' c', m = m' ++ [c'] := by
      rcases List.eq_nil_or_concat m with h | ⟨m', c', h⟩
      · exact absurd h hm
      · exact ⟨m', c', by rw [h, List.concat_eq_append]⟩
    have hcc : c' = c := by
      have h5 : (x ++ m') ++ [c'] = p ++ [c] := by rw [List.append_assoc, ← h1, h3]
      have := List.append_inj_right' h5 rfl
      simpa using this
    have := hz c' (by rw [h2]; simp)
    rw [hcc, h4] at this
    cases this
  · exact hl

theorem lexName_none_isName {s name rest : List Char} (h : lexName u d s = none) (h1 : IsName u d name) : s ≠ name ++ rest := by
  rintro rfl
  cases name with
  | nil => obtain ⟨c, mid, x, h, _⟩ := h1; cases h
  | cons c n =>
    obtain ⟨hc, ht⟩ := isName_cons.1 h1
    rw [List.cons_append] at h
    unfold lexName at h
    simp only [hc, if_true] at h
    have hs := lexNameTail_spec (u := u) (d := d) (n ++ rest)
    cases hl : lexNameTail u d (n ++ rest) with
    | none => rw [hl] at hs; exact hs _ _ rfl ht
    | some p => rw [hl] at h; cases h

/-- The machine on a string whose end is replaced gets at least as far. -/
theorem Readings.replace {q s q' s'} (h : Readings u d q s q' s') (hs' : s' = []) : ∀ (x z y : List Char), s = x ++ z →
    (∀ c ∈ z, isDigit c = true) → ∃ q2 r, Readings u d q (x ++ y) q2 r ∧ r.length ≤ y.length := by
  induction h with
  | refl =>
    intro x z y h _
    have : x = [] := by rw [hs'] at h; exact (List.append_eq_nil_iff.mp h.symm).1
    subst this
    exact ⟨_, _, .refl, Nat.le_refl _⟩
  | @step q s q1 s1 q' s' h1 _ ih =>
    intro x z y hs hz
    by_cases hx : x = []
    · subst hx; exact ⟨_, _, .refl, Nat.le_refl _⟩
    · have next : ∀ x', s1 = x' ++ z → Reading u d q (x ++ y) q1 (x' ++ y) → ∃ q2 r, Readings u d q (x ++ y) q2 r ∧ r.length ≤ y.length := by
        intro x' h2 h3
        obtain ⟨q2, r, k1, k2⟩ := ih hs' x' z y h2 hz
        exact ⟨q2, r, .step h3 k1, k2⟩
      cases h1 with
      | @ws w _ h1 h2 h3 =>
        have hl : w.length ≤ x.length := by
          rcases Nat.lt_or_ge x.length w.length with hl | hl
          · exfalso
            obtain ⟨m, k1, k2⟩ := append_split hs (Nat.le_of_lt hl)
            cases m with
            | nil => rw [k1] at hl; simp at hl
            | cons c m =>
              have hc := hz c (by rw [k2]; simp)
              have hc' := h2 c (by rw [k1]; simp)
              rw [isDigit_ws hc] at hc'; cases hc'
          · exact hl
        obtain ⟨m, k1, k2⟩ := append_split hs.symm hl
        cases m with
        | nil =>
          rw [List.append_nil] at k1
          subst k1
          have hws : Skips (x ++ y) (skipWs (x ++ y)) := skips_skipWs _
          refine ⟨q, skipWs (x ++ y), hws.steps (fun c hc => dropWhile_first _ c hc), ?_⟩
          rw [skipWs_append h2]
          exact (skips_skipWs y).length
        | cons c m =>
          refine next (c :: m) k2 ?_
          rw [k1, List.append_assoc]
          refine .ws h1 h2 ?_
          intro c' hc'
          exact h3 c' (by rw [k2]; exact hc')
      | name hq h =>
        obtain ⟨hn, h2, h3⟩ := h
        obtain ⟨m, k1, k2⟩ := name_before hz hn (hs.symm.trans h2)
        obtain ⟨nm, r, hl⟩ : ∃ nm r, lexName u d (x ++ y) = some (nm, r) := by
          cases hl : lexName u d (x ++ y) with
          | some p => exact ⟨p.1, p.2, rfl⟩
          | none =>
            exfalso
            exact lexName_none_isName hl hn (by rw [k1, List.append_assoc])
        have ht := lexName_some hl
        obtain ⟨hn', h4, h5⟩ := id ht
        rcases Nat.lt_or_ge nm.length x.length with hlt | hge
        · obtain ⟨m', j1, j2⟩ := append_split h4 (Nat.le_of_lt hlt)
          have e1 : nm.length ≤ _ := h3 nm (m' ++ z) hn' (by rw [hs, j1, List.append_assoc])
          have e2 := h5 _ (m ++ y) hn (by rw [k1, List.append_assoc])
          have e3 : nm = _ ∧ m' = m := List.append_inj (j1.symm.trans k1) (Nat.le_antisymm e1 e2)
          refine next m k2 ?_
          rw [j2, e3.2] at ht
          exact .name hq ht
        · refine ⟨_, r, .one (.name hq ht), ?_⟩
          have := congrArg List.length h4
          simp only [List.length_append] at this
          omega
      | num hq h =>
        obtain ⟨ds, h2, h3, h4, h5, h6⟩ := h
        by_cases hall : ∀ c ∈ x, isDigit c = true
        · obtain ⟨n, r, hl⟩ : ∃ n r, lexNum (x ++ y) = some (n, r) := by
            unfold lexNum
            rw [if_neg]
            · exact ⟨_, _, rfl⟩
            · cases x with
              | nil => exact absurd rfl hx
              | cons a x => simp [hall a (by simp)]
          have ht := lexNum_iff.mp hl
          refine ⟨_, r, .one (.num hq ht), ?_⟩
          obtain ⟨ds', g2, g3, g4, g5, _⟩ := ht
          rcases Nat.lt_or_ge ds'.length x.length with hlt | hge
          · exfalso
            obtain ⟨m', j1, j2⟩ := append_split g4 (Nat.le_of_lt hlt)
            cases m' with
            | nil => rw [j1] at hlt; simp at hlt
            | cons c m' =>
              have e1 := g5 c (by rw [j2]; rfl)
              rw [hall c (by rw [j1]; simp)] at e1
              cases e1
          · have := congrArg List.length g4
            simp only [List.length_append] at this
            omega
        · have hlt : ds.length < x.length := by
            rcases Nat.lt_or_ge ds.length x.length with hlt | hge
            · exact hlt
            · exfalso
              obtain ⟨m', j1, j2⟩ := append_split (h4.symm.trans hs) hge
              exact hall fun c hc => h3 c (by rw [j1]; simp [hc])
          obtain ⟨m', j1, j2⟩ := append_split (hs.symm.trans h4) (Nat.le_of_lt hlt)
          refine next m' j2 (.num hq (n := _) ⟨ds, h2, h3, ?_, ?_, rfl⟩)
          · rw [j1, List.append_assoc]
          · intro c hc
            cases m' with
            | nil => rw [j1] at hlt; simp at hlt
            | cons a m' => exact h5 c (by rw [j2]; exact hc)
      | char hq =>
        cases x with
        | nil => exact absurd rfl hx
        | cons a x =>
          cases hs
          exact next x rfl (.char hq)

theorem Reading.extend {q s q1 s1} (h : Reading u d q s q1 s1) (h' : s1 ≠ [] ∨ ¬ Final q1) : Reading u d q (s ++ ['1']) q1 (s1 ++ ['1']) := by
  cases h with
  | @ws w _ h1 h2 h3 =>
    rw [List.append_assoc]
    refine .ws h1 h2 ?_
    intro c hc
    cases s1 with
    | nil => cases hc; rfl
    | cons a s1 => exact h3 c hc
  | name hq h =>
    obtain ⟨h1, rfl, h3⟩ := h
    refine .name hq ⟨h1, by rw [List.append_assoc], ?_⟩
    intro name' rest' hn he
    obtain ⟨m, k1, _⟩ := name_before (z := ['1']) (by intro c hc; simp at hc; subst hc; rfl) hn he
    exact h3 name' m hn k1
  | num hq h =>
    have hs : s1 ≠ [] := by
      rcases h' with h' | h'
      · exact h'
      · cases hq <;> exact absurd (by constructor) h'
    obtain ⟨ds, h2, h3, rfl, h5, h6⟩ := h
    refine .num (n := _) hq ⟨ds, h2, h3, by rw [List.append_assoc], ?_, rfl⟩
    intro c hc
    cases s1 with
    | nil => exact absurd rfl hs
    | cons a s1 => exact h5 c hc
  | char hq => exact .char hq

theorem Readings.extend {q s q' s'} (h : Readings u d q s q' s') (hs' : s' = []) (hq : ¬ Final q') : Readings u d q (s ++ ['1']) q' ['1'] := by
  induction h with
  | refl => subst hs'; exact .refl
  | @step q s q1 s1 q' s' h1 h2 ih =>
    refine .step (h1.extend ?_) (ih hs' hq)
    by_cases hs1 : s1 = []
    · subst hs1
      cases h2 with
      | refl => exact .inr hq
      | step h3 _ => have := h3.length; simp at this
    · exact .inl hs1

/-- Whatever has been read up to some place fits the grammar, or does so with one more digit. -/
theorem reached_viable {s q r p} (h : Readings u d (.ref false) s q r) (hs : s = p ++ r) :
    (∃ t, ListRule u d p t) ∨ ∃ t, ListRule u d (p ++ ['1']) t := by
  obtain ⟨p', h1, h2⟩ := h.cut [] r rfl
  have : p' = p := List.append_cancel_right (h1.symm.trans hs)
  subst this
  have one : NumTok ['1'] 1 [] := ⟨['1'], by simp, by simp [isDigit], rfl, by simp, rfl⟩
  cases q with
  | ref b => exact .inr (accepted_list ((h2.extend rfl (by intro h; cases h)).trans (.one (.num .ref one))) .num)
  | sep b => exact .inr (accepted_list ((h2.extend rfl (by intro h; cases h)).trans (.one (.num .sep one))) .verse)
  | item => exact .inl (accepted_list h2 .item)
  | book b => exact .inl (accepted_list h2 .book)
  | num b => exact .inl (accepted_list h2 .num)
  | verse b => exact .inl (accepted_list h2 .verse)

/-! ## Trees without positions -/

/-- The reference without its positions. -/
def LRef.erase : LRef → Ref
  | .single a => .single a.ref
  | .dual a b => .dual a.ref b.ref

/-- The list of references without their positions. -/
def eraseRest (l : List (Bool × LRef)) : List (Bool × Ref) := l.map fun x => (x.1, x.2.erase)

/-- The tree without its positions. -/
def LTree.erase (t : LTree) : Tree := ⟨t.first.erase, eraseRest t.rest, t.trailing⟩

theorem locRef_erase (n : Nat) (s : List Char) : (locRef u d n s).map (fun x => (x.1.erase, x.2)) = parseRef u d s := by
  unfold locRef parseRef locSingle
  cases parseSingle u d s with
  | none => rfl
  | some x =>
    obtain ⟨a, s⟩ := x
    simp only [Option.map_some]
    cases lexChar (· = d.rangeSep) (skipWs s) with
    | none => rfl
    | some s =>
      simp only
      cases parseSingle u d s with
      | none => rfl
      | some x => rfl

theorem locRest_erase (n : Nat) (fuel : Nat) : ∀ (s : List Char),
    (locRest u d n fuel s).map (fun x => (eraseRest x.1, x.2)) = parseRest u d fuel s := by
  induction fuel with
  | zero =>
    intro s
    unfold locRest parseRest
    cases skipWs s with
    | nil => rfl
    | cons c s' => simp only; cases lexListSep d (c :: s') <;> rfl
  | succ k ih =>
    intro s
    unfold locRest parseRest
    cases skipWs s with
    | nil => rfl
    | cons c s' =>
      simp only
      cases lexListSep d (c :: s') with
      | none => rfl
      | some x =>
        obtain ⟨m, s⟩ := x
        simp only
        cases skipWs s with
        | nil => rfl
        | cons c' s'' =>
          simp only
          have hr := locRef_erase (u := u) (d := d) n s
          cases hl : locRef u d n s with
          | none => rw [hl] at hr; rw [← hr]; rfl
          | some y =>
            obtain ⟨r, s⟩ := y
            rw [hl] at hr
            rw [← hr]
            simp only [Option.map_some]
            rw [← ih s]
            cases locRest u d n k s with
            | none => rfl
            | some z => rfl

theorem locTree_erase (s : List Char) : (locTree u d s).map LTree.erase = parseTree u d s := by
  unfold locTree parseTree
  have hr := locRef_erase (u := u) (d := d) s.length s
  cases hl : locRef u d s.length s with
  | none => rw [hl] at hr; rw [← hr]; rfl
  | some y =>
    obtain ⟨r, rest⟩ := y
    rw [hl] at hr
    rw [← hr]
    simp only [Option.map_some]
    rw [← locRest_erase s.length rest.length rest]
    cases locRest u d s.length rest.length rest with
    | none => rfl
    | some z => rfl

/-! ## Callbacks without positions -/

/-- The outcome without positions. -/
def eraseOut {α : Type} : Except (Int × Int) α × PState → Except PyErr α × PState
  | (.ok a, s) => (.ok a, s)
  | (.error _, s) => (.error .parsing, s)

theorem eraseOut_bind {α β : Type} (m : LM α) (f : α → LM β) (m' : PM α) (f' : α → PM β) (s : PState)
    (hm : m' s = eraseOut (m s)) (hf : ∀ a s, f' a s = eraseOut (f a s)) : (m' >>= f') s = eraseOut ((m >>= f) s) := by
  change PM.bind m' f' s = eraseOut (match m s with
    | (.ok a, s) => f a s
    | (.error p, s) => (.error p, s))
  unfold PM.bind
  rw [hm]
  cases hx : m s with
  | mk x s1 =>
    cases x with
    | ok a => exact hf a s1
    | error p => rfl

theorem eraseOut_name (n : Nat) (name : List Char) (s : PState) :
    nameCallback u d name s = eraseOut (nameCallbackAt u d n name s) := by
  unfold nameCallback nameCallbackAt
  cases BibleBook.fromStr u d name <;> rfl

theorem eraseOut_attempt {α : Type} (p : Int × Int) (x : Except PyErr α) (s : PState) :
    PM.lift (asParsing x) s = eraseOut (LM.attempt p x s) := by
  cases x <;> rfl

theorem evalSingle_erase (e : Env) (f : BibleFlag) (a : LSingle) (s : PState) :
    evalSingle u e f a.ref s = eraseOut (evalSingleAt u e f a s) := by
  obtain ⟨r, i, j⟩ := a
  unfold evalSingleAt
  cases r with
  | book name =>
    refine eraseOut_bind _ _ _ _ _ (eraseOut_name _ _ _) fun b s => ?_
    refine eraseOut_bind _ _ _ _ _ rfl fun s1 s => ?_
    exact eraseOut_bind _ _ _ _ _ rfl fun _ s => eraseOut_attempt _ _ _
  | bookNum name n =>
    refine eraseOut_bind _ _ _ _ _ (eraseOut_name _ _ _) fun b s => ?_
    refine eraseOut_bind _ _ _ _ _ rfl fun s1 s => ?_
    by_cases hb : b.chapCount e.data = 1
    · simp only [if_pos hb]
      exact eraseOut_bind _ _ _ _ _ rfl fun _ s => eraseOut_attempt _ _ _
    · simp only [if_neg hb]
      exact eraseOut_bind _ _ _ _ _ rfl fun _ s => eraseOut_attempt _ _ _
  | bookChapVerse name c v =>
    refine eraseOut_bind _ _ _ _ _ (eraseOut_name _ _ _) fun b s => ?_
    exact eraseOut_bind _ _ _ _ _ rfl fun _ s => eraseOut_attempt _ _ _
  | chapVerse c v =>
    refine eraseOut_bind _ _ _ _ _ rfl fun s1 s => ?_
    cases s1.book with
    | none => rfl
    | some b => exact eraseOut_bind _ _ _ _ _ rfl fun _ s => eraseOut_attempt _ _ _
  | num n =>
    refine eraseOut_bind _ _ _ _ _ rfl fun s1 s => ?_
    cases s1.book with
    | none => rfl
    | some b =>
      simp only
      by_cases hb : b.chapCount e.data = 1
      · simp only [if_pos hb]
        exact eraseOut_bind _ _ _ _ _ rfl fun _ s => eraseOut_attempt _ _ _
      · simp only [if_neg hb]
        cases s1.atVerse with
        | false => exact eraseOut_attempt _ _ _
        | true =>
          simp only [if_true]
          cases s1.chap with
          | none => rfl
          | some c => exact eraseOut_attempt _ _ _

theorem evalRef_erase (e : Env) (f : BibleFlag) (r : LRef) (s : PState) :
    evalRef u e f r.erase s = eraseOut (evalRefAt u e f r s) := by
  cases r with
  | single a => exact evalSingle_erase e f a s
  | dual a b =>
    refine eraseOut_bind _ _ _ _ _ (evalSingle_erase e f a s) fun x s => ?_
    exact eraseOut_bind _ _ _ _ _ (evalSingle_erase e f b s) fun y s => eraseOut_attempt _ _ _

theorem evalSep_erase (m : Bool) (s : PState) : evalSep m s = eraseOut (evalSepAt m s) := rfl

theorem evalRest_erase (e : Env) (f : BibleFlag) (l : List (Bool × LRef)) : ∀ s : PState,
    evalRest u e f (eraseRest l) s = eraseOut (evalRestAt u e f l s) := by
  induction l with
  | nil => intro s; rfl
  | cons x l ih =>
    intro s
    obtain ⟨m, r⟩ := x
    refine eraseOut_bind _ _ _ _ _ (evalSep_erase m s) fun _ s => ?_
    refine eraseOut_bind _ _ _ _ _ (evalRef_erase e f r s) fun y s => ?_
    exact eraseOut_bind _ _ _ _ _ (ih s) fun z s => rfl

theorem evalTree_erase (e : Env) (f : BibleFlag) (t : LTree) (s : PState) :
    evalTree u e f t.erase s = eraseOut (evalTreeAt u e f t s) := by
  obtain ⟨r, l, tr⟩ := t
  refine eraseOut_bind _ _ _ _ _ (evalRef_erase e f r s) fun x s => ?_
  refine eraseOut_bind _ _ _ _ _ (evalRest_erase e f l s) fun y s => ?_
  cases tr with
  | none => rfl
  | some m => exact eraseOut_bind _ _ _ _ _ (evalSep_erase m s) fun _ s => rfl

theorem parse_erase (e : Env) (flags : Option BibleFlag) (s : List Char) (st : PState) :
    parse u e flags s st = eraseOut (parseAt u e flags s st) := by
  unfold parse parseAt
  rw [← locTree_erase]
  cases locTree u e.data s with
  | none => rfl
  | some t => exact evalTree_erase e _ t st

end Bibleref

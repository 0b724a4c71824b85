import Verif.Lemmas.Unlisted
import Verif.Lemmas.Grammar

/-! Strings and the book order. -/

namespace Bibleref
open Spec

theorem only_eq (e : Env) (b : BibleBook) : only e b = reordered e [b] := rfl

section
variable {u : Uni} {e : Env} {o : List BibleBook}

theorem ofArgs_reordered (sb : Option BibleBook) (sc sv ec ev : Option Int) (fl : Option BibleFlag) :
    BibleRange.ofArgs (reordered e o) sb sc sv none ec ev fl = BibleRange.ofArgs e sb sc sv none ec ev fl := rfl

theorem isNameEnd_reordered (c : Char) : isNameEnd u (reordered e o).data c = isNameEnd u e.data c := rfl

theorem lexNameTail_reordered (s : List Char) : lexNameTail u (reordered e o).data s = lexNameTail u e.data s := by
  induction s with
  | nil => rfl
  | cons c s ih => rw [lexNameTail, lexNameTail, ih]; rfl

theorem lexName_reordered (s : List Char) : lexName u (reordered e o).data s = lexName u e.data s := by
  cases s with
  | nil => rfl
  | cons c s => rw [lexName, lexName, lexNameTail_reordered]

theorem parseSingle_reordered (s : List Char) : parseSingle u (reordered e o).data s = parseSingle u e.data s := by
  unfold parseSingle; rw [lexName_reordered]; rfl

theorem parseRef_reordered (s : List Char) : parseRef u (reordered e o).data s = parseRef u e.data s := by
  unfold parseRef; simp only [parseSingle_reordered]; rfl

theorem parseRest_reordered (n : Nat) : ∀ s : List Char, parseRest u (reordered e o).data n s = parseRest u e.data n s := by
  have hsep : ∀ s, lexListSep (reordered e o).data s = lexListSep e.data s := fun _ => rfl
  induction n with
  | zero =>
    intro s
    rw [parseRest.eq_def, parseRest.eq_def]
    simp only
    cases skipWs s with
    | nil => rfl
    | cons c t => simp only [hsep]; cases lexListSep e.data (c :: t) <;> rfl
  | succ n ih =>
    intro s
    rw [parseRest.eq_def, parseRest.eq_def]
    simp only
    cases skipWs s with
    | nil => rfl
    | cons c t =>
      simp only [hsep]
      cases lexListSep e.data (c :: t) with
      | none => rfl
      | some p => simp only [parseRef_reordered, ih]

theorem parseTree_reordered (s : List Char) : parseTree u (reordered e o).data s = parseTree u e.data s := by
  unfold parseTree; rw [parseRef_reordered]; simp only [parseRest_reordered]

theorem fromStr_reordered (s : List Char) : BibleBook.fromStr u (reordered e o).data s = BibleBook.fromStr u e.data s := rfl

theorem evalSingle_reordered (f : BibleFlag) (a : Single) : evalSingle u (reordered e o) f a = evalSingle u e f a := by
  cases a <;> rfl

/-! ## Strings without a range separator -/

/-- No range of the tree has two references. -/
def Flat : Ref → Prop
  | .single _ => True
  | .dual _ _ => False

theorem evalRef_reordered (f : BibleFlag) {r : Ref} (hr : Flat r) : evalRef u (reordered e o) f r = evalRef u e f r := by
  cases r with
  | single a => exact evalSingle_reordered f a
  | dual a b => exact hr.elim

theorem evalRest_reordered (f : BibleFlag) : ∀ l : List (Bool × Ref), (∀ x ∈ l, Flat x.2) →
    evalRest u (reordered e o) f l = evalRest u e f l := by
  intro l
  induction l with
  | nil => intro _; rfl
  | cons x l ih =>
    intro hl
    rw [evalRest, evalRest, evalRef_reordered f (hl x List.mem_cons_self), ih (fun y hy => hl y (List.mem_cons_of_mem _ hy))]

variable {d : BibleData}

theorem skipWs_sub {c : Char} {s : List Char} (hc : c ∈ skipWs s) : c ∈ s := (List.dropWhile_sublist _).subset hc

theorem parseVerse_sub {s rest : List Char} {n : Option Nat} (h : parseVerse d s = some (n, rest)) : ∀ c ∈ rest, c ∈ s := by
  unfold parseVerse at h
  split at h
  · cases h; exact fun c hc => hc
  · rename_i s' hs
    have hs' : ∀ c ∈ s', c ∈ s := by
      intro c hc
      cases hk : skipWs s with
      | nil => rw [hk] at hs; cases hs
      | cons y t =>
        rw [hk, lexChar] at hs
        split at hs
        · cases hs; exact skipWs_sub (hk ▸ List.mem_cons_of_mem _ hc)
        · cases hs
    cases hn : lexNum (skipWs s') with
    | none => rw [hn] at h; cases h
    | some p =>
      obtain ⟨m, s''⟩ := p
      rw [hn] at h
      cases h
      obtain ⟨ds, _, _, heq, _, _⟩ := lexNum_iff.mp hn
      intro c hc
      exact hs' c (skipWs_sub (heq ▸ List.mem_append_right _ hc))

theorem parseSingle_sub {s rest : List Char} {a : Single} (h : parseSingle u d s = some (a, rest)) : ∀ c ∈ rest, c ∈ s := by
  unfold parseSingle at h
  have num : ∀ {t r : List Char} {n : Nat}, lexNum (skipWs t) = some (n, r) → ∀ c ∈ r, c ∈ t := by
    intro t r n hn c hc
    obtain ⟨ds, _, _, heq, _, _⟩ := lexNum_iff.mp hn
    exact skipWs_sub (heq ▸ List.mem_append_right _ hc)
  split at h
  · rename_i name s' hl
    have h1 : ∀ c ∈ s', c ∈ s := by
      intro c hc
      obtain ⟨_, heq, _⟩ := lexName_some hl
      exact skipWs_sub (heq ▸ List.mem_append_right _ hc)
    split at h
    · cases h; exact h1
    · rename_i n s'' hn
      cases hv : parseVerse d s'' with
      | none => rw [hv] at h; cases h
      | some p =>
        obtain ⟨v, r⟩ := p
        rw [hv] at h
        have hr : r = rest := by cases v <;> cases h <;> rfl
        subst hr
        intro c hc
        exact h1 c (num hn c (parseVerse_sub hv c hc))
  · split at h
    · cases h
    · rename_i n s'' hn
      cases hv : parseVerse d s'' with
      | none => rw [hv] at h; cases h
      | some p =>
        obtain ⟨v, r⟩ := p
        rw [hv] at h
        have hr : r = rest := by cases v <;> cases h <;> rfl
        subst hr
        intro c hc
        exact num hn c (parseVerse_sub hv c hc)

theorem parseRef_sub {s rest : List Char} {r : Ref} (hs : d.rangeSep ∉ s) (h : parseRef u d s = some (r, rest)) :
    Flat r ∧ ∀ c ∈ rest, c ∈ s := by
  unfold parseRef at h
  split at h
  · cases h
  · rename_i a s' ha
    have h1 := parseSingle_sub ha
    split at h
    · cases h; exact ⟨trivial, h1⟩
    · rename_i s'' hl
      exfalso
      cases hk : skipWs s' with
      | nil => rw [hk] at hl; cases hl
      | cons y t =>
        rw [hk, lexChar] at hl
        split at hl
        · rename_i hy
          simp only [decide_eq_true_eq] at hy
          exact hs (h1 _ (skipWs_sub (hk ▸ hy ▸ List.mem_cons_self)))
        · cases hl

theorem parseRest_flat (n : Nat) : ∀ {s : List Char} {l : List (Bool × Ref)} {t : Option Bool}, d.rangeSep ∉ s →
    parseRest u d n s = some (l, t) → ∀ x ∈ l, Flat x.2 := by
  induction n with
  | zero =>
    intro s l t hs h
    rw [parseRest.eq_def] at h
    simp only at h
    split at h
    · cases h; simp
    · split at h <;> first | cases h | simp_all
  | succ n ih =>
    intro s l t hs h
    rw [parseRest.eq_def] at h
    simp only at h
    split at h
    · cases h; simp
    · rename_i c s' hk
      cases hl : lexListSep d (c :: s') with
      | none => simp only [hl] at h; cases h
      | some p =>
        obtain ⟨major, s₁⟩ := p
        simp only [hl] at h
        have hs1 : ∀ x ∈ s₁, x ∈ s := by
          intro x hx
          have : s₁ = s' := by
            unfold lexListSep at hl
            simp only [lexChar] at hl
            split at hl
            · rename_i q hq
              split at hq
              · cases hq; cases hl; rfl
              · cases hq
            · split at hl
              · cases hl; rfl
              · cases hl
          subst this
          exact skipWs_sub (hk ▸ List.mem_cons_of_mem _ hx)
        split at h
        · cases h; simp
        · cases hr : parseRef u d s₁ with
          | none => rw [hr] at h; cases h
          | some p =>
            obtain ⟨r, s₂⟩ := p
            rw [hr] at h
            simp only at h
            have h2 := parseRef_sub (fun hx => hs (hs1 _ hx)) hr
            cases hq : parseRest u d n s₂ with
            | none => rw [hq] at h; cases h
            | some p =>
              obtain ⟨l', t'⟩ := p
              rw [hq] at h
              cases h
              intro x hx
              rcases List.mem_cons.mp hx with rfl | hx
              · exact h2.1
              · exact ih (fun hx => hs (hs1 _ (h2.2 _ hx))) hq x hx

/-- Without a range separator the book order plays no part. -/
theorem parse_reordered (flags : Option BibleFlag) {s : List Char} (hs : e.data.rangeSep ∉ s) :
    parse u (reordered e o) flags s = parse u e flags s := by
  unfold parse
  rw [parseTree_reordered]
  cases ht : parseTree u e.data s with
  | none => rfl
  | some t =>
    simp only
    unfold parseTree at ht
    cases hr : parseRef u e.data s with
    | none => rw [hr] at ht; cases ht
    | some p =>
      obtain ⟨r, s₂⟩ := p
      rw [hr] at ht
      simp only at ht
      have h2 := parseRef_sub hs hr
      cases hq : parseRest u e.data s₂.length s₂ with
      | none => rw [hq] at ht; cases ht
      | some p =>
        obtain ⟨l, tr⟩ := p
        rw [hq] at ht
        cases ht
        unfold evalTree
        simp only
        rw [evalRef_reordered _ h2.1, evalRest_reordered _ _ (parseRest_flat _ (fun hx => hs (h2.2 _ hx)) hq)]
        rfl

end

/-! ## Strings of ranges of one book -/

section
variable {u : Uni} {e : Env} {b : BibleBook} (hb : b ∉ e.data.bookOrder)
include hb

omit hb in
theorem strOfRange_only {r : BibleRange} (hr : Inside b r) (o : StrOpts) (fl : Option BibleFlag) :
    r.str u (only e b) o fl = r.str u e o fl := by
  have hs := fun fl => spans_only (e := e) hr fl
  have h1 : r.strStart (only e b) o = r.strStart e o := by
    unfold BibleRange.strStart
    rw [(hs none).2.2.1, (hs none).1, (hs none).2.1]
  have h2 : RangeList.isDual (only e b) fl r = RangeList.isDual e fl r := rfl
  have h3 : ∀ q, r.strStop (only e b) fl q = r.strStop e fl q := by
    intro q
    unfold BibleRange.strStop
    rw [(hs fl).2.2.2, (hs fl).2.1]
  unfold BibleRange.str
  simp only [h1, h2, h3]
  rfl

theorem strStep_only {r : BibleRange} (hr : Inside b r) (o : StrOpts) (fl : Option BibleFlag) (s : RangeList.StrState) :
    RangeList.strStep u (only e b) o fl s r = RangeList.strStep u e o fl s r := by
  have hs := fun fl => spans_only (e := e) hr fl
  have h1 : RangeList.strStart (only e b) o fl s r = RangeList.strStart e o fl s r := by
    unfold RangeList.strStart
    rw [(hs fl).2.2.1, (hs fl).1, (hs fl).2.1, (counts_only hb hr false).2.1]
    rfl
  have h2 : RangeList.isDual (only e b) fl r = RangeList.isDual e fl r := rfl
  have h3 : ∀ c q, RangeList.strStop (only e b) fl c q r = RangeList.strStop e fl c q r := by
    intro c q
    unfold RangeList.strStop
    rw [(hs fl).2.2.2, (hs fl).2.1]
  unfold RangeList.strStep
  simp only [h1, h2, h3, (hs none).2.1]
  rfl

theorem strGroup_only (o : StrOpts) (fl : Option BibleFlag) : ∀ (l : List BibleRange) (s : RangeList.StrState), (∀ x ∈ l, Inside b x) →
    RangeList.strGroup u (only e b) o fl s l = RangeList.strGroup u e o fl s l := by
  intro l
  induction l with
  | nil => intro s _; rfl
  | cons r l ih =>
    intro s hl
    rw [RangeList.strGroup, RangeList.strGroup, strStep_only hb (hl r List.mem_cons_self)]
    refine bind_same fun p hp => ?_
    simp only
    rw [ih p.2 (fun x hx => hl x (List.mem_cons_of_mem _ hx))]

theorem strOfList_only (o : StrOpts) (fl : Option BibleFlag) {l : RangeList} (hl : ∀ g ∈ l, ∀ x ∈ g, Inside b x) :
    RangeList.str u (only e b) o fl l = RangeList.str u e o fl l := by
  have key : ∀ (l : RangeList) (s : RangeList.StrState), (∀ g ∈ l, ∀ x ∈ g, Inside b x) →
      RangeList.strGroups u (only e b) o fl s l = RangeList.strGroups u e o fl s l := by
    intro l
    induction l with
    | nil => intro s _; rfl
    | cons g l ih =>
      intro s hl
      rw [RangeList.strGroups, RangeList.strGroups, strGroup_only hb o fl g s (hl g List.mem_cons_self)]
      refine bind_same fun p hp => ?_
      simp only
      rw [show RangeList.strEndGroup (only e b) o p.2 = RangeList.strEndGroup e o p.2 from rfl,
        ih _ (fun x hx => hl x (List.mem_cons_of_mem _ hx))]
  exact key l _ hl

end
end Bibleref

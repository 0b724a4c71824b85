import Verif.Lemmas.Shape

/-! Lemmas about the positional constructor of ranges. -/

namespace Bibleref
open Spec

theorem find?_least {α} {R : α → α → Prop} {l : List α} (hl : l.Pairwise R) {p : α → Bool} {x : α} (hx : x ∈ l) (hp : p x = true)
    (hmin : ∀ y ∈ l, p y = true → ¬ R y x) : l.find? p = some x := by
  induction l with
  | nil => cases hx
  | cons a l ih =>
    rw [List.pairwise_cons] at hl
    rcases List.mem_cons.mp hx with rfl | hx'
    · rw [List.find?_cons_of_pos hp]
    · have : ¬ p a = true := fun hh => hmin a (List.mem_cons_self ..) hh (hl.1 x hx')
      rw [List.find?_cons_of_neg this]
      exact ih hl.2 hx' (fun y hy => hmin y (List.mem_cons_of_mem _ hy))

theorem find?_first {α} {R : α → α → Prop} {l : List α} (hl : l.Pairwise R) {p : α → Bool} {t y : α} (ht : l.find? p = some t)
    (hy : y ∈ l) (hp : p y = true) : y = t ∨ R t y := by
  induction l with
  | nil => cases hy
  | cons a l ih =>
    rw [List.pairwise_cons] at hl
    by_cases ha : p a = true
    · rw [List.find?_cons_of_pos ha] at ht
      cases ht
      rcases List.mem_cons.mp hy with rfl | hy
      · exact .inl rfl
      · exact .inr (hl.1 y hy)
    · rw [List.find?_cons_of_neg ha] at ht
      rcases List.mem_cons.mp hy with rfl | hy
      · exact absurd hp ha
      · exact ih hl.2 ht hy

section
variable {d : BibleData} (h : d.WF) {v0 : Bool}
include h

theorem firstOf_eq {b c n} {x : BibleVerse} (hx : Valid d v0 x) (hp : Matches b c n x = true)
    (hmin : ∀ y, Valid d v0 y → Matches b c n y = true → pos d x ≤ pos d y) : firstOf d v0 b c n = some x := by
  refine find?_least (h.pairwise_canon v0) ((mem_canon h).mpr hx) hp ?_
  intro y hy hpy hlt
  rw [mem_canon h] at hy
  have := hmin y hy hpy
  rw [h.lt_pos hy hx] at hlt
  omega

theorem lastOf_eq {b c n} {x : BibleVerse} (hx : Valid d v0 x) (hp : Matches b c n x = true)
    (hmax : ∀ y, Valid d v0 y → Matches b c n y = true → pos d y ≤ pos d x) : lastOf d v0 b c n = some x := by
  refine find?_least (List.pairwise_reverse.mpr (h.pairwise_canon v0)) (List.mem_reverse.mpr ((mem_canon h).mpr hx)) hp ?_
  intro y hy hpy hlt
  rw [List.mem_reverse, mem_canon h] at hy
  have := hmax y hy hpy
  rw [h.lt_pos hx hy] at hlt
  omega

theorem firstOf_none {b c n} (hno : ∀ y, Valid d v0 y → ¬ Matches b c n y = true) : firstOf d v0 b c n = none := by
  refine List.find?_eq_none.mpr (fun y hy => hno y ((mem_canon h).mp hy))

theorem lastOf_none {b c n} (hno : ∀ y, Valid d v0 y → ¬ Matches b c n y = true) : lastOf d v0 b c n = none := by
  refine List.find?_eq_none.mpr (fun y hy => hno y ((mem_canon h).mp (List.mem_reverse.mp hy)))

omit h in
theorem matches_iff {b c n} {y : BibleVerse} : Matches b c n y = true ↔ y.book = b ∧ (∀ c', c = some c' → y.chap = c') ∧
    (∀ n', n = some n' → y.verse = n') := by
  cases c <;> cases n <;> simp [Matches, and_assoc]

theorem firstOf_book {b : BibleBook} (hb : b ∈ d.bookOrder) : firstOf d v0 b none none = some ⟨b, 1, firstNum d v0 b 1⟩ := by
  have := h.nChaps_pos b
  have hv : Valid d v0 ⟨b, 1, firstNum d v0 b 1⟩ := firstNum_valid h hb (by omega) (by omega)
  refine firstOf_eq h hv (by simp [matches_iff]) ?_
  intro y hy hm
  exact (blocks_book h v0).st_min (w := ⟨b, 1, _⟩) hy hv.mono (matches_iff.mp hm).1

theorem lastOf_book {b : BibleBook} (hb : b ∈ d.bookOrder) : lastOf d v0 b none none = some ⟨b, nChaps d b, lastNum d b (nChaps d b)⟩ := by
  have := h.nChaps_pos b
  have hv : Valid d v0 ⟨b, nChaps d b, lastNum d b (nChaps d b)⟩ := lastNum_valid h hb (by omega) (by omega)
  refine lastOf_eq h hv (by simp [matches_iff]) ?_
  intro y hy hm
  exact (blocks_book h v0).en_max (w := ⟨b, nChaps d b, _⟩) hy.mono hv.mono (matches_iff.mp hm).1

theorem firstOf_chap {b : BibleBook} (hb : b ∈ d.bookOrder) (c : Int) : firstOf d v0 b (some c) none =
    if 1 ≤ c ∧ c ≤ nChaps d b then some ⟨b, c, firstNum d v0 b c⟩ else none := by
  split
  · rename_i hc
    have hv : Valid d v0 ⟨b, c, firstNum d v0 b c⟩ := firstNum_valid h hb hc.1 hc.2
    refine firstOf_eq h hv (by simp [matches_iff]) ?_
    intro y hy hm
    obtain ⟨m1, m2, _⟩ := matches_iff.mp hm
    exact (blocks_chap h v0).st_min (w := ⟨b, c, _⟩) hy hv.mono (by simp [m1, m2])
  · rename_i hc
    apply firstOf_none h
    intro y hy hm
    obtain ⟨m1, m2, _⟩ := matches_iff.mp hm
    have m2 := m2 _ rfl
    have h1 := hy.1; have h2 := hy.2.1
    rw [m1] at h2
    omega

theorem lastOf_chap {b : BibleBook} (hb : b ∈ d.bookOrder) (c : Int) : lastOf d v0 b (some c) none =
    if 1 ≤ c ∧ c ≤ nChaps d b then some ⟨b, c, lastNum d b c⟩ else none := by
  split
  · rename_i hc
    have hv : Valid d v0 ⟨b, c, lastNum d b c⟩ := lastNum_valid h hb hc.1 hc.2
    refine lastOf_eq h hv (by simp [matches_iff]) ?_
    intro y hy hm
    obtain ⟨m1, m2, _⟩ := matches_iff.mp hm
    exact (blocks_chap h v0).en_max (w := ⟨b, c, _⟩) hy.mono hv.mono (by simp [m1, m2])
  · rename_i hc
    apply lastOf_none h
    intro y hy hm
    obtain ⟨m1, m2, _⟩ := matches_iff.mp hm
    have m2 := m2 _ rfl
    have h1 := hy.1; have h2 := hy.2.1
    rw [m1] at h2
    omega

theorem firstOf_verse (b : BibleBook) (c n : Int) : firstOf d v0 b (some c) (some n) =
    if Valid d v0 ⟨b, c, n⟩ then some ⟨b, c, n⟩ else none := by
  have key : ∀ y, Matches b (some c) (some n) y = true → y = ⟨b, c, n⟩ := by
    intro y hm
    obtain ⟨m1, m2, m3⟩ := matches_iff.mp hm
    cases y; simp_all
  split
  · rename_i hv
    refine firstOf_eq h hv (by simp [matches_iff]) ?_
    intro y hy hm; rw [key y hm]; exact Nat.le_refl _
  · rename_i hv
    apply firstOf_none h
    intro y hy hm
    rw [key y hm] at hy; exact hv hy

theorem lastOf_verse (b : BibleBook) (c n : Int) : lastOf d v0 b (some c) (some n) =
    if Valid d v0 ⟨b, c, n⟩ then some ⟨b, c, n⟩ else none := by
  have key : ∀ y, Matches b (some c) (some n) y = true → y = ⟨b, c, n⟩ := by
    intro y hm
    obtain ⟨m1, m2, m3⟩ := matches_iff.mp hm
    cases y; simp_all
  split
  · rename_i hv
    refine lastOf_eq h hv (by simp [matches_iff]) ?_
    intro y hy hm; rw [key y hm]; exact Nat.le_refl _
  · rename_i hv
    apply lastOf_none h
    intro y hy hm
    rw [key y hm] at hy; exact hv hy

/-! ### Rearranging the arguments -/

theorem swapArgs_keep {sb sc sv eb ec ev} (hS : sb ∈ d.bookOrder) (hE : ∀ b, eb = some b → b ∈ d.bookOrder)
    (hn : ¬ Reversed d sb sc sv eb ec ev) :
    BibleRange.swapArgs (BibleRange.earlierT d sb eb) sb sc sv eb ec ev = (sb, sc, sv, eb, ec, ev) := by
  unfold Reversed at hn
  rw [not_or] at hn
  obtain ⟨hn1, hn2⟩ := hn
  have hswap : BibleRange.earlierT d sb eb = none := by
    unfold BibleRange.earlierT
    cases eb with
    | none => rfl
    | some b =>
      simp only
      rw [if_neg]
      rw [h.book_lt, bidx_of_mem hS, bidx_of_mem (hE b rfl)]
      exact fun hh => hn1 ⟨b, rfl, hh⟩
  unfold BibleRange.swapArgs
  simp only [hswap]
  split
  · rename_i heb
    cases sc with
    | none => rfl
    | some c =>
      simp only
      cases ec with
      | some c' =>
        simp only
        rw [if_neg (fun hh => hn2 ⟨heb, c, rfl, .inl ⟨c', rfl, hh⟩⟩)]
        split
        · rename_i hcc
          subst hcc
          cases sv <;> cases ev <;> try rfl
          rename_i n n'
          simp only
          rw [if_neg (fun hh => hn2 ⟨heb, _, rfl, .inr ⟨.inr rfl, n, n', rfl, rfl, hh⟩⟩)]
        · rfl
      | none =>
        cases sv <;> cases ev <;> try rfl
        rename_i n n'
        simp only
        rw [if_neg (fun hh => hn2 ⟨heb, _, rfl, .inr ⟨.inl rfl, n, n', rfl, rfl, hh⟩⟩)]
  · rfl

theorem swapArgs_book {sb eb : BibleBook} (hS : sb ∈ d.bookOrder) (hE : eb ∈ d.bookOrder) (sc sv ec ev)
    (hlt : d.bookOrder.idxOf eb < d.bookOrder.idxOf sb) :
    BibleRange.swapArgs (BibleRange.earlierT d sb (some eb)) sb sc sv (some eb) ec ev = (eb, ec, ev, some sb, sc, sv) := by
  unfold BibleRange.swapArgs BibleRange.earlierT
  simp only
  rw [if_pos ((h.book_lt eb sb).mpr (by rwa [bidx_of_mem hS, bidx_of_mem hE]))]

theorem swapArgs_same {sb : BibleBook} {eb : Option BibleBook} (heb : eb = none ∨ eb = some sb) (sc sv ec ev) :
    BibleRange.swapArgs (BibleRange.earlierT d sb eb) sb sc sv eb ec ev =
      match sc with
      | none => (sb, sc, sv, eb, ec, ev)
      | some sc' =>
        match ec with
        | some ec' =>
          if sc' > ec' then (sb, ec, ev, eb, sc, sv)
          else if ec' = sc' then
            match sv, ev with
            | some sv', some ev' => if sv' > ev' then (sb, sc, ev, eb, ec, sv) else (sb, sc, sv, eb, ec, ev)
            | _, _ => (sb, sc, sv, eb, ec, ev)
          else (sb, sc, sv, eb, ec, ev)
        | none =>
          match sv, ev with
          | some sv', some ev' => if sv' > ev' then (sb, sc, ev, eb, ec, sv) else (sb, sc, sv, eb, ec, ev)
          | _, _ => (sb, sc, sv, eb, ec, ev) := by
  have hswap : BibleRange.earlierT d sb eb = none := by
    unfold BibleRange.earlierT
    rcases heb with rfl | rfl
    · rfl
    · simp only
      rw [if_neg]; rw [h.book_lt]; omega
  unfold BibleRange.swapArgs
  simp only [hswap]
  rw [if_pos heb]
  cases sc <;> cases ec <;> cases sv <;> cases ev <;> rfl

omit h in
theorem not_reversed_book {sb eb : BibleBook} (sc sv ec ev) (hlt : d.bookOrder.idxOf eb < d.bookOrder.idxOf sb) :
    ¬ Reversed d eb ec ev (some sb) sc sv := by
  rintro (⟨b, hb, hh⟩ | ⟨hb | hb, _⟩)
  · cases hb; omega
  · cases hb
  · cases hb; omega
end

/-! ### The value -/

/-- An optional verse as the outcome of a call that raises when there is none. -/
def orInvalid (o : Option BibleVerse) : Except PyErr BibleVerse := match o with
  | some v => .ok v
  | none => .error .invalidReference

/-- The start verse as computed by the constructor. -/
def startE (e : Env) (f : BibleFlag) (sb : BibleBook) (sc sv : Option Int) : Except PyErr BibleVerse :=
  match sc, sv with
  | none, _ => sb.firstVerse e none (some f)
  | some sc, none => sb.firstVerse e (some sc) (some f)
  | some sc, some sv => BibleVerse.new e sb sc sv (some f)

/-- The end verse as computed by the constructor. -/
def stopE (e : Env) (f : BibleFlag) (sb : BibleBook) (sc sv : Option Int) (eb : Option BibleBook) (ec ev : Option Int)
    (s : BibleVerse) : Except PyErr BibleVerse :=
  match eb, ec, ev with
  | none, none, none => (match sc, sv with
    | none, _ => sb.lastVerse e none
    | some sc, none => sb.lastVerse e (some sc)
    | some _, some _ => .ok s)
  | _, none, none => (eb.getD sb).lastVerse e none
  | _, some ec, none => (eb.getD sb).lastVerse e (some ec)
  | _, none, some ev => if sb ≠ eb.getD sb then .error .invalidReference else BibleVerse.new e (eb.getD sb) s.chap ev (some f)
  | _, some ec, some ev => BibleVerse.new e (eb.getD sb) ec ev (some f)

theorem compareBooks_ok {d : BibleData} {sb : BibleBook} {eb : Option BibleBook} (hS : sb ∈ d.bookOrder)
    (hE : ∀ b, eb = some b → b ∈ d.bookOrder) : BibleRange.compareBooks d sb eb = .ok () := by
  cases eb with
  | none => rfl
  | some b => simp only [BibleRange.compareBooks, book_comparable.mpr ⟨hS, hE b rfl⟩, if_true]

/-- The two stages of the constructor. -/
theorem ofArgs_stages {e : Env} {sb sc sv eb ec ev flags}
    (hc : BibleRange.compareBooks e.data sb eb = .ok ())
    (hs : BibleRange.swapArgs (BibleRange.earlierT e.data sb eb) sb sc sv eb ec ev = (sb, sc, sv, eb, ec, ev)) :
    BibleRange.ofArgs e (some sb) sc sv eb ec ev flags =
      if sc = none ∧ sv ≠ none then .error .invalidReference else
      match startE e (e.eff flags) sb sc sv with
      | .error x => .error x
      | .ok s =>
        match stopE e (e.eff flags) sb sc sv eb ec ev s with
        | .error x => .error x
        | .ok t => if (e.eff flags).multibook = false ∧ s.book ≠ t.book then .error .multibookRange else .ok ⟨s, t⟩ := by
  unfold BibleRange.ofArgs startE stopE
  simp only [BibleRange.earlierBook_bind, hc, hs]
  split
  · rfl
  · cases sc with
    | none =>
      simp only
      cases sb.firstVerse e none (some (e.eff flags)) with
      | error x => rfl
      | ok s =>
        cases eb <;> cases ec <;> cases ev <;> simp [bind, Except.bind, pure, Except.pure] <;>
          (try split) <;> first | rfl | (split <;> simp_all)
    | some c =>
      cases sv with
      | none =>
        simp only
        cases sb.firstVerse e (some c) (some (e.eff flags)) with
        | error x => rfl
        | ok s =>
          cases eb <;> cases ec <;> cases ev <;> simp [bind, Except.bind, pure, Except.pure] <;>
          (try split) <;> first | rfl | (split <;> simp_all)
      | some n =>
        simp only
        cases BibleVerse.new e sb c n (some (e.eff flags)) with
        | error x => rfl
        | ok s =>
          cases eb <;> cases ec <;> cases ev <;> simp [bind, Except.bind, pure, Except.pure] <;>
          (try split) <;> first | rfl | (split <;> simp_all)

section
variable {e : Env} (h : e.data.WF) {flags : Option BibleFlag}
include h

theorem firstVerse_orInvalid (hg : (e.eff flags).verse0 = true → e.flags.verse0 = true) {b : BibleBook}
    (hb : b ∈ e.data.bookOrder) (c : Option Int) :
    b.firstVerse e c (some (e.eff flags)) = orInvalid (firstOf e.data (e.eff flags).verse0 b c none) := by
  have hg' : (e.eff (some (e.eff flags))).verse0 = true → e.flags.verse0 = true := by rw [e.eff_eff]; exact hg
  cases c with
  | none => rw [firstVerse_flags_none h hg', firstOf_book h hb, e.eff_eff]; rfl
  | some c =>
    rw [firstOf_chap h hb]
    by_cases hc : 1 ≤ c ∧ c ≤ nChaps e.data b
    · rw [if_pos hc, firstVerse_flags h hg' hc.1 hc.2, e.eff_eff]; rfl
    · rw [if_neg hc, firstVerse_eq h, if_neg (fun hh => hc ⟨hh.1, hh.2.1⟩)]; rfl

theorem firstVerse_orInvalid' {b : BibleBook} (hb : b ∈ e.data.bookOrder) (c : Option Int) :
    b.firstVerse e c (some (e.eff flags)) = orInvalid (firstOf e.data (e.eff flags).verse0 b c none) ∨
    b.firstVerse e c (some (e.eff flags)) = .error .invalidReference := by
  cases c with
  | none =>
    rw [firstVerse_none h, firstOf_book h hb, firstVerse_eq h, e.eff_eff]
    split
    · exact .inl rfl
    · exact .inr rfl
  | some c =>
    rw [firstOf_chap h hb, firstVerse_eq h, e.eff_eff]
    split
    · rename_i hc; rw [if_pos ⟨hc.1, hc.2.1⟩]; exact .inl rfl
    · exact .inr rfl

theorem lastVerse_orInvalid (v0 : Bool) {b : BibleBook} (hb : b ∈ e.data.bookOrder) (c : Option Int) :
    b.lastVerse e c = orInvalid (lastOf e.data v0 b c none) := by
  cases c with
  | none => rw [lastVerse_none h, lastOf_book h hb]; rfl
  | some c => rw [lastVerse_eq h, lastOf_chap h hb]; split <;> rfl

theorem new_orInvalid {b : BibleBook} (hb : b ∈ e.data.bookOrder) (c n : Int) :
    BibleVerse.new e b c n (some (e.eff flags)) = orInvalid (firstOf e.data (e.eff flags).verse0 b (some c) (some n)) := by
  rw [BibleVerse.new_eq h hb, e.eff_eff, firstOf_verse h]; split <;> rfl

theorem new_orInvalid' {b : BibleBook} (hb : b ∈ e.data.bookOrder) (c n : Int) :
    BibleVerse.new e b c n (some (e.eff flags)) = orInvalid (lastOf e.data (e.eff flags).verse0 b (some c) (some n)) := by
  rw [BibleVerse.new_eq h hb, e.eff_eff, lastOf_verse h]; split <;> rfl

/-- The start verse, if there is one, has the given numbers. -/
theorem argStart_some {v0 : Bool} {sb sc sv} {s : BibleVerse} (hS : sb ∈ e.data.bookOrder)
    (hs : argStart e.data v0 sb sc sv = some s) :
    Valid e.data v0 s ∧ s.book = sb ∧ s.chap = sc.getD 1 := by
  unfold argStart at hs
  split at hs
  · cases hs
  · cases sc with
    | none =>
      cases sv with
      | none =>
        rw [firstOf_book h hS] at hs
        cases hs
        have := h.nChaps_pos sb
        exact ⟨firstNum_valid h hS (by omega) (by omega), rfl, rfl⟩
      | some n => rename_i hh; exact absurd ⟨rfl, by simp⟩ hh
    | some c =>
      cases sv with
      | none =>
        rw [firstOf_chap h hS] at hs
        split at hs
        · cases hs; rename_i hc; exact ⟨firstNum_valid h hS hc.1 hc.2, rfl, rfl⟩
        · cases hs
      | some n =>
        rw [firstOf_verse h] at hs
        split at hs
        · cases hs; rename_i hc; exact ⟨hc, rfl, rfl⟩
        · cases hs

omit h in
theorem orInvalid_stage {A B : Option BibleVerse} {f : BibleFlag} {T : BibleVerse → Except PyErr BibleVerse}
    (hT : ∀ s, A = some s → T s = orInvalid B) :
    (match orInvalid A with
      | .error x => .error x
      | .ok s =>
        match T s with
        | .error x => .error x
        | .ok t => if f.multibook = false ∧ s.book ≠ t.book then .error .multibookRange else .ok ⟨s, t⟩ : Except PyErr BibleRange) =
      rangeFrom f A B := by
  cases A with
  | none => rfl
  | some s =>
    simp only [orInvalid, hT s rfl]
    cases B with
    | none => rfl
    | some t =>
      simp only [rangeFrom]
      cases hm : f.multibook <;> by_cases hb : s.book = t.book <;> simp [hb]

/-- The value of the constructor when the arguments are in order. -/
theorem ofArgs_value' {sb sc sv eb ec ev} (hS : sb ∈ e.data.bookOrder)
    (hE : ∀ b, eb = some b → b ∈ e.data.bookOrder) (hn : ¬ Reversed e.data sb sc sv eb ec ev) :
    ((sv = none → sb.firstVerse e sc (some (e.eff flags)) = orInvalid (firstOf e.data (e.eff flags).verse0 sb sc none)) →
      BibleRange.ofArgs e (some sb) sc sv eb ec ev flags = argRange e.data (e.eff flags) sb sc sv eb ec ev) ∧
    (BibleRange.ofArgs e (some sb) sc sv eb ec ev flags = argRange e.data (e.eff flags) sb sc sv eb ec ev ∨
      BibleRange.ofArgs e (some sb) sc sv eb ec ev flags = .error .invalidReference) := by
  rw [ofArgs_stages (compareBooks_ok hS hE) (swapArgs_keep h hS hE hn)]
  by_cases hbad : sc = none ∧ sv ≠ none
  · rw [if_pos hbad]
    have : argRange e.data (e.eff flags) sb sc sv eb ec ev = .error .invalidReference := by
      unfold argRange argStart; rw [if_pos hbad]; rfl
    rw [this]; simp
  rw [if_neg hbad]
  -- the end
  have hT : ∀ s, argStart e.data (e.eff flags).verse0 sb sc sv = some s →
      stopE e (e.eff flags) sb sc sv eb ec ev s =
        orInvalid (argStop e.data (e.eff flags).verse0 sb sc sv eb ec ev) := by
    intro s hs
    obtain ⟨_, hb, hc⟩ := argStart_some h hS hs
    cases eb with
    | none =>
      cases ec <;> cases ev <;> simp only [stopE, argStop, Option.getD_none]
      · cases sc with
        | none =>
          cases sv with
          | none => exact lastVerse_orInvalid h _ hS _
          | some n => exact absurd ⟨rfl, by simp⟩ hbad
        | some c =>
          cases sv with
          | none => exact lastVerse_orInvalid h _ hS _
          | some n =>
            rw [argStart, if_neg hbad, firstOf_verse h] at hs
            simp only
            rw [lastOf_verse h]
            split at hs
            · cases hs; rename_i hv; rw [if_pos hv]; rfl
            · cases hs
      · simp only [ne_eq, not_true_eq_false, if_false, if_true]; rw [hc]; exact new_orInvalid' h hS _ _
      · exact lastVerse_orInvalid h _ hS _
      · exact new_orInvalid' h hS _ _
    | some b =>
      cases ec <;> cases ev <;> simp only [stopE, argStop, Option.getD_some]
      · exact lastVerse_orInvalid h _ (hE _ rfl) _
      · by_cases hbb : b = sb
        · subst hbb
          simp only [ne_eq, not_true_eq_false, if_false, if_true]; rw [hc]; exact new_orInvalid' h (hE _ rfl) _ _
        · rw [if_pos (Ne.symm hbb), if_neg hbb]; rfl
      · exact lastVerse_orInvalid h _ (hE _ rfl) _
      · exact new_orInvalid' h (hE _ rfl) _ _
  -- the start
  have hA : argStart e.data (e.eff flags).verse0 sb sc sv = firstOf e.data (e.eff flags).verse0 sb sc sv := if_neg hbad
  have hS1 : (sv = none → sb.firstVerse e sc (some (e.eff flags)) =
      orInvalid (firstOf e.data (e.eff flags).verse0 sb sc none)) → startE e (e.eff flags) sb sc sv =
      orInvalid (argStart e.data (e.eff flags).verse0 sb sc sv) := by
    intro hg
    rw [hA]
    unfold startE
    cases sc with
    | none =>
      cases sv with
      | none => exact hg rfl
      | some n => exact absurd ⟨rfl, by simp⟩ hbad
    | some c =>
      cases sv with
      | none => exact hg rfl
      | some n => exact new_orInvalid h hS _ _
  have hS2 : startE e (e.eff flags) sb sc sv =
      orInvalid (argStart e.data (e.eff flags).verse0 sb sc sv) ∨ startE e (e.eff flags) sb sc sv = .error .invalidReference := by
    rw [hA]
    unfold startE
    cases sc with
    | none =>
      cases sv with
      | none => exact firstVerse_orInvalid' h hS _
      | some n => exact absurd ⟨rfl, by simp⟩ hbad
    | some c =>
      cases sv with
      | none => exact firstVerse_orInvalid' h hS _
      | some n => exact .inl (new_orInvalid h hS _ _)
  constructor
  · intro hg
    rw [hS1 hg]
    exact orInvalid_stage hT
  · rcases hS2 with hS | hS
    · left; rw [hS]; exact orInvalid_stage hT
    · right; rw [hS]

theorem ofArgs_value {sb sc sv eb ec ev} (hS : sb ∈ e.data.bookOrder)
    (hE : ∀ b, eb = some b → b ∈ e.data.bookOrder) (hn : ¬ Reversed e.data sb sc sv eb ec ev) :
    (((e.eff flags).verse0 = true → e.flags.verse0 = true) →
      BibleRange.ofArgs e (some sb) sc sv eb ec ev flags = argRange e.data (e.eff flags) sb sc sv eb ec ev) ∧
    (BibleRange.ofArgs e (some sb) sc sv eb ec ev flags = argRange e.data (e.eff flags) sb sc sv eb ec ev ∨
      BibleRange.ofArgs e (some sb) sc sv eb ec ev flags = .error .invalidReference) :=
  ⟨fun hg => (ofArgs_value' h hS hE hn).1 (fun _ => firstVerse_orInvalid h hg hS _), (ofArgs_value' h hS hE hn).2⟩

/-- The end verse, if there is one, exists. -/
theorem argStop_valid {v0 : Bool} {sb sc sv eb ec ev} {t : BibleVerse} (ht : argStop e.data v0 sb sc sv eb ec ev = some t) :
    Valid e.data v0 t := by
  have key : ∀ b c n, lastOf e.data v0 b c n = some t → Valid e.data v0 t := by
    intro b c n hh
    exact (mem_canon h).mp (List.mem_reverse.mp (List.mem_of_find?_eq_some hh))
  unfold argStop at ht
  split at ht
  · exact key _ _ _ ht
  · split at ht
    · exact key _ _ _ ht
    · cases ht
  · exact key _ _ _ ht

/-- Start and end are in order when the arguments are. -/
theorem argStart_le {v0 : Bool} {sb sc sv eb ec ev} (hS : sb ∈ e.data.bookOrder)
    (hE : ∀ b, eb = some b → b ∈ e.data.bookOrder) (hn : ¬ Reversed e.data sb sc sv eb ec ev) {s t : BibleVerse}
    (hs : argStart e.data v0 sb sc sv = some s) (ht : argStop e.data v0 sb sc sv eb ec ev = some t) :
    pos e.data s ≤ pos e.data t := by
  have hsv := (argStart_some h hS hs).1
  have htv := argStop_valid h ht
  have hlast : ∀ b c n, lastOf e.data v0 b c n = some t → Matches b c n s = true → pos e.data s ≤ pos e.data t := by
    intro b c n hh hm
    rcases find?_first (List.pairwise_reverse.mpr (h.pairwise_canon v0)) hh (List.mem_reverse.mpr ((mem_canon h).mpr hsv)) hm with
      rfl | hlt
    · exact Nat.le_refl _
    · rw [h.lt_pos hsv htv] at hlt; omega
  have hmt : ∀ b c n, lastOf e.data v0 b c n = some t → Matches b c n t = true := fun b c n hh => List.find?_some hh
  obtain ⟨-, hsb, hsc⟩ := argStart_some h hS hs
  have hsm : Matches sb sc sv s = true := by
    unfold argStart at hs
    split at hs
    · cases hs
    · exact List.find?_some hs
  -- comparison by components
  have hle : s.le e.data t = true → pos e.data s ≤ pos e.data t := (h.le_pos hsv htv).mp
  have hle' := h.le_iff s t
  have hself : s.book = sb → t.book = sb → (s.chap < t.chap ∨ (s.chap = t.chap ∧ s.verse ≤ t.verse)) → pos e.data s ≤ pos e.data t :=
    fun h1 h2 h3 => hle (hle'.mpr (.inr ⟨h1.trans h2.symm, h3⟩))
  -- the case of one book
  have same : (eb = none ∨ eb = some sb) → pos e.data s ≤ pos e.data t := by
    intro heb
    have hgb : eb.getD sb = sb := by rcases heb with rfl | rfl <;> rfl
    have hrev : ¬ ∃ c, sc = some c ∧ ((∃ c', ec = some c' ∧ c' < c) ∨
        ((ec = none ∨ ec = some c) ∧ ∃ n n', sv = some n ∧ ev = some n' ∧ n' < n)) := fun hh => hn (.inr ⟨heb, hh⟩)
    -- the start verse is the first one with its numbers
    have hfirst : ∀ x, Valid e.data v0 x → Matches sb sc sv x = true → pos e.data s ≤ pos e.data x := by
      intro x hx hm
      have hs' : (canon e.data v0).find? (Matches sb sc sv) = some s := by
        unfold argStart at hs
        split at hs
        · cases hs
        · exact hs
      rcases find?_first (h.pairwise_canon v0) hs' ((mem_canon h).mpr hx) hm with rfl | hlt
      · exact Nat.le_refl _
      · rw [h.lt_pos hsv hx] at hlt; omega
    obtain ⟨_, ms2, ms3⟩ := matches_iff.mp hsm
    have hsv' : sc = none → sv = none := by
      intro h1
      unfold argStart at hs
      split at hs
      · cases hs
      · rename_i hh; exact Classical.not_not.mp (fun h2 => hh ⟨h1, h2⟩)
    cases hec : ec with
    | none =>
      cases hev : ev with
      | none =>
        subst hec hev
        rcases heb with rfl | rfl
        · exact hlast _ _ _ ht hsm
        · exact hlast sb none none ht (by rw [matches_iff]; exact ⟨hsb, by simp, by simp⟩)
      | some n' =>
        subst hec hev
        have ht' : lastOf e.data v0 sb (some (sc.getD 1)) (some n') = some t := by
          unfold argStop at ht
          rcases heb with rfl | rfl <;> simpa using ht
        obtain ⟨mt1, mt2, mt3⟩ := matches_iff.mp (hmt _ _ _ ht')
        have mt2 := mt2 _ rfl
        have mt3 := mt3 _ rfl
        cases sv with
        | none =>
          cases sc with
          | none => exact hfirst t htv (by rw [matches_iff]; exact ⟨mt1, by simp, by simp⟩)
          | some c => exact hfirst t htv (by rw [matches_iff]; exact ⟨mt1, by simpa using mt2, by simp⟩)
        | some n =>
          cases sc with
          | none => cases hsv' rfl
          | some c =>
            have m3 := ms3 _ rfl
            refine hself hsb mt1 (.inr ⟨by rw [hsc, mt2], ?_⟩)
            apply Int.not_lt.mp
            intro hlt
            exact hrev ⟨c, rfl, .inr ⟨.inl rfl, n, n', rfl, rfl, by omega⟩⟩
    | some c' =>
      have ht' : lastOf e.data v0 sb (some c') ev = some t := by
        subst hec
        unfold argStop at ht
        rcases heb with rfl | rfl <;> cases ev <;> exact ht
      obtain ⟨mt1, mt2, mt3⟩ := matches_iff.mp (hmt _ _ _ ht')
      have mt2 := mt2 _ rfl
      cases sc with
      | none =>
        have := hsv' rfl
        subst this
        exact hfirst t htv (by rw [matches_iff]; exact ⟨mt1, by simp, by simp⟩)
      | some c =>
        have hcc : s.chap = c := hsc
        by_cases hlt : c < c'
        · exact hself hsb mt1 (.inl (by omega))
        · have hcc' : c' = c := by
            apply Classical.byContradiction
            intro hne
            exact hrev ⟨c, rfl, .inl ⟨c', hec, by omega⟩⟩
          subst hcc'
          cases ev with
          | none => exact hlast _ _ _ ht' (by rw [matches_iff]; exact ⟨hsb, by simpa using hcc, by simp⟩)
          | some n' =>
            cases sv with
            | none => exact hfirst t htv (by rw [matches_iff]; exact ⟨mt1, by simpa using mt2, by simp⟩)
            | some n =>
              have m3 := ms3 _ rfl
              have mt3 := mt3 _ rfl
              refine hself hsb mt1 (.inr ⟨by omega, ?_⟩)
              apply Int.not_lt.mp
              intro hlt
              exact hrev ⟨c', rfl, .inr ⟨.inr hec, n, n', rfl, rfl, by omega⟩⟩
  by_cases heb : eb = none ∨ eb = some sb
  · exact same heb
  · rw [not_or] at heb
    cases eb with
    | none => exact absurd rfl heb.1
    | some b =>
      have hbne : b ≠ sb := fun hh => heb.2 (by rw [hh])
      have hlt : ¬ e.data.bookOrder.idxOf b < e.data.bookOrder.idxOf sb := fun hh => hn (.inl ⟨b, rfl, hh⟩)
      have hne : bidx e.data b ≠ bidx e.data sb := fun hh => hbne (h.bidx_inj.mp hh)
      have htb : t.book = b := by
        unfold argStop at ht
        split at ht
        · simp at *
        · rw [Option.getD_some, if_neg hbne] at ht; cases ht
        · exact (matches_iff.mp (hmt _ _ _ ht)).1
      apply hle
      rw [hle', htb, hsb]
      left
      rw [bidx_of_mem hS, bidx_of_mem (hE b rfl)] at *
      omega
end

end Bibleref

import Verif.Props.Arguments
import Verif.Props.RangeArgs
import Verif.Lemmas.VerseMore
import Verif.Lemmas.Items

/-!
# Constructors with arguments of any type (C61)
-/

namespace Bibleref
open Spec

/-! ## Verses -/

theorem verse_bookArg {u : Uni} {d : BibleData} {x : PyVal} {b : BibleBook} (hx : BookArg (BibleBook.fromStr u d) x (some b)) :
    BibleVerse.bookArg u d x = .ok b := by
  cases hx with
  | book => rfl
  | name hb => simp only [BibleVerse.bookArg, hb]

theorem verse_bookArg_cases (u : Uni) (d : BibleData) (x : PyVal) :
    (∃ b, BookArg (BibleBook.fromStr u d) x (some b)) ∨
    (∃ s, x = .str s ∧ BibleBook.fromStr u d s = none ∧ BibleVerse.bookArg u d x = .error .invalidReference) ∨
    BibleVerse.bookArg u d x = .error .valueError := by
  cases x with
  | str s =>
    cases hs : BibleBook.fromStr u d s with
    | some b => exact .inl ⟨b, .name hs⟩
    | none => exact .inr (.inl ⟨s, rfl, hs, by simp only [BibleVerse.bookArg, hs]⟩)
  | book b => exact .inl ⟨b, .book b⟩
  | _ => exact .inr (.inr rfl)

/-- C61: `BibleVerse(book, chapter, verse)`, with a `BibleBook` or a name that is known, is that verse if it exists; otherwise
`InvalidReferenceError` is raised. -/
theorem C61_verse_value (u : Uni) (e : Env) (h : e.data.Full) (x : PyVal) (b : BibleBook) (c n : Int) (flags : Option BibleFlag)
    (st : PState) (hx : BookArg (BibleBook.fromStr u e.data) x (some b)) :
    (BibleVerse.ofValues u e [x, .int c, .int n] flags st).1 =
      if (⟨b, c, n⟩ : BibleVerse) ∈ canon e.data (inForce e flags).verse0 then .ok ⟨b, c, n⟩ else .error .invalidReference := by
  have hb := verse_bookArg hx
  have h0 : (BibleVerse.ofValues u e [x, .int c, .int n] flags st).1 = BibleVerse.new e b c n flags := by
    simp only [BibleVerse.ofValues, bind, PM.bind, PM.lift, hb]
  rw [h0]
  obtain ⟨h1, h2⟩ := C01_verse_constructor e h b c n flags
  split
  · rename_i hm; exact (h1 _).mpr ⟨rfl, ((C01_existing_verses _ _ b _).2.mp hm).2⟩
  · rename_i hm; exact (h2 _).mpr ⟨rfl, fun hx => hm ((C01_existing_verses _ _ b _).2.mpr ⟨h.listed b, hx⟩)⟩

/-- C61: whatever the arguments, `BibleVerse(...)` raises `BibleRefParsingError`, `InvalidReferenceError` or `ValueError`, or makes
a verse that exists or a copy of the verse it was given. -/
theorem C61_verse_outcome (u : Uni) (e : Env) (h : e.data.Full) (args : List PyVal) (flags : Option BibleFlag) (st : PState) :
    (∃ x, (BibleVerse.ofValues u e args flags st).1 = .error x ∧ (x = .parsing ∨ x = .invalidReference ∨ x = .valueError)) ∨
    ∃ v, (BibleVerse.ofValues u e args flags st).1 = .ok v ∧ (v ∈ canon e.data (inForce e flags).verse0 ∨ args = [.verse v]) := by
  unfold BibleVerse.ofValues
  split
  · rcases C45_verse u e h flags _ st with hx | hx | ⟨v, hv, hc⟩
    · exact .inl ⟨_, hx, .inl rfl⟩
    · exact .inl ⟨_, hx, .inr (.inl rfl)⟩
    · exact .inr ⟨v, hv, .inl hc⟩
  · exact .inr ⟨_, rfl, .inr rfl⟩
  · exact .inl ⟨_, rfl, .inr (.inr rfl)⟩
  · rename_i b c v
    rcases verse_bookArg_cases u e.data b with ⟨b', hb⟩ | ⟨_, _, _, hb⟩ | hb
    · simp only [bind, PM.bind, PM.lift, verse_bookArg hb]
      split
      · rename_i c n
        cases hn : BibleVerse.new e b' c n flags with
        | ok v => exact .inr ⟨v, rfl, .inl (by
            obtain ⟨rfl, hx⟩ := ((C01_verse_constructor e h b' c n flags).1 v).mp hn
            exact (C01_existing_verses _ _ b' _).2.mpr ⟨h.listed _, hx⟩)⟩
        | error x => exact .inl ⟨x, rfl, .inr (.inl (((C01_verse_constructor e h b' c n flags).2 x).mp hn).1)⟩
      · exact .inl ⟨_, rfl, .inr (.inr rfl)⟩
    · simp only [bind, PM.bind, PM.lift, hb]
      exact .inl ⟨_, rfl, .inr (.inl rfl)⟩
    · simp only [bind, PM.bind, PM.lift, hb]
      exact .inl ⟨_, rfl, .inr (.inr rfl)⟩
  · exact .inl ⟨_, rfl, .inr (.inr rfl)⟩

/-- The arguments that `BibleVerse(...)` is documented to take: a string, a verse, or a book (or its name) and two integers. -/
def VerseArgs : List PyVal → Prop
  | [.str _] | [.verse _] | [.str _, .int _, .int _] | [.book _, .int _, .int _] => True
  | _ => False

/-- C61: `BibleVerse(...)` raises `ValueError` only for arguments that are not as documented; and for those it raises `ValueError`,
unless the first is an unknown name. -/
theorem C61_verse_types (u : Uni) (e : Env) (h : e.data.Full) (args : List PyVal) (flags : Option BibleFlag) (st : PState) :
    (VerseArgs args → (BibleVerse.ofValues u e args flags st).1 ≠ .error .valueError) ∧
    (¬ VerseArgs args → (BibleVerse.ofValues u e args flags st).1 = .error .valueError ∨
      ∃ s c n, args = [.str s, c, n] ∧ BibleBook.fromStr u e.data s = none ∧
        (BibleVerse.ofValues u e args flags st).1 = .error .invalidReference) := by
  constructor
  · intro hv
    unfold VerseArgs at hv
    split at hv
    · rename_i s
      rcases C45_verse u e h flags s st with hx | hx | ⟨v, hx, hc⟩ <;> simp only [BibleVerse.ofValues, hx] <;> simp
    · simp only [BibleVerse.ofValues]; simp [pure]
    · rename_i s c n
      cases hs : BibleBook.fromStr u e.data s with
      | some b => rw [C61_verse_value u e h (.str s) b c n flags st (.name hs)]; split <;> simp
      | none => simp only [BibleVerse.ofValues, bind, PM.bind, PM.lift, BibleVerse.bookArg, hs]; simp
    · rename_i b c n
      have := C61_verse_value u e h (.book b) b c n flags st (.book b)
      rw [this]; split <;> simp
    · exact hv.elim
  · intro hv
    unfold BibleVerse.ofValues
    split
    · exact (hv trivial).elim
    · exact (hv trivial).elim
    · exact .inl rfl
    · rename_i b c v
      rcases verse_bookArg_cases u e.data b with ⟨b', hb⟩ | ⟨s, rfl, hs, hb⟩ | hb
      · simp only [bind, PM.bind, PM.lift, verse_bookArg hb]
        split
        · cases hb <;> exact (hv trivial).elim
        · exact .inl rfl
      · simp only [bind, PM.bind, PM.lift, hb]
        exact .inr ⟨s, c, v, rfl, hs, trivial⟩
      · simp only [bind, PM.bind, PM.lift, hb]
        exact .inl trivial
    · exact .inl rfl

/-! ## Ranges -/

theorem range_bookArg {u : Uni} {d : BibleData} {x : PyVal} {b : Option BibleBook} (hx : BookArg (BibleBook.fromStr u d) x b) :
    BibleRange.bookArg u d x = .ok b := by
  cases hx with
  | none => rfl
  | book => rfl
  | name hb => simp only [BibleRange.bookArg, hb]

theorem range_bookArg_cases (u : Uni) (d : BibleData) (x : PyVal) :
    (∃ b, BookArg (BibleBook.fromStr u d) x b) ∨ BibleRange.bookArg u d x = .error .invalidReference := by
  cases x with
  | none => exact .inl ⟨_, .none⟩
  | str s =>
    cases hs : BibleBook.fromStr u d s with
    | some b => exact .inl ⟨_, .name hs⟩
    | none => exact .inr (by simp only [BibleRange.bookArg, hs])
  | book b => exact .inl ⟨_, .book b⟩
  | _ => exact .inr rfl

theorem Spec.NumArg.number (ofStr : List Char → Option Int) (o : Option Int) : NumArg ofStr (number o) o := by
  cases o with
  | none => exact .none
  | some n => exact .int n

section
variable {ofStr : List Char → Option Int}

theorem Spec.NumArg.some_eq {x : PyVal} {n : Int} (hx : NumArg ofStr x (some n)) : x.toInt ofStr = .ok n ∧ x.isNone = false := by
  cases hx with
  | int => exact ⟨rfl, rfl⟩
  | str hn => exact ⟨by simp only [PyVal.toInt, hn], rfl⟩

theorem Spec.NumArg.of_none {x : PyVal} (hx : NumArg ofStr x Option.none) : x = .none := by cases hx; rfl

/-- A value is nothing, a number, or refused. -/
theorem numArg_cases (ofStr : List Char → Option Int) (x : PyVal) : x = .none ∨ (∃ n, NumArg ofStr x (some n)) ∨
    (x.isNone = false ∧ (∀ o, ¬ NumArg ofStr x o) ∧ ∃ y, x.toInt ofStr = .error y ∧ (y = .valueError ∨ y = .typeError)) := by
  cases x with
  | none => exact .inl rfl
  | int n => exact .inr (.inl ⟨n, .int n⟩)
  | str s =>
    cases hs : ofStr s with
    | some n => exact .inr (.inl ⟨n, .str hs⟩)
    | none =>
      refine .inr (.inr ⟨rfl, ?_, .valueError, by simp only [PyVal.toInt, hs], .inl rfl⟩)
      intro o ho; cases ho with | str hn => rw [hs] at hn; cases hn
  | _ => exact .inr (.inr ⟨rfl, (fun o ho => by cases ho), .typeError, rfl, .inr rfl⟩)

/-- The exceptions of the constructor with positional arguments. -/
def Refused (x : PyErr) : Prop := x = .invalidReference ∨ x = .multibookRange ∨ x = .valueError ∨ x = .typeError

theorem startValue_num (e : Env) (f : BibleFlag) (sb : BibleBook) {sc sv : PyVal} {sc' sv' : Option Int} (haveEnd : Bool)
    (hc : NumArg ofStr sc sc') (hv : NumArg ofStr sv sv') (hn : ¬ (sc' = none ∧ sv' ≠ none)) :
    BibleRange.startValue e ofStr f sb sc sv haveEnd = (do
      let s ← startE e f sb sc' sv'
      let t ← if haveEnd then pure s else stopE e f sb sc' sv' none none none s
      pure (s, t)) := by
  unfold BibleRange.startValue startE stopE
  cases sc' with
  | none =>
    cases sv' with
    | some _ => simp at hn
    | none => rw [hc.of_none, hv.of_none]; simp only [PyVal.isNone, if_true]
  | some c =>
    obtain ⟨h1, h2⟩ := hc.some_eq
    cases sv' with
    | none =>
      have h0 : PyVal.isNone .none = true := rfl
      rw [hv.of_none]; simp only [h1, h2, h0]; rfl
    | some n =>
      obtain ⟨h3, h4⟩ := hv.some_eq
      simp only [h1, h2, h3, h4]
      cases haveEnd <;> simp only [bind, Except.bind] <;> cases BibleVerse.new e sb c n (some f) <;> rfl

theorem stopValue_num (e : Env) (f : BibleFlag) (sb : BibleBook) (s : BibleVerse) (eb : Option BibleBook) {ec ev : PyVal}
    {sc' sv' ec' ev' : Option Int} (hc : NumArg ofStr ec ec') (hv : NumArg ofStr ev ev')
    (hn : (eb.isSome || ec'.isSome || ev'.isSome) = true) :
    BibleRange.stopValue e ofStr f sb s eb ec ev = stopE e f sb sc' sv' eb ec' ev' s := by
  unfold BibleRange.stopValue stopE
  cases ec' with
  | none =>
    rw [hc.of_none]
    cases ev' with
    | none =>
      rw [hv.of_none]
      cases eb with
      | none => simp at hn
      | some _ => simp [PyVal.isNone]
    | some n =>
      obtain ⟨h3, h4⟩ := hv.some_eq
      have h0 : PyVal.isNone .none = true := rfl
      cases eb <;> simp [h0, h3, h4, bind, Except.bind]
  | some c =>
    obtain ⟨h1, h2⟩ := hc.some_eq
    cases ev' with
    | none =>
      have h0 : PyVal.isNone .none = true := rfl
      rw [hv.of_none]; cases eb <;> simp [h0, h1, h2, bind, Except.bind]
    | some n =>
      obtain ⟨h3, h4⟩ := hv.some_eq
      cases eb <;> simp [h1, h2, h3, h4, bind, Except.bind]

theorem Spec.NumArg.isNone_eq {x : PyVal} {o : Option Int} (hx : NumArg ofStr x o) : x.isNone = !o.isSome := by
  cases hx <;> rfl

/-- With values that are numbers, the range is computed as from these numbers. -/
theorem endpoints_num (e : Env) (f : BibleFlag) (sb : BibleBook) {sc sv ec ev : PyVal} (eb : Option BibleBook)
    {sc' sv' ec' ev' : Option Int} (hsc : NumArg ofStr sc sc') (hsv : NumArg ofStr sv sv') (hec : NumArg ofStr ec ec')
    (hev : NumArg ofStr ev ev') :
    BibleRange.endpoints e ofStr f sb sc sv eb ec ev =
      if sc' = none ∧ sv' ≠ none then .error .invalidReference else
      match startE e f sb sc' sv' with
      | .error x => .error x
      | .ok s =>
        match stopE e f sb sc' sv' eb ec' ev' s with
        | .error x => .error x
        | .ok t => if f.multibook = false ∧ s.book ≠ t.book then .error .multibookRange else .ok ⟨s, t⟩ := by
  unfold BibleRange.endpoints
  rw [hsc.isNone_eq, hsv.isNone_eq, hec.isNone_eq, hev.isNone_eq]
  simp only [Bool.not_not]
  by_cases hn : sc' = none ∧ sv' ≠ none
  · rw [if_pos hn]
    obtain ⟨rfl, hv⟩ := hn
    cases sv' with
    | none => exact absurd rfl hv
    | some n => rfl
  · rw [if_neg hn, if_neg (by cases sc' <;> cases sv' <;> simp_all)]
    rw [startValue_num e f sb _ hsc hsv hn]
    cases startE e f sb sc' sv' with
    | error x => rfl
    | ok s =>
      simp only [bind, Except.bind]
      cases he : (eb.isSome || ec'.isSome || ev'.isSome) with
      | true =>
        simp only [if_true, pure, Except.pure]
        rw [stopValue_num e f sb s eb (sc' := sc') (sv' := sv') hec hev he]
        cases stopE e f sb sc' sv' eb ec' ev' s <;> rfl
      | false =>
        simp only [Bool.or_eq_false_iff, Option.isSome_eq_false_iff, Option.isNone_iff_eq_none] at he
        obtain ⟨⟨rfl, rfl⟩, rfl⟩ := he
        simp only [Bool.false_eq_true, if_false]
        cases stopE e f sb sc' sv' none none none s <;> rfl

end

section
variable {e : Env} (h : e.data.Full) {flags : Option BibleFlag}
include h

/-- A verse that exists, or `InvalidReferenceError`. -/
def Found (d : BibleData) (v0 : Bool) (x : Except PyErr BibleVerse) : Prop :=
  x = .error .invalidReference ∨ ∃ v, x = .ok v ∧ Valid d v0 v

theorem firstVerse_found (b : BibleBook) (c : Option Int) :
    Found e.data (e.eff flags).verse0 (b.firstVerse e c (some (e.eff flags))) := by
  have hsome : ∀ c, Found e.data (e.eff flags).verse0 (b.firstVerse e (some c) (some (e.eff flags))) := by
    intro c
    rw [firstVerse_eq h, Env.eff_eff]
    split
    · rename_i hc; exact .inr ⟨_, rfl, firstNum_valid h (h.listed b) hc.1 hc.2.1⟩
    · exact .inl rfl
  cases c with
  | none => rw [firstVerse_none h]; exact hsome 1
  | some c => exact hsome c

theorem lastVerse_found (b : BibleBook) (c : Option Int) : Found e.data (e.eff flags).verse0 (b.lastVerse e c) := by
  cases c with
  | none =>
    have hp := h.nChaps_pos b
    rw [lastVerse_none h]; exact .inr ⟨_, rfl, lastNum_valid h (h.listed b) (by omega) (by omega)⟩
  | some c =>
    rw [lastVerse_eq h]
    split
    · rename_i hc; exact .inr ⟨_, rfl, lastNum_valid h (h.listed b) hc.1 hc.2⟩
    · exact .inl rfl

theorem new_found (b : BibleBook) (c n : Int) :
    Found e.data (e.eff flags).verse0 (BibleVerse.new e b c n (some (e.eff flags))) := by
  rcases BibleVerse.new_cases h (h.listed b) c n (some (e.eff flags)) with ⟨h1, h2⟩ | ⟨h1, _⟩
  · rw [Env.eff_eff] at h2; exact .inr ⟨_, h1, h2⟩
  · exact .inl h1

theorem startE_found (sb : BibleBook) (sc sv : Option Int) :
    Found e.data (e.eff flags).verse0 (startE e (e.eff flags) sb sc sv) := by
  unfold startE
  split
  · exact firstVerse_found h _ _
  · exact firstVerse_found h _ _
  · exact new_found h _ _ _

theorem stopE_found (sb : BibleBook) (sc sv : Option Int) (eb : Option BibleBook) (ec ev : Option Int) {s : BibleVerse}
    (hs : Valid e.data (e.eff flags).verse0 s) :
    Found e.data (e.eff flags).verse0 (stopE e (e.eff flags) sb sc sv eb ec ev s) := by
  unfold stopE
  split
  · split
    · exact lastVerse_found h _ _
    · exact lastVerse_found h _ _
    · exact .inr ⟨s, rfl, hs⟩
  · exact lastVerse_found h _ _
  · exact lastVerse_found h _ _
  · split
    · exact .inl rfl
    · exact new_found h _ _ _
  · exact new_found h _ _ _

/-- The outcome of the constructor once the books are known and the arguments are rearranged. -/
theorem endpoints_cases (ofStr : List Char → Option Int) (sb : BibleBook) (sc sv : PyVal) (eb : Option BibleBook) (ec ev : PyVal) :
    (∃ x, BibleRange.endpoints e ofStr (e.eff flags) sb sc sv eb ec ev = .error x ∧ Refused x) ∨
    ∃ r, BibleRange.endpoints e ofStr (e.eff flags) sb sc sv eb ec ev = .ok r ∧
      Valid e.data (e.eff flags).verse0 r.start ∧ Valid e.data (e.eff flags).verse0 r.stop ∧
      ((e.eff flags).multibook = true ∨ r.start.book = r.stop.book) ∧
      ∀ x ∈ [sc, sv, ec, ev], ∃ o, NumArg ofStr x o := by
  have num : ∀ x, (∃ o, NumArg ofStr x o) ∨
      (x.isNone = false ∧ ∃ y, x.toInt ofStr = .error y ∧ (y = .valueError ∨ y = .typeError)) := by
    intro x
    rcases numArg_cases ofStr x with rfl | ⟨n, hn⟩ | ⟨h1, _, h2⟩
    · exact .inl ⟨_, .none⟩
    · exact .inl ⟨_, hn⟩
    · exact .inr ⟨h1, h2⟩
  have ref : ∀ y, (y = PyErr.valueError ∨ y = .typeError) → Refused y := fun y hy => .inr (.inr hy)
  have h0 : PyVal.isNone .none = true := rfl
  -- the start
  have bad_start : (∃ x, BibleRange.startValue e ofStr (e.eff flags) sb sc sv (eb.isSome || !ec.isNone || !ev.isNone) = .error x ∧
      Refused x) → ∃ x, BibleRange.endpoints e ofStr (e.eff flags) sb sc sv eb ec ev = .error x ∧ Refused x := by
    rintro ⟨x, hx, hr⟩
    unfold BibleRange.endpoints
    simp only [hx]
    by_cases hc : (sc.isNone && !sv.isNone) = true
    · rw [if_pos hc]; exact ⟨_, rfl, .inl rfl⟩
    · rw [if_neg hc]; exact ⟨_, rfl, hr⟩
  have bad_stop : ∀ {sc' sv'}, NumArg ofStr sc sc' → NumArg ofStr sv sv' → (eb.isSome || !ec.isNone || !ev.isNone) = true →
      (∀ s, ∃ x, BibleRange.stopValue e ofStr (e.eff flags) sb s eb ec ev = .error x ∧ Refused x) →
      ∃ x, BibleRange.endpoints e ofStr (e.eff flags) sb sc sv eb ec ev = .error x ∧ Refused x := by
    intro sc' sv' hc hv he hs
    by_cases hn : sc' = none ∧ sv' ≠ none
    · unfold BibleRange.endpoints
      obtain ⟨rfl, hv'⟩ := hn
      simp only [hc.isNone_eq, hv.isNone_eq]
      cases sv' with
      | none => exact absurd rfl hv'
      | some n => exact ⟨_, rfl, .inl rfl⟩
    · have := startValue_num e (e.eff flags) sb (eb.isSome || !ec.isNone || !ev.isNone) hc hv hn
      rw [he] at this
      rcases startE_found h (flags := flags) sb sc' sv' with hx | ⟨s, hx, _⟩ <;> rw [hx] at this
      · exact bad_start ⟨_, by rw [he]; exact this, .inl rfl⟩
      · obtain ⟨x, hx, hr⟩ := hs s
        unfold BibleRange.endpoints
        simp only [he, this]
        by_cases hc : (sc.isNone && !sv.isNone) = true
        · rw [if_pos hc]; exact ⟨_, rfl, .inl rfl⟩
        · rw [if_neg hc]
          simp only [bind, Except.bind, if_true, hx, pure, Except.pure]
          exact ⟨_, rfl, hr⟩
  rcases num sc with ⟨sc', hsc⟩ | ⟨n1, y, hy, hr⟩
  · rcases num sv with ⟨sv', hsv⟩ | ⟨n1, y, hy, hr⟩
    · rcases num ec with ⟨ec', hec⟩ | ⟨n1, y, hy, hr⟩
      · rcases num ev with ⟨ev', hev⟩ | ⟨n1, y, hy, hr⟩
        · rw [endpoints_num e (e.eff flags) sb eb hsc hsv hec hev]
          by_cases hn : sc' = none ∧ sv' ≠ none
          · rw [if_pos hn]; exact .inl ⟨_, rfl, .inl rfl⟩
          · rw [if_neg hn]
            rcases startE_found h (flags := flags) sb sc' sv' with hx | ⟨s, hx, hs⟩ <;> rw [hx]
            · exact .inl ⟨_, rfl, .inl rfl⟩
            · simp only
              rcases stopE_found h (flags := flags) sb sc' sv' eb ec' ev' hs with hx | ⟨t, hx, ht⟩ <;> rw [hx]
              · exact .inl ⟨_, rfl, .inl rfl⟩
              · simp only
                by_cases hb : (e.eff flags).multibook = false ∧ s.book ≠ t.book
                · rw [if_pos hb]; exact .inl ⟨_, rfl, .inr (.inl rfl)⟩
                · rw [if_neg hb]
                  refine .inr ⟨_, rfl, hs, ht, ?_, ?_⟩
                  · by_cases hm : (e.eff flags).multibook = true
                    · exact .inl hm
                    · exact .inr (Classical.not_not.mp fun hne => hb ⟨by simpa using hm, hne⟩)
                  · intro x hx
                    simp only [List.mem_cons, List.not_mem_nil, or_false] at hx
                    rcases hx with rfl | rfl | rfl | rfl
                    · exact ⟨_, hsc⟩
                    · exact ⟨_, hsv⟩
                    · exact ⟨_, hec⟩
                    · exact ⟨_, hev⟩
        · refine .inl (bad_stop hsc hsv (by simp [n1]) fun s => ?_)
          unfold BibleRange.stopValue
          simp only [n1, Bool.and_false, Bool.false_eq_true, if_false, hy]
          rw [hec.isNone_eq]
          cases ec' with
          | none =>
            by_cases hb : sb ≠ eb.getD sb
            · exact ⟨_, by simp only [Option.isSome_none, Bool.not_false, if_true]; rw [if_pos hb], .inl rfl⟩
            · exact ⟨_, by simp only [Option.isSome_none, Bool.not_false, if_true]; rw [if_neg hb]; rfl, ref _ hr⟩
          | some c => exact ⟨_, by rw [hec.some_eq.1]; rfl, ref _ hr⟩
      · refine .inl (bad_stop hsc hsv (by simp [n1]) fun s => ?_)
        unfold BibleRange.stopValue
        simp only [n1, Bool.false_and, Bool.false_eq_true, if_false, hy]
        by_cases hv : ev.isNone = true
        · rw [if_pos hv]; exact ⟨_, rfl, ref _ hr⟩
        · rw [if_neg hv]; exact ⟨_, rfl, ref _ hr⟩
    · by_cases hc : sc.isNone = true
      · refine .inl ⟨_, ?_, .inl rfl⟩
        unfold BibleRange.endpoints
        simp only [hc, n1]; rfl
      · refine .inl (bad_start ⟨y, ?_, ref _ hr⟩)
        unfold BibleRange.startValue
        rw [if_neg hc, n1, hy]
        cases sc' with
        | none => rw [hsc.of_none] at hc; exact absurd rfl hc
        | some c => rw [hsc.some_eq.1]; rfl
  · refine .inl (bad_start ⟨y, ?_, ref _ hr⟩)
    unfold BibleRange.startValue
    rw [n1, hy]
    cases sv.isNone <;> rfl
end

/-- The rearrangement once the books have been compared. -/
theorem swapValues_of {d : BibleData} {sb : BibleBook} {sc sv : PyVal} {eb : Option BibleBook} {ec ev : PyVal}
    (hc : BibleRange.compareBooks d sb eb = .ok ()) : BibleRange.swapValues d sb sc sv eb ec ev =
      match BibleRange.earlierT d sb eb with
      | some eb' => .ok (eb', ec, ev, some sb, sc, sv)
      | none =>
        if (eb = none ∨ eb = some sb) ∧ sc.isNone = false then do
          let swap ← (if ec.isNone then pure false else PyVal.gt d sc ec : Except PyErr Bool)
          if swap then return (sb, ec, ev, eb, sc, sv)
          else if ec.isNone || PyVal.eq ec sc then
            let (sv, ev) ← BibleRange.swapVerses d sv ev
            return (sb, sc, sv, eb, ec, ev)
          else return (sb, sc, sv, eb, ec, ev)
        else return (sb, sc, sv, eb, ec, ev) := by
  unfold BibleRange.swapValues
  rw [BibleRange.earlierBook_bind, hc]
  show (match BibleRange.earlierT d sb eb with | some eb' => _ | none => _) = _
  cases BibleRange.earlierT d sb eb <;> rfl

/-- Rearranging the arguments keeps them. -/
theorem swapValues_cases (d : BibleData) (sb : BibleBook) (sc sv : PyVal) (eb : Option BibleBook) (ec ev : PyVal) :
    BibleRange.swapValues d sb sc sv eb ec ev = .error .typeError ∨
    ∃ sb' sc' sv' eb' ec' ev', BibleRange.swapValues d sb sc sv eb ec ev = .ok (sb', sc', sv', eb', ec', ev') ∧
      ∀ x ∈ [sc, sv, ec, ev], x ∈ [sc', sv', ec', ev'] := by
  have hgt : ∀ a b, PyVal.gt d a b = .error .typeError ∨ ∃ c, PyVal.gt d a b = .ok c := by
    intro a b; unfold PyVal.gt
    split <;> first
      | exact .inr ⟨_, rfl⟩
      | exact .inl rfl
      | exact BibleBook.less_result _ _ _
      | exact BibleVerse.less_result _ _ _
      | exact BibleRange.less_result _ _ _
  rcases BibleRange.compareBooks_result d sb eb with hcb | hcb
  · refine .inl ?_
    unfold BibleRange.swapValues
    rw [BibleRange.earlierBook_bind, hcb]; rfl
  rw [swapValues_of hcb]
  cases BibleRange.earlierT d sb eb with
  | some b => exact .inr ⟨_, _, _, _, _, _, rfl, by simp⟩
  | none =>
    simp only
    by_cases hc : (eb = none ∨ eb = some sb) ∧ sc.isNone = false
    · rw [if_pos hc]
      have hv : BibleRange.swapVerses d sv ev = .error .typeError ∨ BibleRange.swapVerses d sv ev = .ok (sv, ev) ∨
          BibleRange.swapVerses d sv ev = .ok (ev, sv) := by
        unfold BibleRange.swapVerses
        by_cases hn : (sv.isNone || ev.isNone) = true
        · rw [if_pos hn]; exact .inr (.inl rfl)
        · rw [if_neg hn]
          rcases hgt sv ev with hg | ⟨c, hg⟩ <;> rw [hg]
          · exact .inl rfl
          · cases c
            · exact .inr (.inl rfl)
            · exact .inr (.inr rfl)
      have hs : (if ec.isNone then pure false else PyVal.gt d sc ec : Except PyErr Bool) = .error .typeError ∨
          ∃ c, (if ec.isNone then pure false else PyVal.gt d sc ec : Except PyErr Bool) = .ok c := by
        by_cases hn : ec.isNone = true
        · rw [if_pos hn]; exact .inr ⟨_, rfl⟩
        · rw [if_neg hn]; exact hgt sc ec
      rcases hs with hs | ⟨c, hs⟩ <;> rw [hs]
      · exact .inl rfl
      · simp only [bind, Except.bind]
        cases c with
        | true => exact .inr ⟨_, _, _, _, _, _, rfl, by simp⟩
        | false =>
          by_cases hq : (ec.isNone || PyVal.eq ec sc) = true
          · simp only [Bool.false_eq_true, if_false]
            rw [if_pos hq]
            rcases hv with hv | hv | hv <;> rw [hv]
            · exact .inl rfl
            · exact .inr ⟨_, _, _, _, _, _, rfl, by simp⟩
            · exact .inr ⟨_, _, _, _, _, _, rfl, by simp⟩
          · simp only [Bool.false_eq_true, if_false]
            rw [if_neg hq]
            exact .inr ⟨_, _, _, _, _, _, rfl, by simp⟩
    · rw [if_neg hc]; exact .inr ⟨_, _, _, _, _, _, rfl, by simp⟩

theorem ofPositional_cases (u : Uni) (e : Env) (h : e.data.Full) (ofStr : List Char → Option Int) (sb sc sv eb ec ev : PyVal)
    (flags : Option BibleFlag) :
    (∃ x, BibleRange.ofPositional u e ofStr sb sc sv eb ec ev flags = .error x ∧ Refused x) ∨
    ∃ r, BibleRange.ofPositional u e ofStr sb sc sv eb ec ev flags = .ok r ∧
      Valid e.data (e.eff flags).verse0 r.start ∧ Valid e.data (e.eff flags).verse0 r.stop ∧
      ((e.eff flags).multibook = true ∨ r.start.book = r.stop.book) ∧
      (∃ b, BookArg (BibleBook.fromStr u e.data) sb (some b)) ∧ (∃ b, BookArg (BibleBook.fromStr u e.data) eb b) ∧
      ∀ x ∈ [sc, sv, ec, ev], ∃ o, NumArg ofStr x o := by
  unfold BibleRange.ofPositional
  rcases range_bookArg_cases u e.data sb with ⟨b, hb⟩ | hb
  · rw [range_bookArg hb]
    rcases range_bookArg_cases u e.data eb with ⟨b', hb'⟩ | hb'
    · rw [range_bookArg hb']
      simp only [bind, Except.bind]
      cases b with
      | none => exact .inl ⟨_, rfl, .inl rfl⟩
      | some b =>
        simp only
        rcases swapValues_cases e.data b sc sv b' ec ev with hx | ⟨sb', sc', sv', eb', ec', ev', hx, hm⟩
        · rw [hx]; exact .inl ⟨_, rfl, .inr (.inr (.inr rfl))⟩
        · rw [hx]
          rcases endpoints_cases h (flags := flags) ofStr sb' sc' sv' eb' ec' ev' with ⟨x, hx, hr⟩ | ⟨r, hx, h1, h2, h3, h4⟩
          · exact .inl ⟨x, hx, hr⟩
          · exact .inr ⟨r, hx, h1, h2, h3, ⟨b, hb⟩, ⟨b', hb'⟩, fun x hx => h4 x (hm x hx)⟩
    · rw [hb']; exact .inl ⟨_, rfl, .inl rfl⟩
  · rw [hb]; exact .inl ⟨_, rfl, .inl rfl⟩

/-- The arguments as numbers are rearranged like the numbers. -/
theorem swapValues_number (d : BibleData) (sb : BibleBook) (sc sv : Option Int) (eb : Option BibleBook) (ec ev : Option Int)
    (hc : BibleRange.compareBooks d sb eb = .ok ()) :
    BibleRange.swapValues d sb (number sc) (number sv) eb (number ec) (number ev) =
      match BibleRange.swapArgs (BibleRange.earlierT d sb eb) sb sc sv eb ec ev with
      | (sb, sc, sv, eb, ec, ev) => .ok (sb, number sc, number sv, eb, number ec, number ev) := by
  rw [swapValues_of hc]
  unfold BibleRange.swapArgs
  cases BibleRange.earlierT d sb eb with
  | some b => rfl
  | none =>
    simp only
    by_cases hb : eb = none ∨ eb = some sb
    · rw [if_pos hb]
      cases sc with
      | none => rw [if_neg (by rintro ⟨_, hn⟩; cases hn)]; rfl
      | some c =>
        rw [if_pos ⟨hb, rfl⟩]
        have hv : BibleRange.swapVerses d (number sv) (number ev) = .ok (match sv, ev with
            | some sv', some ev' => if sv' > ev' then (number ev, number sv) else (number sv, number ev)
            | _, _ => (number sv, number ev)) := by
          cases sv with
          | none => cases ev <;> rfl
          | some n =>
            cases ev with
            | none => rfl
            | some m =>
              simp only [BibleRange.swapVerses, number, PyVal.isNone, PyVal.gt, bind, Except.bind, pure, Except.pure]
              by_cases hn : n > m
              · simp [hn]
              · simp [hn]
        cases ec with
        | none =>
          simp only [number, PyVal.isNone, if_true, bind, Except.bind, pure, Except.pure, Bool.true_or, Bool.false_eq_true,
            if_false] at hv ⊢
          rw [hv]
          cases sv <;> cases ev <;> simp only <;> (try split) <;> rfl
        | some c' =>
          simp only [number, PyVal.isNone, PyVal.gt, PyVal.eq, Bool.false_eq_true, if_false, bind, Except.bind, pure, Except.pure,
            Bool.false_or, decide_eq_true_eq] at hv ⊢
          by_cases hc : c > c'
          · rw [if_pos hc, if_pos hc]
          · rw [if_neg hc, if_neg hc]
            by_cases hc' : c' = c
            · rw [if_pos hc', if_pos hc', hv]
              cases sv <;> cases ev <;> simp only <;> (try split) <;> rfl
            · rw [if_neg hc', if_neg hc']
    · rw [if_neg hb, if_neg (fun hn => hb hn.1)]; rfl

/-- With numbers, the constructor does what `BibleRange.ofArgs` describes. -/
theorem ofPositional_number (u : Uni) (e : Env) (h : e.data.Full) (ofStr : List Char → Option Int) {sb eb : PyVal}
    {b b' : Option BibleBook} (hb : BookArg (BibleBook.fromStr u e.data) sb b) (hb' : BookArg (BibleBook.fromStr u e.data) eb b')
    (sc sv ec ev : Option Int) (flags : Option BibleFlag) :
    BibleRange.ofPositional u e ofStr sb (number sc) (number sv) eb (number ec) (number ev) flags =
      BibleRange.ofArgs e b sc sv b' ec ev flags := by
  unfold BibleRange.ofPositional
  rw [range_bookArg hb, range_bookArg hb']
  simp only [bind, Except.bind]
  cases b with
  | none => rfl
  | some b =>
    simp only
    rw [swapValues_number _ _ _ _ _ _ _ (compareBooks_ok (h.listed _) (fun b _ => h.listed b))]
    obtain ⟨sb₁, sc₁, sv₁, eb₁, ec₁, ev₁, heq⟩ : ∃ sb₁ sc₁ sv₁ eb₁ ec₁ ev₁,
      BibleRange.swapArgs (BibleRange.earlierT e.data b b') b sc sv b' ec ev = (sb₁, sc₁, sv₁, eb₁, ec₁, ev₁) := ⟨_, _, _, _, _, _, rfl⟩
    have hidem : BibleRange.swapArgs (BibleRange.earlierT e.data sb₁ eb₁) sb₁ sc₁ sv₁ eb₁ ec₁ ev₁ = (sb₁, sc₁, sv₁, eb₁, ec₁, ev₁) := by
      by_cases hn : Reversed e.data b sc sv b' ec ev
      · have key : ¬ Reversed e.data sb₁ sc₁ sv₁ eb₁ ec₁ ev₁ := by
          rcases hn with ⟨b₂, rfl, hh⟩ | ⟨heb, c, rfl, ⟨c', rfl, hh⟩ | ⟨hec, n, n', rfl, rfl, hh⟩⟩
          · rw [swapArgs_book h (h.listed _) (h.listed _) _ _ _ _ hh] at heq
            cases heq
            exact not_reversed_book _ _ _ _ hh
          · rw [swapArgs_same h heb] at heq
            simp only at heq
            rw [if_pos hh] at heq
            cases heq
            exact ((C13_reversed e h flags b (h.listed b) none sv none ev).2.1 b' heb c c' hh).1
          · rw [swapArgs_same h heb] at heq
            simp only at heq
            have : (b, some c, some n', b', ec, some n) = (sb₁, sc₁, sv₁, eb₁, ec₁, ev₁) := by
              rcases hec with rfl | rfl
              · simp only at heq; rw [if_pos hh] at heq; exact heq
              · simp only at heq; rw [if_neg (by omega), if_pos trivial, if_pos hh] at heq; exact heq
            cases this
            exact ((C13_reversed e h flags b (h.listed b) none none ec none).2.2 b' heb c n n' hh hec).1
        exact swapArgs_keep h (h.listed _) (fun b _ => h.listed b) key
      · rw [swapArgs_keep h (h.listed _) (fun b _ => h.listed b) hn] at heq
        cases heq
        exact swapArgs_keep h (h.listed _) (fun b _ => h.listed b) hn
    rw [heq]
    simp only
    rw [endpoints_num e (e.eff flags) sb₁ eb₁ (.number ofStr sc₁) (.number ofStr sv₁) (.number ofStr ec₁) (.number ofStr ev₁)]
    have hst := ofArgs_stages (flags := flags) (compareBooks_ok (h.listed _) (fun b _ => h.listed b)) hidem
    have hof : BibleRange.ofArgs e (some b) sc sv b' ec ev flags = BibleRange.ofArgs e (some sb₁) sc₁ sv₁ eb₁ ec₁ ev₁ flags := by
      unfold BibleRange.ofArgs
      simp only [BibleRange.earlierBook_bind, compareBooks_ok (h.listed _) (fun b _ => h.listed b), heq, hidem]
    rw [hof, hst]
    split
    · rfl
    · cases startE e (e.eff flags) sb₁ sc₁ sv₁ with
      | error x => rfl
      | ok s => cases stopE e (e.eff flags) sb₁ sc₁ sv₁ eb₁ ec₁ ev₁ s <;> rfl

/-- C61: whatever the positional arguments, `BibleRange(...)` raises one of five exceptions, or makes a range of verses that exist,
in one book unless `MULTIBOOK` is in force, or a copy of the range it was given. Missing: that the range is in reading order, which
is false if numbers are given as strings, see `C61_range_counterexample`. -/
theorem C61_range_outcome_partial (u : Uni) (e : Env) (h : e.data.Full) (ofStr : List Char → Option Int) (args : List PyVal)
    (start stop : PyVal) (flags : Option BibleFlag) (st : PState) (hne : args ≠ []) :
    (∃ x, (BibleRange.ofValues u e ofStr args start stop flags st).1 = .error x ∧
      (x = .parsing ∨ x = .invalidReference ∨ x = .multibookRange ∨ x = .valueError ∨ x = .typeError)) ∨
    ∃ s t, (BibleRange.ofValues u e ofStr args start stop flags st).1 = .ok (.verse s, .verse t) ∧
      (args = [.range ⟨s, t⟩] ∨ s ∈ canon e.data (inForce e flags).verse0 ∧ t ∈ canon e.data (inForce e flags).verse0 ∧
        ((inForce e flags).multibook = true ∨ s.book = t.book)) := by
  have pos : ∀ a b c d g i, (∃ x, ((BibleRange.ofPositional u e ofStr a b c d g i flags).map BibleRange.attrs) = .error x ∧
      (x = .parsing ∨ x = .invalidReference ∨ x = .multibookRange ∨ x = .valueError ∨ x = .typeError)) ∨
      ∃ s t, ((BibleRange.ofPositional u e ofStr a b c d g i flags).map BibleRange.attrs) = .ok (.verse s, .verse t) ∧
      (args = [.range ⟨s, t⟩] ∨ s ∈ canon e.data (inForce e flags).verse0 ∧ t ∈ canon e.data (inForce e flags).verse0 ∧
        ((inForce e flags).multibook = true ∨ s.book = t.book)) := by
    intro a b c d g i
    rcases ofPositional_cases u e h ofStr a b c d g i flags with ⟨x, hx, hr⟩ | ⟨r, hx, h1, h2, h3, _⟩ <;> rw [hx]
    · exact .inl ⟨x, rfl, .inr hr⟩
    · refine .inr ⟨r.start, r.stop, rfl, .inr ?_⟩
      rw [← eff_eq, mem_canon h, mem_canon h]
      exact ⟨h1, h2, h3⟩
  unfold BibleRange.ofValues
  split
  · exact absurd rfl hne
  · rename_i s
    simp only [bind, PM.bind]
    rcases C45_range u e h flags s st with hx | hx | ⟨r, hx, hr⟩
    · exact .inl ⟨_, by rw [← Prod.eta (BibleRange.ofStr u e flags s st), hx], .inl rfl⟩
    · exact .inl ⟨_, by rw [← Prod.eta (BibleRange.ofStr u e flags s st), hx], .inr (.inl rfl)⟩
    · refine .inr ⟨r.start, r.stop, by rw [← Prod.eta (BibleRange.ofStr u e flags s st), hx]; rfl, .inr ⟨hr.ok.start_mem, hr.ok.stop_mem, hr.2⟩⟩
  · exact .inr ⟨_, _, rfl, .inl rfl⟩
  · exact pos _ _ _ _ _ _
  · exact .inl ⟨_, rfl, .inr (.inr (.inr (.inl rfl)))⟩
  · split
    · exact .inl ⟨_, rfl, .inr (.inr (.inr (.inl rfl)))⟩
    · exact pos _ _ _ _ _ _

/-- C61: a range is made from two to six positional arguments only if the first is a `BibleBook` or a known name, the fourth is
that or `None`, and the others are each `None`, an integer, or a string that `int` accepts. -/
theorem C61_range_types (u : Uni) (e : Env) (h : e.data.Full) (ofStr : List Char → Option Int) (args : List PyVal)
    (start stop : PyVal) (flags : Option BibleFlag) (st : PState) (hlen : 2 ≤ args.length) (res : PyVal × PyVal)
    (hres : (BibleRange.ofValues u e ofStr args start stop flags st).1 = .ok res) :
    args.length ≤ 6 ∧ (∃ b, BookArg (BibleBook.fromStr u e.data) (args.getD 0 .none) (some b)) ∧
    (∃ b, BookArg (BibleBook.fromStr u e.data) (args.getD 3 .none) b) ∧
    ∀ i ∈ [1, 2, 4, 5], ∃ o, NumArg ofStr (args.getD i .none) o := by
  unfold BibleRange.ofValues at hres
  split at hres
  · simp at hlen
  · simp at hlen
  · simp at hlen
  · simp at hlen
  · simp at hlen
  · split at hres
    · cases hres
    · rename_i hl
      simp only [PM.lift] at hres
      rcases ofPositional_cases u e h ofStr (args.getD 0 .none) (args.getD 1 .none) (args.getD 2 .none) (args.getD 3 .none)
        (args.getD 4 .none) (args.getD 5 .none) flags with ⟨x, hx, _⟩ | ⟨r, hx, _, _, _, h1, h2, h3⟩
      · rw [hx] at hres; cases hres
      · refine ⟨by omega, h1, h2, fun i hi => h3 _ ?_⟩
        simp only [List.mem_cons, List.not_mem_nil, or_false] at hi ⊢
        rcases hi with rfl | rfl | rfl | rfl <;> simp

theorem ofValues_many (u : Uni) (e : Env) (ofStr : List Char → Option Int) (args : List PyVal) (start stop : PyVal)
    (flags : Option BibleFlag) (hlen : 2 ≤ args.length ∧ args.length ≤ 6) :
    BibleRange.ofValues u e ofStr args start stop flags = PM.lift ((BibleRange.ofPositional u e ofStr (args.getD 0 .none)
      (args.getD 1 .none) (args.getD 2 .none) (args.getD 3 .none) (args.getD 4 .none) (args.getD 5 .none) flags).map
        BibleRange.attrs) := by
  unfold BibleRange.ofValues
  split
  · simp at hlen
  · simp at hlen
  · simp at hlen
  · simp at hlen
  · simp at hlen
  · rw [if_neg (by omega)]

/-- C61: positional arguments that are left out count as `None`. -/
theorem C61_range_omitted (u : Uni) (e : Env) (ofStr : List Char → Option Int) (args : List PyVal)
    (start stop : PyVal) (flags : Option BibleFlag) (hlen : (2 ≤ args.length ∧ args.length ≤ 6) ∨ ∃ b, args = [.book b]) :
    BibleRange.ofValues u e ofStr args start stop flags =
      BibleRange.ofValues u e ofStr (args ++ List.replicate (6 - args.length) .none) start stop flags := by
  match args, hlen with
  | [], h => simp at h
  | [x], h =>
    rcases h with h | ⟨b, h⟩
    · simp at h
    · cases h; rfl
  | _ :: _ :: l, h =>
    have hl : l.length ≤ 4 := by simpa using h
    rw [ofValues_many u e ofStr _ start stop flags (by simpa using hl),
      ofValues_many u e ofStr _ start stop flags (by simp; omega)]
    match l, hl with
    | [], _ => rfl
    | [_], _ => rfl
    | [_, _], _ => rfl
    | [_, _, _], _ => rfl
    | [_, _, _, _], _ => rfl

/-- C61: books given by name count like the books; with integers or `None` for chapters and verses, in order, the range is the one
that C13 describes, or the exception. Missing: as in C13. -/
theorem C61_range_value_partial (u : Uni) (e : Env) (h : e.data.Full) (ofStr : List Char → Option Int) (flags : Option BibleFlag)
    (hg : (inForce e flags).verse0 = true → e.flags.verse0 = true) (x y : PyVal) (sb : BibleBook) (eb : Option BibleBook)
    (sc sv ec ev : Option Int) (start stop : PyVal) (st : PState) (hx : BookArg (BibleBook.fromStr u e.data) x (some sb))
    (hy : BookArg (BibleBook.fromStr u e.data) y eb) (hn : ¬ Reversed e.data sb sc sv eb ec ev) :
    (BibleRange.ofValues u e ofStr [x, number sc, number sv, y, number ec, number ev] start stop flags st).1 =
      (argRange e.data (inForce e flags) sb sc sv eb ec ev).map fun r => (.verse r.start, .verse r.stop) := by
  rw [← C13_value_partial e h flags hg sb (h.listed sb) sc sv eb (fun b _ => h.listed b) ec ev hn, ← ofPositional_number u e h ofStr hx hy,
    ofValues_many u e ofStr _ start stop flags (by simp)]
  rfl

/-- C61: with integers or `None` for chapters and verses, in any order, a range that is made is in reading order. -/
theorem C61_range_order (u : Uni) (e : Env) (h : e.data.Full) (ofStr : List Char → Option Int) (flags : Option BibleFlag)
    (x y : PyVal) (sc sv ec ev : Option Int) (start stop : PyVal) (st : PState) (res : PyVal × PyVal)
    (hres : (BibleRange.ofValues u e ofStr [x, number sc, number sv, y, number ec, number ev] start stop flags st).1 = .ok res) :
    ∃ r, res = (.verse r.start, .verse r.stop) ∧ Allowed e.data (inForce e flags) r := by
  have hres' : (BibleRange.ofPositional u e ofStr x (number sc) (number sv) y (number ec) (number ev) flags).map
      BibleRange.attrs = .ok res := by
    rw [ofValues_many u e ofStr _ start stop flags (by simp)] at hres; exact hres
  rcases range_bookArg_cases u e.data x with ⟨b, hb⟩ | hb
  · rcases range_bookArg_cases u e.data y with ⟨b', hb'⟩ | hb'
    · rw [ofPositional_number u e h ofStr hb hb'] at hres'
      rcases C13_sound e h flags b b' (fun b _ => h.listed b) (fun b _ => h.listed b) sc sv ec ev with hx | hx | ⟨r, hx, hr⟩ <;> rw [hx] at hres'
      · cases hres'
      · cases hres'
      · cases hres'; exact ⟨r, rfl, hr⟩
    · unfold BibleRange.ofPositional at hres'
      rw [range_bookArg hb, hb'] at hres'; cases hres'
  · unfold BibleRange.ofPositional at hres'
    rw [hb] at hres'; cases hres'

/-- C61: `BibleRange(start=..., end=...)` with two verses that exist is the range between them, whichever comes first. -/
theorem C61_range_start_end (u : Uni) (e : Env) (h : e.data.WF) (ofStr : List Char → Option Int) (v w : BibleVerse)
    (hv : v ∈ canon e.data true) (hw : w ∈ canon e.data true) (flags : Option BibleFlag) (st : PState) :
    (BibleRange.ofValues u e ofStr [] (.verse v) (.verse w) flags st).1 =
      if (inForce e flags).multibook = true ∨ v.book = w.book then
        .ok (if pos e.data v ≤ pos e.data w then (.verse v, .verse w) else (.verse w, .verse v))
      else .error .multibookRange := by
  have h0 : (BibleRange.ofValues u e ofStr [] (.verse v) (.verse w) flags st).1 =
      (BibleRange.new e (some v) (some w) flags).map BibleRange.attrs := by
    have hc := comparable_listed ((mem_canon h).mp hv) ((mem_canon h).mp hw)
    simp only [BibleRange.ofValues, PM.lift, BibleRange.ofStartEnd, new_comparable hc, PyVal.gt,
      BibleVerse.less_eq (by rw [BibleVerse.comparable_comm]; exact hc)]
    cases (e.eff flags).multibook
    · by_cases hb : v.book = w.book
      · simp only [hb, ne_eq, not_true_eq_false, and_false, if_true, if_false, bind, Except.bind, pure, Except.pure]
        cases w.lt e.data v <;> rfl
      · simp only [ne_eq, hb, not_false_eq_true, and_self, if_true, bind, Except.bind]; rfl
    · simp only [Bool.true_eq_false, false_and, if_false, bind, Except.bind, pure, Except.pure]
      cases w.lt e.data v <;> rfl
  rw [h0, C12_range_constructor e h v w hv hw]
  split
  · split <;> rfl
  · rfl

theorem strLt_iff (a b : List Char) : PyVal.strLt a b = true ↔ a.map Char.toNat < b.map Char.toNat := by
  induction a generalizing b with
  | nil => cases b with
    | nil => simp [PyVal.strLt]
    | cons y b => simp [PyVal.strLt]
  | cons x a ih => cases b with
    | nil => simp [PyVal.strLt]
    | cons y b =>
      simp only [PyVal.strLt, List.map_cons, List.cons_lt_cons_iff]
      by_cases hxy : x = y
      · subst hxy; rw [if_pos rfl, ih]; simp
      · rw [if_neg hxy]
        have : x.toNat ≠ y.toNat := fun hh => hxy (Char.toNat_inj.mp hh)
        simp [this]

theorem gt_inOrder {d : BibleData} (h : d.Full) {x y : PyVal} (hx : Existing d x) (hy : Existing d y) :
    PyVal.gt d x y = match inOrder d x y with
      | some b => .ok (!b)
      | none => .error .typeError := by
  cases x <;> cases y <;> simp only [PyVal.gt, inOrder]
  case int.int a b => congr 1; rw [Bool.eq_iff_iff]; simp
  case str.str a b => congr 1; rw [Bool.eq_iff_iff, strLt_iff]; simp
  case book.book a b =>
    rw [BibleBook.less_eq (book_comparable.mpr ⟨h.listed b, h.listed a⟩)]
    congr 1; rw [Bool.eq_iff_iff, h.book_lt, bidx_of_mem (h.listed a), bidx_of_mem (h.listed b)]; simp
  case verse.verse a b =>
    rw [BibleVerse.less_eq (comparable_listed ((mem_canon h).mp hy) ((mem_canon h).mp hx))]
    congr 1; rw [Bool.eq_iff_iff, h.lt_pos ((mem_canon h).mp hy) ((mem_canon h).mp hx)]; simp
  case range.range a b =>
    have hx' := (rangeOK_iff h).mp hx
    have hy' := (rangeOK_iff h).mp hy
    rw [BibleRange.less_eq (hy'.alike hx')]
    congr 1; rw [Bool.eq_iff_iff, h.range_lt ((rangeOK_iff h).mp hy) ((rangeOK_iff h).mp hx)]
    simp only [Bool.not_eq_true', decide_eq_false_iff_not]; omega

/-- C61: `BibleRange(start=x, end=y)` does not check types. Without `MULTIBOOK` it raises `AttributeError` unless both are verses.
With `MULTIBOOK` it accepts any two values that can be compared, in order, and raises `TypeError` for others. -/
theorem C61_range_start_end_types (u : Uni) (e : Env) (h : e.data.Full) (ofStr : List Char → Option Int) (x y : PyVal)
    (hx : Existing e.data x) (hy : Existing e.data y) (flags : Option BibleFlag) (st : PState) :
    ((inForce e flags).multibook = false → (∀ v w, ¬ (x = .verse v ∧ y = .verse w)) →
      (BibleRange.ofValues u e ofStr [] x y flags st).1 = .error .attributeError) ∧
    ((inForce e flags).multibook = true → (BibleRange.ofValues u e ofStr [] x y flags st).1 =
      match inOrder e.data x y with
      | some true => .ok (x, y)
      | some false => .ok (y, x)
      | none => .error .typeError) := by
  rw [← eff_eq]
  simp only [BibleRange.ofValues, PM.lift, BibleRange.ofStartEnd]
  constructor
  · intro hm hn
    rw [if_pos hm]
    cases x <;> cases y <;> first | rfl | exact absurd ⟨rfl, rfl⟩ (hn _ _)
  · intro hm
    rw [if_neg (by rw [hm]; simp), gt_inOrder h hx hy]
    rcases inOrder e.data x y with _ | _ | _ <;> rfl

example : inOrder defaultData (.book .Mark) (.book .Matt) = some false ∧ inOrder defaultData (.int 3) (.int 3) = some true ∧
    inOrder defaultData (.str ['9']) (.str ['1', '0']) = some false ∧ inOrder defaultData (.int 3) (.book .Matt) = none ∧
    Existing defaultData (.book .Mark) := by
  refine ⟨by decide +kernel, by decide, by decide, rfl, trivial⟩

/-- What the documentation says about wrong arguments is false: `BibleRange()`, `BibleRange(3, 4)` and
`BibleRange("Mark", 3, None, None, "4")` do not raise `ValueError`; `BibleRange(start=1, end=2)` with `MULTIBOOK` is accepted; and
`BibleRange("Mark", "9", None, None, "10")` starts after it ends. -/
theorem C61_range_counterexample (u : Uni) (st : PState) (ofStr : List Char → Option Int) (h9 : ofStr "9".toList = some 9)
    (h10 : ofStr "10".toList = some 10) :
    (BibleRange.ofValues u dflt ofStr [] .none .none none st).1 = .error .attributeError ∧
    (BibleRange.ofValues u dflt ofStr [.int 3, .int 4] .none .none none st).1 = .error .invalidReference ∧
    (BibleRange.ofValues u dflt ofStr [.book .Mark, .int 3, .none, .none, .str "4".toList] .none .none none st).1 =
      .error .typeError ∧
    (BibleRange.ofValues u dflt ofStr [] (.int 1) (.int 2) (some .MULTIBOOK) st).1 = .ok (.int 1, .int 2) ∧
    (BibleRange.ofValues u dflt ofStr [.book .Mark, .str "9".toList, .none, .none, .str "10".toList] .none .none none st).1 =
      .ok (.verse ⟨.Mark, 10, 1⟩, .verse ⟨.Mark, 9, 50⟩) := by
  refine ⟨rfl, rfl, by rfl, rfl, ?_⟩
  rw [ofValues_many u dflt ofStr _ _ _ _ (by simp)]
  have hs : BibleRange.swapValues dflt.data .Mark (.str "9".toList) .none none (.str "10".toList) .none =
    .ok (.Mark, .str "10".toList, .none, none, .str "9".toList, .none) := rfl
  have hp : BibleRange.ofPositional u dflt ofStr (.book .Mark) (.str "9".toList) .none .none (.str "10".toList) .none none =
      .ok ⟨⟨.Mark, 10, 1⟩, ⟨.Mark, 9, 50⟩⟩ := by
    simp only [BibleRange.ofPositional, BibleRange.bookArg, bind, Except.bind, hs]
    rw [endpoints_num dflt _ .Mark none (.str h10) .none (.str h9) .none]
    decide +kernel
  simp only [PM.lift, List.getD_cons_zero, List.getD_cons_succ, List.getD_nil, hp]
  rfl

/-! ## Lists -/

theorem mapM_checkType (l : List PyVal) : l.mapM RangeList.checkType = match rangesOf l with
    | some rs => .ok rs
    | none => .error .typeError := by
  induction l with
  | nil => rfl
  | cons x l ih =>
    rw [List.mapM_cons, ih]
    cases x with
    | range r => simp only [RangeList.checkType, rangesOf, bind, Except.bind]; cases rangesOf l <;> rfl
    | _ => rfl

/-- Adding a range to the groups: it joins the last group. -/
theorem append_last (g : RangeList) (x : List BibleRange) (r : BibleRange) :
    Groups.append (g ++ [x]) r false = g ++ [x ++ [r]] := by
  rw [Groups.append_concat]; rfl

theorem append_ne (g : RangeList) (r : BibleRange) (hg : ∀ y ∈ g, y ≠ []) : ∀ y ∈ Groups.append g r false, y ≠ [] := by
  cases List.eq_nil_or_concat g with
  | inl h => subst h; simp [Groups.append]
  | inr h =>
    obtain ⟨l, x, rfl⟩ := h
    rw [List.concat_eq_append] at hg ⊢
    rw [append_last]
    intro y hy
    rcases List.mem_append.mp hy with hy | hy
    · exact hg y (List.mem_append_left _ hy)
    · simp at hy; subst hy; simp

theorem addItem_range (g : RangeList) (r : BibleRange) : RangeList.addItem g (.range r) = .ok (Groups.append g r false) := rfl

theorem addItem_group (g : RangeList) {l : List PyVal} {rs : List BibleRange} (hl : rangesOf l = some rs) :
    RangeList.addItem g (.seq true l) = .ok (if rs = [] then g else g ++ [rs]) := by
  simp only [RangeList.addItem, RangeList.appendGroupValues, mapM_checkType, hl, bind, Except.bind, pure, Except.pure]
  by_cases h : rs = []
  · subst h; rfl
  · rw [if_neg h, Groups.appendGroup_eq _ h]

theorem addItem_some {g : RangeList} {x : PyVal} {rs : List BibleRange} (hx : itemRanges x = some rs) (hg : ∀ y ∈ g, y ≠ []) :
    ∃ m, RangeList.addItem g x = .ok m ∧ m.flatten = g.flatten ++ rs ∧ ∀ y ∈ m, y ≠ [] := by
  unfold itemRanges at hx
  split at hx
  · cases hx
    exact ⟨_, addItem_range g _, Groups.flatten_append_item g _ false, append_ne g _ hg⟩
  · rw [addItem_group g hx]
    split
    · rename_i h; subst h; exact ⟨_, rfl, by simp, hg⟩
    · rename_i h
      refine ⟨_, rfl, by simp, ?_⟩
      intro y hy
      rcases List.mem_append.mp hy with hy | hy
      · exact hg y hy
      · simp at hy; subst hy; exact h
  · cases hx

theorem addItem_none {g : RangeList} {x : PyVal} (hx : itemRanges x = none) : RangeList.addItem g x = .error .typeError := by
  unfold itemRanges at hx
  split at hx
  · cases hx
  · simp only [RangeList.addItem, RangeList.appendGroupValues, mapM_checkType, hx, bind, Except.bind]
  · rename_i h1 h2
    cases x with
    | range r => exact absurd rfl (h1 r)
    | seq b l =>
      cases b with
      | true => exact absurd rfl (h2 l)
      | false => rfl
    | _ => rfl

/-- The outcome of adding items one after another. -/
theorem foldlM_addItem (l : List PyVal) (g : RangeList) (hg : ∀ y ∈ g, y ≠ []) :
    match l.mapM itemRanges with
    | none => l.foldlM RangeList.addItem g = .error .typeError
    | some rs => ∃ m, l.foldlM RangeList.addItem g = .ok m ∧ m.flatten = g.flatten ++ rs.flatten ∧ ∀ y ∈ m, y ≠ [] := by
  induction l generalizing g with
  | nil => exact ⟨g, rfl, by simp, hg⟩
  | cons x l ih =>
    rw [List.mapM_cons]
    cases hx : itemRanges x with
    | none => simp only [bind, Option.bind, List.foldlM, addItem_none hx, Except.bind]
    | some rs =>
      obtain ⟨m, hm, hf, hn⟩ := addItem_some hx hg
      have := ih m hn
      simp only [bind, Option.bind, List.foldlM, hm, Except.bind] at this ⊢
      cases hl : l.mapM itemRanges with
      | none => rw [hl] at this; exact this
      | some rss =>
        rw [hl] at this
        obtain ⟨k, hk, hkf, hkn⟩ := this
        exact ⟨k, hk, by rw [hkf, hf]; simp, hkn⟩

/-- C61: `BibleRangeList(items)` raises `TypeError` unless every item is a range or a list or tuple of ranges; otherwise it is the
list of these ranges, in order, without empty groups. -/
theorem C61_list_items (u : Uni) (e : Env) (isList : Bool) (items : List PyVal) (flags : Option BibleFlag) (st : PState) :
    match items.mapM itemRanges with
    | none => (RangeList.ofValues u e [.seq isList items] flags st).1 = .error .typeError
    | some rs => ∃ m, (RangeList.ofValues u e [.seq isList items] flags st).1 = .ok m ∧ m.flatten = rs.flatten ∧
        ∀ g ∈ m, g ≠ [] := by
  have := foldlM_addItem items [] (by simp)
  simp only [List.flatten_nil, List.nil_append] at this
  exact this

/-- C61: a range joins the last group of what comes before it; a list or tuple of ranges, if it is not empty, is a group of its
own. -/
theorem C61_list_groups (u : Uni) (e : Env) (isList : Bool) (items : List PyVal) (flags : Option BibleFlag) (st : PState)
    (m : RangeList) (hm : (RangeList.ofValues u e [.seq isList items] flags st).1 = .ok m) :
    (∀ r, (RangeList.ofValues u e [.seq isList (items ++ [.range r])] flags st).1 =
      .ok (if m = [] then [[r]] else m.dropLast ++ [m.getLastD [] ++ [r]])) ∧
    (∀ l rs, rangesOf l = some rs → (RangeList.ofValues u e [.seq isList (items ++ [.seq true l])] flags st).1 =
      .ok (if rs = [] then m else m ++ [rs])) := by
  have hm' : items.foldlM RangeList.addItem [] = .ok m := hm
  have step : ∀ x, (RangeList.ofValues u e [.seq isList (items ++ [x])] flags st).1 = RangeList.addItem m x := by
    intro x
    show (items ++ [x]).foldlM RangeList.addItem [] = _
    rw [List.foldlM_append, hm']
    simp only [bind, Except.bind, List.foldlM]
    cases RangeList.addItem m x <;> rfl
  constructor
  · intro r
    rw [step, addItem_range]
    cases List.eq_nil_or_concat m with
    | inl h => subst h; rfl
    | inr h =>
      obtain ⟨l, x, rfl⟩ := h
      rw [List.concat_eq_append, append_last]
      simp
  · intro l rs hl
    rw [step, addItem_group m hl]

/-- C61: no argument, or several, are taken like one list of them. -/
theorem C61_list_arguments (u : Uni) (e : Env) (args : List PyVal) (flags : Option BibleFlag) (hlen : args.length ≠ 1) :
    RangeList.ofValues u e args flags = RangeList.ofValues u e [.seq true args] flags := by
  match args, hlen with
  | [], _ => rfl
  | [_], h => simp at h
  | x :: _ :: _, _ => cases x <;> rfl

/-- C61: a copy of a list has the same ranges and groups; `BibleRangeList(None)` is empty; and a range, a verse, a book or a number
alone is refused. -/
theorem C61_list_single (u : Uni) (e : Env) (h : e.data.Full) (flags : Option BibleFlag) (st : PState) :
    (∀ l : RangeList, (∀ g ∈ l, g ≠ []) → (RangeList.ofValues u e [.list l] flags st).1 = .ok l) ∧
    (RangeList.ofValues u e [.none] flags st).1 = .ok [] ∧
    (∀ r : BibleRange, pos e.data r.start ≤ pos e.data r.stop →
      r.start ∈ canon e.data true → r.stop ∈ canon e.data true →
      (RangeList.ofValues u e [.range r] flags st).1 = .error .typeError) ∧
    (∀ v, (RangeList.ofValues u e [.verse v] flags st).1 = .error .typeError) ∧
    (∀ b, (RangeList.ofValues u e [.book b] flags st).1 = .error .typeError) ∧
    (∀ n, (RangeList.ofValues u e [.int n] flags st).1 = .error .typeError) := by
  refine ⟨?_, rfl, ?_, fun _ => rfl, fun _ => rfl, fun _ => rfl⟩
  · intro l hl
    show Except.ok (RangeList.copy l) = _
    rw [RangeList.copy_eq hl]
  · intro r hp hs ht
    rw [mem_canon h] at hs ht
    simp only [RangeList.ofValues, PM.lift, PyVal.items, BibleVerse.lessEq_eq (comparable_listed hs ht), (h.le_pos hs ht).mpr hp]
    rfl

/-- C61: whatever the arguments, `BibleRangeList(...)` raises `BibleRefParsingError` or `TypeError`, or makes a list without empty
groups. -/
theorem C61_list_outcome (u : Uni) (e : Env) (h : e.data.Full) (args : List PyVal) (flags : Option BibleFlag) (st : PState)
    (hargs : ∀ l, args = [.list l] → ∀ g ∈ l, g ≠ []) :
    (RangeList.ofValues u e args flags st).1 = .error .parsing ∨ (RangeList.ofValues u e args flags st).1 = .error .typeError ∨
    ∃ l, (RangeList.ofValues u e args flags st).1 = .ok l ∧ ∀ g ∈ l, g ≠ [] := by
  have fold : ∀ l : List PyVal, l.foldlM RangeList.addItem [] = .error .typeError ∨
      ∃ m, l.foldlM RangeList.addItem [] = .ok m ∧ ∀ g ∈ m, g ≠ [] := by
    intro l
    have := foldlM_addItem l [] (by simp)
    split at this
    · exact .inl this
    · obtain ⟨m, h1, _, h2⟩ := this; exact .inr ⟨m, h1, h2⟩
  unfold RangeList.ofValues
  split
  · rename_i s
    rcases C45_list u e h flags s st with hx | ⟨l, hx, _, hn, _⟩
    · exact .inl hx
    · exact .inr (.inr ⟨l, hx, hn⟩)
  · rename_i l
    exact .inr (.inr ⟨_, rfl, by rw [RangeList.copy_eq (hargs l rfl)]; exact hargs l rfl⟩)
  · exact .inr (.inr ⟨[], rfl, by simp⟩)
  · rename_i x _ _ _
    simp only [PM.lift]
    cases hx : x.items e.data with
    | error y =>
      refine .inr (.inl ?_)
      rw [PyVal.items_error hx]; rfl
    | ok l => exact .inr (fold l)
  · exact .inr (fold args)

example : BookArg (BibleBook.fromStr exampleUni defaultData) (.str "Mark".toList) (some .Mark) ∧
    BookArg (BibleBook.fromStr exampleUni defaultData) .none none ∧ NumArg (fun _ => none) (.int 3) (some 3) :=
  ⟨.name (by decide +kernel), .none, .int 3⟩

example : (BibleVerse.ofValues exampleUni dflt [.str "Mark".toList, .int 3, .int 4] none PState.init).1 = .ok ⟨.Mark, 3, 4⟩ ∧
    (BibleVerse.ofValues exampleUni dflt [.str "Mark".toList, .str "3".toList, .int 4] none PState.init).1 = .error .valueError ∧
    (BibleVerse.ofValues exampleUni dflt [] none PState.init).1 = .error .valueError := by
  decide +kernel

example : (RangeList.ofValues exampleUni dflt [.seq true [.range exMatt], .range exIn, .seq true []] none PState.init).1 =
      .ok [[exMatt, exIn]] ∧
    (RangeList.ofValues exampleUni dflt [.seq false [.range exMatt, .seq true [.range exIn]]] none PState.init).1 =
      .ok [[exMatt], [exIn]] ∧
    [PyVal.range exMatt, .seq true [.range exIn]].mapM itemRanges = some [[exMatt], [exIn]] := by
  decide +kernel

example : BibleRange.ofPositional exampleUni dflt (fun _ => none) (.str "Mark".toList) (.int 9) .none .none (.int 3) .none none =
      .ok ⟨⟨.Mark, 3, 1⟩, ⟨.Mark, 9, 50⟩⟩ ∧
    BibleRange.ofPositional exampleUni dflt (fun _ => none) (.str "Mark".toList) (.int 9) .none .none (.verse ⟨.Mark, 3, 1⟩) .none none =
      .error .typeError := by
  decide +kernel

end Bibleref

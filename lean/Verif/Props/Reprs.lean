import Verif.Model.Repr
import Verif.SpecShown
import Verif.Props.Strings3
import Verif.Props.RangeOps

/-!
# `repr`, and strings that show parts of a verse (C68, C69)
-/

namespace Bibleref
open Spec

/-! ## C68 -/

/-- **C68, what `repr` shows of a verse is read back as that verse**, for all flags that allow the verse and whatever was
parsed before. -/
theorem C68_verse (u : Uni) (e : Env) (h : e.data.WF) (hd : PlainSeps u e.data) (flags : Option BibleFlag) (v : BibleVerse)
    (hv : v ∈ canon e.data (inForce e flags).verse0) (hn : NameReads u e.data { StrOpts.default with short := true } v.book)
    (st : PState) :
    ∃ s, v.repr u e.data = "BibleVerse(".toList ++ s ++ ")".toList ∧ (BibleVerse.ofStr u e flags s st).1 = .ok v :=
  ⟨_, rfl, (C40_verse u e h hd flags _ v hv hn st).2⟩

/-- **C68, what `repr` shows of a range is read back as that range.** -/
theorem C68_range (u : Uni) (e : Env) (h : e.data.WF) (hd : PlainSeps u e.data) (r : BibleRange)
    (hr : Allowed e.data e.flags r) (hn : NameReads u e.data .default r.start.book)
    (hn' : NameReads u e.data .default r.stop.book) (st : PState) :
    ∃ s, r.repr u e = .ok ("BibleRange(".toList ++ s ++ ")".toList) ∧ (BibleRange.ofStr u e none s st).1 = .ok r := by
  obtain ⟨s, h1, h2, _⟩ := C41_range_partial u e h hd none .default r hr hn hn' rfl st
  refine ⟨s, ?_, h2⟩
  unfold BibleRange.repr
  rw [h1]; rfl

/-- **C68, what `repr` shows of a list is read back as that list**, with its groups. What is missing: the empty list, for which
it is false (`C68_counterexample`). -/
theorem C68_list_partial (u : Uni) (e : Env) (h : e.data.WF) (hd : PlainSeps u e.data) (l : RangeList) (hl : l ≠ [])
    (hne : ∀ g ∈ l, g ≠ []) (hr : ∀ r ∈ l.flatten, Allowed e.data e.flags r)
    (hn : ∀ r ∈ l.flatten, NameReads u e.data .default r.start.book ∧ NameReads u e.data .default r.stop.book) (st : PState) :
    ∃ s, RangeList.repr u e l = .ok ("BibleRangeList(\"".toList ++ s ++ "\")".toList) ∧
      (RangeList.ofStr u e none s st).1 = .ok l := by
  obtain ⟨s, l', h1, h2, _, h4⟩ := C42_list_partial u e h hd none .default l hl hne hr hn (fun hh => hh) nofun st
  rw [h4 rfl] at h2
  refine ⟨s, ?_, h2⟩
  unfold RangeList.repr
  rw [h1]; rfl

/-- A reference as the library makes them: allowed by the global flags, with names that are recognised, and, for a list,
without empty groups. -/
def Proper (u : Uni) (e : Env) : AnyRef → Prop
  | .verse v => v ∈ canon e.data e.flags.verse0 ∧ NameReads u e.data { StrOpts.default with short := true } v.book
  | .range r => Allowed e.data e.flags r ∧ NameReads u e.data .default r.start.book ∧ NameReads u e.data .default r.stop.book
  | .list l => (∀ g ∈ l, g ≠ []) ∧ ∀ r ∈ l.flatten, Allowed e.data e.flags r ∧
      NameReads u e.data .default r.start.book ∧ NameReads u e.data .default r.stop.book

theorem wrapped_inj {a a' b b' s t : List Char} (ha : a.length = a'.length) (hb : b.length = b'.length)
    (h : a ++ s ++ b = a' ++ t ++ b') : a = a' ∧ s = t := by
  have h1 := List.append_inj' h hb
  exact List.append_inj h1.1 ha

theorem ofStr_nil (u : Uni) (e : Env) (st : PState) : (RangeList.ofStr u e none [] st).1 = .error .parsing := rfl

/-- **C68, two references have the same `repr` only if they are equal**, and of the same kind. -/
theorem C68_distinct (u : Uni) (e : Env) (h : e.data.WF) (hd : PlainSeps u e.data) (x y : AnyRef) (hx : Proper u e x)
    (hy : Proper u e y) : (∃ s, x.repr u e = .ok s) ∧ (x.repr u e = y.repr u e ↔ x = y) := by
  -- Every `repr` has the form `pre(s)`, where `s` determines the reference.
  have hv : ∀ v, Proper u e (.verse v) → ∃ s, AnyRef.repr u e (.verse v) = .ok ("BibleVerse(".toList ++ s ++ ")".toList) ∧
      (BibleVerse.ofStr u e none s PState.init).1 = .ok v := fun v hv => by
    obtain ⟨s, h1, h2⟩ := C68_verse u e h hd none v hv.1 hv.2 PState.init
    exact ⟨s, congrArg Except.ok h1, h2⟩
  have hr : ∀ r, Proper u e (.range r) → ∃ s, AnyRef.repr u e (.range r) = .ok ("BibleRange(".toList ++ s ++ ")".toList) ∧
      (BibleRange.ofStr u e none s PState.init).1 = .ok r := fun r hr =>
    C68_range u e h hd r hr.1 hr.2.1 hr.2.2 PState.init
  have hl : ∀ l, Proper u e (.list l) → ∃ s, AnyRef.repr u e (.list l) =
      .ok ("BibleRangeList(\"".toList ++ s ++ "\")".toList) ∧
      (RangeList.ofStr u e none s PState.init).1 = (if l = [] then .error .parsing else .ok l) := fun l hl => by
    by_cases hn : l = []
    · subst hn
      exact ⟨[], rfl, by rw [if_pos rfl]; exact ofStr_nil u e _⟩
    · rw [if_neg hn]
      exact C68_list_partial u e h hd l hn hl.1 (fun r hr => (hl.2 r hr).1) (fun r hr => (hl.2 r hr).2) PState.init
  refine ⟨?_, fun heq => ?_, fun hh => by rw [hh]⟩
  · cases x with
    | verse v => obtain ⟨s, h1, _⟩ := hv v hx; exact ⟨_, h1⟩
    | range r => obtain ⟨s, h1, _⟩ := hr r hx; exact ⟨_, h1⟩
    | list l => obtain ⟨s, h1, _⟩ := hl l hx; exact ⟨_, h1⟩
  -- The tenth character tells the kinds of references apart, except ranges and lists; for those it is the eleventh.
  have cut : ∀ {a a' b b' s t : List Char}, (.ok (a ++ s ++ b) : Except PyErr (List Char)) = .ok (a' ++ t ++ b') →
      11 ≤ a.length → 11 ≤ a'.length → a.take 11 = a'.take 11 := by
    intro a a' b b' s t hh h1 h2
    have := congrArg (List.take 11) (Except.ok.inj hh)
    rwa [List.append_assoc, List.append_assoc, List.take_append_of_le_length h1, List.take_append_of_le_length h2] at this
  cases x with
  | verse v =>
    obtain ⟨s, h1, h2⟩ := hv v hx
    cases y with
    | verse w =>
      obtain ⟨t, h3, h4⟩ := hv w hy
      rw [h1, h3] at heq
      rw [(wrapped_inj rfl rfl (Except.ok.inj heq)).2, h4] at h2
      cases h2; rfl
    | range r => obtain ⟨t, h3, h4⟩ := hr r hy; rw [h1, h3] at heq; exact absurd (cut heq (by decide) (by decide)) (by decide)
    | list l => obtain ⟨t, h3, h4⟩ := hl l hy; rw [h1, h3] at heq; exact absurd (cut heq (by decide) (by decide)) (by decide)
  | range r =>
    obtain ⟨s, h1, h2⟩ := hr r hx
    cases y with
    | verse w => obtain ⟨t, h3, h4⟩ := hv w hy; rw [h1, h3] at heq; exact absurd (cut heq (by decide) (by decide)) (by decide)
    | range w =>
      obtain ⟨t, h3, h4⟩ := hr w hy
      rw [h1, h3] at heq
      rw [(wrapped_inj rfl rfl (Except.ok.inj heq)).2, h4] at h2
      cases h2; rfl
    | list l => obtain ⟨t, h3, h4⟩ := hl l hy; rw [h1, h3] at heq; exact absurd (cut heq (by decide) (by decide)) (by decide)
  | list l =>
    obtain ⟨s, h1, h2⟩ := hl l hx
    cases y with
    | verse w => obtain ⟨t, h3, h4⟩ := hv w hy; rw [h1, h3] at heq; exact absurd (cut heq (by decide) (by decide)) (by decide)
    | range w => obtain ⟨t, h3, h4⟩ := hr w hy; rw [h1, h3] at heq; exact absurd (cut heq (by decide) (by decide)) (by decide)
    | list w =>
      obtain ⟨t, h3, h4⟩ := hl w hy
      rw [h1, h3] at heq
      rw [(wrapped_inj rfl rfl (Except.ok.inj heq)).2, h4] at h2
      by_cases hn : l = [] <;> by_cases hm : w = []
      · rw [hn, hm]
      · rw [if_pos hn, if_neg hm] at h2; cases h2
      · rw [if_neg hn, if_pos hm] at h2; cases h2
      · rw [if_neg hn, if_neg hm] at h2; cases h2; rfl

/-- Every reference of the default Bible that the global flags allow is proper. -/
theorem default_proper (u : Uni) (f : BibleFlag) (x : AnyRef) (hx : match x with
    | .verse v => v ∈ canon defaultData f.verse0
    | .range r => Allowed defaultData f r
    | .list l => (∀ g ∈ l, g ≠ []) ∧ ∀ r ∈ l.flatten, Allowed defaultData f r) : Proper u ⟨defaultData, f⟩ x := by
  have hn : ∀ o : StrOpts, o.nospace = false → ∀ b, NameReads u defaultData o b := fun o ho b =>
    default_nameReads u o b fun hh => by rw [ho] at hh; cases hh.1
  cases x with
  | verse v => exact ⟨hx, hn _ rfl _⟩
  | range r => exact ⟨hx, hn _ rfl _, hn _ rfl _⟩
  | list l => exact ⟨hx.1, fun r hr => ⟨hx.2 r hr, hn _ rfl _, hn _ rfl _⟩⟩

/-- **C68 for the default Bible**, without any condition on names. -/
theorem C68_default (u : Uni) (f : BibleFlag) (x y : AnyRef)
    (hx : match x with
      | .verse v => v ∈ canon defaultData f.verse0
      | .range r => Allowed defaultData f r
      | .list l => (∀ g ∈ l, g ≠ []) ∧ ∀ r ∈ l.flatten, Allowed defaultData f r)
    (hy : match y with
      | .verse v => v ∈ canon defaultData f.verse0
      | .range r => Allowed defaultData f r
      | .list l => (∀ g ∈ l, g ≠ []) ∧ ∀ r ∈ l.flatten, Allowed defaultData f r) :
    x.repr u ⟨defaultData, f⟩ = y.repr u ⟨defaultData, f⟩ ↔ x = y :=
  (C68_distinct u ⟨defaultData, f⟩ defaultData_wf (default_plainSeps u) x y (default_proper u f x hx)
    (default_proper u f y hy)).2

/-- `repr` of the empty list is `BibleRangeList("")`, which raises when evaluated. -/
theorem C68_counterexample (u : Uni) (e : Env) (st : PState) :
    RangeList.repr u e [] = .ok "BibleRangeList(\"\")".toList ∧ (RangeList.ofStr u e none [] st).1 = .error .parsing :=
  ⟨rfl, ofStr_nil u e st⟩

example : (⟨.IJn, 4, 8⟩ : BibleVerse) ∈ canon dflt.data (inForce dflt none).verse0 ∧
    NameReads exampleUni dflt.data { StrOpts.default with short := true } .IJn ∧
    (⟨.IJn, 4, 8⟩ : BibleVerse).repr exampleUni dflt.data = "BibleVerse(1Jn 4:8)".toList :=
  ⟨(mem_canon defaultData_wf).2 (by decide +kernel), default_nameReads _ _ _ (by decide), by decide +kernel⟩

example : Proper exampleUni dflt (.range exMatt) ∧ Proper exampleUni dflt (.list exampleList) :=
  ⟨default_proper _ _ (.range exMatt) (exMatt_allowed _),
    default_proper _ _ (.list exampleList) ⟨by decide, exampleList_allowed⟩⟩

/-! ## C69 -/

section
variable {u : Uni} {d : BibleData}

theorem shownVerse_nonneg {v0 : Bool} {v : BibleVerse} (hv : Valid d v0 v) : 0 ≤ v.verse := by
  have h1 := hv.2.2.1
  unfold firstNum at h1
  split at h1 <;> omega

theorem skipWs_nil_refEnd : RefEnd d [] := .inl rfl

theorem partsShown_nat (h : d.WF) (p : Parts) (v : BibleVerse) :
    partsShown d p v = if nChaps d v.book = 1 then { p with chap := false } else p := by
  unfold partsShown
  rw [h.chapCount]
  by_cases hv : nChaps d v.book = 1
  · rw [if_pos hv, if_pos (by omega)]
  · rw [if_neg hv, if_neg (by omega)]

theorem treeOf_inj (h : d.WF) {o : StrOpts} {p : Parts} {v w : BibleVerse} {v0 : Bool} (hv : Valid d v0 v) (hw : Valid d v0 w)
    (hn : p.book = true → NamesApart u d o v.book w.book)
    (ht : treeOf (shownAs d o v.book) (partsShown d p v) v = treeOf (shownAs d o w.book) (partsShown d p w) w)
    (hp : (partsShown d p v = ⟨false, false, false⟩ ↔ partsShown d p w = ⟨false, false, false⟩)) :
    shown d p v = shown d p w := by
  have v1 := hv.1
  have w1 := hw.1
  have v2 := shownVerse_nonneg hv
  have w2 := shownVerse_nonneg hw
  have hb : p.book = true → shownAs d o v.book = shownAs d o w.book → v.book = w.book := fun hh hs => (hn hh).apart hs
  rw [partsShown_nat h, partsShown_nat h] at ht hp
  obtain ⟨pb, pc, pv⟩ := p
  unfold shown
  by_cases hv1 : nChaps d v.book = 1 <;> by_cases hw1 : nChaps d w.book = 1 <;>
    cases pb <;> cases pc <;> cases pv <;> simp [hv1, hw1, treeOf] at ht hp hb ⊢ <;>
    first
    | omega
    | exact hb ht
    | exact ⟨hb ht.1, by omega⟩
    | exact ⟨hb ht.1, by omega, by omega⟩
    | (constructor <;> omega)

/-- **C69, the string of a verse shows exactly the parts asked for**: two verses have the same string if and only if these
parts of them are the same, for every combination of parts and every option. -/
theorem C69_parts (u : Uni) (d : BibleData) (h : d.WF) (hd : PlainSeps u d) (o : StrOpts) (p : Parts) (v w : BibleVerse)
    (hv : v ∈ canon d true) (hw : w ∈ canon d true)
    (hn : p.book = true → NamesApart u d o v.book w.book) :
    v.str u d o p = w.str u d o p ↔ shown d p v = shown d p w := by
  rw [mem_canon h] at hv hw
  have v1 := hv.1
  have w1 := hw.1
  have v2 := shownVerse_nonneg hv
  have w2 := shownVerse_nonneg hw
  have nv : (partsShown d p v).book = true → IsName u d (shownAs d o v.book) := fun hh =>
    (hn (by unfold partsShown at hh; split at hh <;> exact hh)).left
  have nw : (partsShown d p w).book = true → IsName u d (shownAs d o w.book) := fun hh =>
    (hn (by unfold partsShown at hh; split at hh <;> exact hh)).right
  rw [str_eq_text hd o p (by omega) v2 fun hh => (hn hh).left, str_eq_text hd o p (by omega) w2 fun hh => (hn hh).right]
  constructor
  · intro heq
    have empty : ∀ {q : Parts} {x : BibleVerse}, (q.book = true → IsName u d (shownAs d o x.book)) →
        (verseText d o q x = [] ↔ q = ⟨false, false, false⟩) := by
      intro q x hx
      have hs := (numText_spec (u := u) hd o q x).2.2
      obtain ⟨qb, qc, qv⟩ := q
      constructor
      · intro he
        cases qb with
        | true =>
          have := (isName_clean (hx rfl)).2
          cases qc <;> cases qv <;> simp [verseText, this] at he
        | false => cases qc <;> cases qv <;> simp [verseText] at he hs ⊢ <;> exact absurd he hs
      · intro he
        cases he
        rfl
    have hp : partsShown d p v = ⟨false, false, false⟩ ↔ partsShown d p w = ⟨false, false, false⟩ := by
      rw [← empty nv, ← empty nw, heq]
    by_cases hz : partsShown d p v = ⟨false, false, false⟩
    · have hz' := hp.1 hz
      rw [partsShown_nat h] at hz hz'
      obtain ⟨pb, pc, pv⟩ := p
      unfold shown
      by_cases hv1 : nChaps d v.book = 1 <;> by_cases hw1 : nChaps d w.book = 1 <;> 
        cases pb <;> cases pc <;> cases pv <;> simp [hv1, hw1] at hz hz' ⊢
    · refine treeOf_inj h hv hw hn ?_ hp
      have a := single_complete hd (text_rule hd o _ v (rest := []) (.inl rfl) hz nv) skipWs_nil_refEnd
      have b := single_complete hd (text_rule hd o _ w (rest := []) (.inl rfl) (fun hh => hz (hp.2 hh)) nw) skipWs_nil_refEnd
      rw [heq, b] at a
      exact (Prod.mk.inj (Option.some.inj a)).1.symm
  · intro hs
    rw [partsShown_nat h, partsShown_nat h]
    obtain ⟨pb, pc, pv⟩ := p
    unfold shown at hs
    by_cases hv1 : nChaps d v.book = 1 <;> by_cases hw1 : nChaps d w.book = 1 <;>
      cases pb <;> cases pc <;> cases pv <;> simp [hv1, hw1] at hs <;> simp [hv1, hw1, hs, verseText, numText]

end

/-- The default names, shown in any way. -/
theorem defaultNames_apart : (BibleBook.all.all fun b => [false, true].all fun short => [false, true].all fun nospace =>
    let s := shownAs defaultData ⟨short, false, nospace, false, false⟩ b
    s.all (fun c => decide (c.toNat < 128)) && decide (lexName exampleUni defaultData s = some (s, [])) &&
      BibleBook.all.all fun c => decide (b = c) || decide (s ≠ shownAs defaultData ⟨short, false, nospace, false, false⟩ c)) =
    true := by
  decide +kernel

theorem default_namesApart (u : Uni) (o : StrOpts) (b c : BibleBook) : NamesApart u defaultData o b c := by
  have ht := defaultNames_apart
  simp only [List.all_eq_true, Bool.and_eq_true, Bool.or_eq_true, decide_eq_true_eq] at ht
  have key := fun b : BibleBook => ht b b.mem_all o.short (by cases o.short <;> simp) o.nospace (by cases o.nospace <;> simp)
  have hso : ∀ b, shownAs defaultData ⟨o.short, false, o.nospace, false, false⟩ b = shownAs defaultData o b := fun _ => rfl
  simp only [hso] at key
  refine ⟨isName_ascii u (key b).1.1 (lexName_iff.1 (key b).1.2).1, isName_ascii u (key c).1.1 (lexName_iff.1 (key c).1.2).1,
    fun hs => ?_⟩
  rcases (key b).2 c c.mem_all with hh | hh
  · exact hh
  · exact absurd hs hh

/-- **C69 for the default Bible**, without any condition on names. -/
theorem C69_default (u : Uni) (o : StrOpts) (p : Parts) (v w : BibleVerse) (hv : v ∈ canon defaultData true)
    (hw : w ∈ canon defaultData true) : v.str u defaultData o p = w.str u defaultData o p ↔
      shown defaultData p v = shown defaultData p w :=
  C69_parts u defaultData defaultData_wf (default_plainSeps u) o p v w hv hw fun _ => default_namesApart u o _ _

example : (⟨.Mark, 3, 5⟩ : BibleVerse) ∈ canon defaultData true ∧ (⟨.Jude, 1, 5⟩ : BibleVerse) ∈ canon defaultData true ∧
    (⟨.Mark, 3, 5⟩ : BibleVerse).str exampleUni defaultData .default .CHAP_VERSE = "3:5".toList ∧
    (⟨.Jude, 1, 5⟩ : BibleVerse).str exampleUni defaultData .default .CHAP_VERSE = "5".toList ∧
    (⟨.Mark, 3, 5⟩ : BibleVerse).str exampleUni defaultData .default .VERSE = "5".toList ∧
    shown defaultData .VERSE ⟨.Mark, 3, 5⟩ = shown defaultData .VERSE ⟨.Jude, 1, 5⟩ := by
  refine ⟨(mem_canon defaultData_wf).2 (by decide +kernel), (mem_canon defaultData_wf).2 (by decide +kernel), ?_⟩
  decide +kernel

theorem strip_is_clean (u : Uni) (s : List Char) : Clean u (strip u s) := by
  have hd : ∀ l : List Char, ∀ c, (l.dropWhile (isSpace u)).head? = some c → isSpace u c = false := by
    intro l c hc
    have := List.head?_dropWhile_not (isSpace u) l
    rw [hc] at this
    simpa using this
  unfold strip
  refine ⟨fun c hc => ?_, fun c hc => ?_⟩
  · -- The first character is still the first one after dropping at the end.
    generalize hl : s.dropWhile (isSpace u) = l at hc
    have h1 : ∀ c, l.head? = some c → isSpace u c = false := by rw [← hl]; exact hd s
    obtain ⟨t, ht⟩ : ∃ t, l = (l.reverse.dropWhile (isSpace u)).reverse ++ t :=
      ⟨(l.reverse.takeWhile (isSpace u)).reverse, by
        rw [← List.reverse_append, List.takeWhile_append_dropWhile, List.reverse_reverse]⟩
    apply h1
    rw [ht, List.head?_append, hc]; rfl
  · rw [List.getLast?_reverse] at hc
    exact hd _ c hc

theorem tidy_result (u : Uni) (o : StrOpts) (s : List Char) : Tidy u o (if o.nospace then removeBlanks s else strip u s) := by
  unfold Tidy
  cases o.nospace with
  | true => exact not_mem_removeBlanks s
  | false => exact strip_is_clean u s

theorem tidy_blanks {u : Uni} {o : StrOpts} {s : List Char} (h : o.nospace = true) : Tidy u o (removeBlanks s) := by
  have := tidy_result u o s
  rwa [if_pos h] at this

theorem tidy_strip {u : Uni} {o : StrOpts} {s : List Char} (h : ¬ o.nospace = true) : Tidy u o (strip u s) := by
  have := tidy_result u o s
  rwa [if_neg h] at this

theorem tidy_append {u : Uni} {o : StrOpts} {s t : List Char} (hs : Tidy u o s) (ht : Tidy u o t) : Tidy u o (s ++ t) := by
  unfold Tidy at *
  cases hn : o.nospace with
  | true =>
    rw [hn] at hs ht
    intro hm
    rcases List.mem_append.1 hm with hm | hm
    · exact hs hm
    · exact ht hm
  | false =>
    rw [hn] at hs ht
    exact Clean.append hs ht

theorem tidy_nil (u : Uni) (o : StrOpts) : Tidy u o [] := by
  unfold Tidy
  split
  · exact List.not_mem_nil
  · exact ⟨nofun, nofun⟩

/-- **C69, with `nospace` a string has no blank, and otherwise no white space at its beginning or end**: for verses, ranges and
lists, all options, flags, parts and data. -/
theorem C69_blanks (u : Uni) (e : Env) (o : StrOpts) (flags : Option BibleFlag) :
    (∀ (p : Parts) (v : BibleVerse), Tidy u o (v.str u e.data o p)) ∧
    (∀ r s, BibleRange.str u e o flags r = .ok s → Tidy u o s) ∧ ∀ l s, RangeList.str u e o flags l = .ok s → Tidy u o s := by
  refine ⟨fun p v => tidy_result u o _, fun r s hs => ?_, fun l s hs => ?_⟩
  · unfold BibleRange.str at hs
    simp only [bind, Except.bind, pure, Except.pure] at hs
    repeat' split at hs
    all_goals cases hs <;> first | exact tidy_blanks ‹_› | exact tidy_strip ‹_› | exact tidy_result u o _
  · have step : ∀ st r x, RangeList.strStep u e o flags st r = .ok x → Tidy u o x.1 := by
      intro st r x hx
      unfold RangeList.strStep at hx
      simp only [bind, Except.bind, pure, Except.pure] at hx
      repeat' split at hx
      all_goals cases hx <;> first | exact tidy_blanks ‹_› | exact tidy_strip ‹_› | exact tidy_result u o _
    have group : ∀ g st x, RangeList.strGroup u e o flags st g = .ok x → Tidy u o x.1 := by
      intro g
      induction g with
      | nil => intro st x hx; cases hx; exact tidy_nil u o
      | cons r g ih =>
        intro st x hx
        unfold RangeList.strGroup at hx
        cases h1 : RangeList.strStep u e o flags st r with
        | error err => rw [h1] at hx; cases hx
        | ok y =>
          rw [h1] at hx
          cases h2 : RangeList.strGroup u e o flags y.2 g with
          | error err => simp only [bind, Except.bind, h2] at hx; cases hx
          | ok z =>
            simp only [bind, Except.bind, h2, pure, Except.pure] at hx
            rw [← Except.ok.inj hx]
            exact tidy_append (step _ _ _ h1) (ih _ _ h2)
    have groups : ∀ l st x, RangeList.strGroups u e o flags st l = .ok x → Tidy u o x := by
      intro l
      induction l with
      | nil => intro st x hx; cases hx; exact tidy_nil u o
      | cons g l ih =>
        intro st x hx
        unfold RangeList.strGroups at hx
        cases h1 : RangeList.strGroup u e o flags st g with
        | error err => rw [h1] at hx; cases hx
        | ok y =>
          rw [h1] at hx
          cases h2 : RangeList.strGroups u e o flags (RangeList.strEndGroup e o y.2) l with
          | error err => simp only [bind, Except.bind, h2] at hx; cases hx
          | ok z =>
            simp only [bind, Except.bind, h2, pure, Except.pure] at hx
            rw [← Except.ok.inj hx]
            exact tidy_append (group _ _ _ h1) (ih _ _ h2)
    exact groups l _ s hs

example : ∃ s, RangeList.str exampleUni dflt { StrOpts.default with nospace := true } none exampleList = .ok s ∧ s ≠ [] ∧
    Tidy exampleUni { StrOpts.default with nospace := true } s := by
  cases hs : RangeList.str exampleUni dflt { StrOpts.default with nospace := true } none exampleList with
  | error err =>
    obtain ⟨s, _, h1, _⟩ := C42_default_partial exampleUni dflt.flags none { StrOpts.default with nospace := true } exampleList
      (by decide) (by decide) exampleList_allowed (by decide) (fun h => h) nofun PState.init
    exact absurd (h1.symm.trans hs) nofun
  | ok s =>
    refine ⟨s, rfl, ?_, (C69_blanks exampleUni dflt _ none).2.2 _ _ hs⟩
    rintro rfl
    obtain ⟨s, l, h1, h2, _⟩ := C42_default_partial exampleUni dflt.flags none { StrOpts.default with nospace := true }
      exampleList (by decide) (by decide) exampleList_allowed (by decide) (fun h => h) nofun PState.init
    cases Except.ok.inj (h1.symm.trans hs)
    cases h2

end Bibleref

import Verif.SpecUnlisted
import Verif.Lemmas.Args
import Verif.Model.Str

/-! What is done with a book outside the book order does not depend on the other books. -/

namespace Bibleref
open Spec

theorem bind_same {α β : Type} {x : Except PyErr α} {f g : α → Except PyErr β} (hfg : ∀ a, x = .ok a → f a = g a) :
    (x >>= f) = (x >>= g) := by
  cases x with
  | error => rfl
  | ok a => exact hfg a rfl

theorem verse_new_book {e : Env} {b : BibleBook} {c n : Int} {fl v} (hv : BibleVerse.new e b c n fl = .ok v) : v.book = b := by
  unfold BibleVerse.new at hv
  split at hv
  · cases hv
  · cases h1 : b.minVerseNum e c fl with
    | error x => rw [h1] at hv; cases hv
    | ok mn =>
      cases h2 : b.maxVerseNum e.data c with
      | error x => rw [h1, h2] at hv; cases hv
      | ok mx =>
        rw [h1, h2] at hv
        simp only [bind, Except.bind] at hv
        split at hv
        · cases hv
        · cases hv; rfl

theorem firstVerse_book {e : Env} {b : BibleBook} {c fl v} (hv : b.firstVerse e c fl = .ok v) : v.book = b := by
  unfold BibleBook.firstVerse at hv
  cases h1 : b.minVerseNum e (c.getD (b.minChapNum e.data)) fl with
  | error x => simp only [h1, bind, Except.bind] at hv; cases hv
  | ok mn => simp only [h1, bind, Except.bind] at hv; exact verse_new_book hv

theorem lastVerse_book {e : Env} {b : BibleBook} {c v} (hv : b.lastVerse e c = .ok v) : v.book = b := by
  unfold BibleBook.lastVerse at hv
  cases h1 : b.maxVerseNum e.data (c.getD (b.maxChapNum e.data)) with
  | error x => simp only [h1, bind, Except.bind] at hv; cases hv
  | ok mn => simp only [h1, bind, Except.bind] at hv; exact verse_new_book hv

section
variable {e : Env} {b : BibleBook}

theorem verse_lt_only {v w : BibleVerse} (hv : v.book = b) (hw : w.book = b) : v.lt (only e b).data w = v.lt e.data w := by
  simp [BibleVerse.lt, hv, hw]

theorem verse_le_only {v w : BibleVerse} (hv : v.book = b) (hw : w.book = b) : v.le (only e b).data w = v.le e.data w := by
  simp [BibleVerse.le, hv, hw]

theorem verse_less_only {v w : BibleVerse} (hv : v.book = b) (hw : w.book = b) : v.less (only e b).data w = v.less e.data w := by
  simp [BibleVerse.less, hv, hw]

theorem verse_lessEq_only {v w : BibleVerse} (hv : v.book = b) (hw : w.book = b) :
    v.lessEq (only e b).data w = v.lessEq e.data w := by
  simp [BibleVerse.lessEq, hv, hw]

theorem inside_alike {d : BibleData} {a r : BibleRange} (ha : Inside b a) (hr : Inside b r) : Alike d a r :=
  alike_book (ha.1.trans ha.2.symm) (hr.1.trans hr.2.symm) (ha.1.trans hr.1.symm)

theorem new_only {s t : Option BibleVerse} (hs : ∀ v, s = some v → v.book = b) (ht : ∀ v, t = some v → v.book = b) (fl : Option BibleFlag) :
    BibleRange.new (only e b) s t fl = BibleRange.new e s t fl := by
  cases s with
  | none => rfl
  | some s =>
    cases t with
    | none => rfl
    | some t =>
      have h1 := hs s rfl
      have h2 := ht t rfl
      rw [new_comparable (comparable_book (by rw [h1, h2])), new_comparable (comparable_book (by rw [h1, h2])),
        verse_lt_only h2 h1]
      rfl

theorem range_new_inside {s t : Option BibleVerse} (hs : ∀ v, s = some v → v.book = b) (ht : ∀ v, t = some v → v.book = b)
    {fl : Option BibleFlag} {r : BibleRange} (hr : BibleRange.new e s t fl = .ok r) : Inside b r := by
  cases s with
  | none => unfold BibleRange.new at hr; simp only at hr; split at hr <;> cases hr
  | some s =>
    cases t with
    | none => unfold BibleRange.new at hr; simp only at hr; split at hr <;> cases hr
    | some t =>
      have h1 := hs s rfl
      have h2 := ht t rfl
      rw [new_comparable (comparable_book (by rw [h1, h2]))] at hr
      split at hr
      · cases hr
      · split at hr <;> cases hr
        · exact ⟨h2, h1⟩
        · exact ⟨h1, h2⟩

theorem new_only' {s t : BibleVerse} (hs : s.book = b) (ht : t.book = b) (fl : Option BibleFlag) :
    BibleRange.new (only e b) (some s) (some t) fl = BibleRange.new e (some s) (some t) fl :=
  new_only (by rintro v ⟨⟩; exact hs) (by rintro v ⟨⟩; exact ht) fl

variable (hb : b ∉ e.data.bookOrder)
include hb

theorem next_unlisted : b.next e.data = none := by simp only [BibleBook.next, order_of_not_mem hb]

theorem prev_unlisted : b.prev e.data = none := by simp only [BibleBook.prev, order_of_not_mem hb]

omit hb in
theorem order_only : b.order (only e b).data = some 0 := by
  show List.idxOf? b [b] = some 0
  rw [List.idxOf?_cons]; simp

omit hb in
theorem next_only : b.next (only e b).data = none := by
  simp only [BibleBook.next, order_only]
  rfl

omit hb in
theorem prev_only : b.prev (only e b).data = none := by simp only [BibleBook.prev, order_only]; rfl

theorem addLoop_only (f : BibleFlag) (fuel : Nat) : ∀ c n mx,
    BibleVerse.addLoop (only e b) f fuel b c n mx = BibleVerse.addLoop e f fuel b c n mx ∧
    ∀ w, BibleVerse.addLoop e f fuel b c n mx = .ok (some w) → w.book = b := by
  induction fuel with
  | zero => intro c n mx; exact ⟨rfl, fun w hw => by cases hw⟩
  | succ fuel ih =>
    intro c n mx
    have hne := next_unlisted hb
    have hno := next_only (e := e) (b := b)
    constructor
    · rw [BibleVerse.addLoop, BibleVerse.addLoop]
      simp only [hne, hno, (ih _ _ _).1]
      rfl
    · intro w hw
      rw [BibleVerse.addLoop] at hw
      simp only [hne] at hw
      split at hw
      · split at hw
        · split at hw <;> cases hw
        · cases h1 : b.minVerseNum e (c + 1) (some f) with
          | error x => rw [h1] at hw; cases hw
          | ok mn =>
            cases h2 : b.maxVerseNum e.data (c + 1) with
            | error x => rw [h1, h2] at hw; cases hw
            | ok mx' => rw [h1, h2] at hw; exact (ih _ _ _).2 w hw
      · cases h1 : BibleVerse.new e b c n (some f) with
        | error x => rw [h1] at hw; cases hw
        | ok v => rw [h1] at hw; cases hw; exact verse_new_book h1

theorem subLoop_only (f : BibleFlag) (fuel : Nat) : ∀ c n mn,
    BibleVerse.subLoop (only e b) f fuel b c n mn = BibleVerse.subLoop e f fuel b c n mn ∧
    ∀ w, BibleVerse.subLoop e f fuel b c n mn = .ok (some w) → w.book = b := by
  induction fuel with
  | zero => intro c n mx; exact ⟨rfl, fun w hw => by cases hw⟩
  | succ fuel ih =>
    intro c n mx
    have hne := prev_unlisted hb
    have hno := prev_only (e := e) (b := b)
    constructor
    · rw [BibleVerse.subLoop, BibleVerse.subLoop]
      simp only [hne, hno, (ih _ _ _).1]
      rfl
    · intro w hw
      rw [BibleVerse.subLoop] at hw
      simp only [hne] at hw
      split at hw
      · split at hw
        · split at hw <;> cases hw
        · cases h2 : b.maxVerseNum e.data (c - 1) with
          | error x => rw [h2] at hw; cases hw
          | ok mx' =>
            cases h1 : b.minVerseNum e (c - 1) none with
            | error x => rw [h1, h2] at hw; cases hw
            | ok mn => rw [h1, h2] at hw; exact (ih _ _ _).2 w hw
      · cases h1 : BibleVerse.new e b c n (some f) with
        | error x => rw [h1] at hw; cases hw
        | ok v => rw [h1] at hw; cases hw; exact verse_new_book h1

theorem add_only {v : BibleVerse} (hv : v.book = b) (n : Int) (fl : Option BibleFlag) :
    v.add (only e b) n fl = v.add e n fl ∧ ∀ w, v.add e n fl = .ok (some w) → w.book = b := by
  subst hv
  constructor
  · unfold BibleVerse.add
    apply bind_same
    intro mx _
    exact (addLoop_only hb _ _ _ _ _).1
  · intro w hw
    unfold BibleVerse.add at hw
    cases h1 : v.book.maxVerseNum e.data v.chap with
    | error x => simp only [h1, bind, Except.bind] at hw; cases hw
    | ok mx => simp only [h1, bind, Except.bind] at hw; exact (addLoop_only hb _ _ _ _ _).2 w hw

theorem sub_only {v : BibleVerse} (hv : v.book = b) (n : Int) (fl : Option BibleFlag) :
    v.sub (only e b) n fl = v.sub e n fl ∧ ∀ w, v.sub e n fl = .ok (some w) → w.book = b := by
  subst hv
  constructor
  · unfold BibleVerse.sub
    apply bind_same
    intro mx _
    exact (subLoop_only hb _ _ _ _ _).1
  · intro w hw
    unfold BibleVerse.sub at hw
    cases h1 : v.book.minVerseNum e v.chap (some (v.honourFlags (e.eff fl))) with
    | error x => simp only [h1, bind, Except.bind] at hw; cases hw
    | ok mx => simp only [h1, bind, Except.bind] at hw; exact (subLoop_only hb _ _ _ _ _).2 w hw

/-! ## Ranges of the book -/

omit hb in
theorem bookRange_only (fl : Option BibleFlag) : b.range (only e b) fl = b.range e fl := by
  unfold BibleBook.range
  refine bind_same fun s hs => bind_same fun t ht => ?_
  exact new_only' (firstVerse_book hs) (lastVerse_book ht) fl

omit hb in
theorem bookChapRange_only (c : Int) (fl : Option BibleFlag) : b.chapRange (only e b) c fl = b.chapRange e c fl := by
  unfold BibleBook.chapRange
  refine bind_same fun s hs => bind_same fun t ht => ?_
  exact new_only' (firstVerse_book hs) (lastVerse_book ht) fl

omit hb in
theorem range_lt_only {a r : BibleRange} (ha : Inside b a) (hr : Inside b r) : a.lt (only e b).data r = a.lt e.data r := by
  unfold BibleRange.lt
  rw [verse_lt_only ha.1 hr.1, verse_lt_only ha.2 hr.2]

omit hb in
theorem spans_only {r : BibleRange} (hr : Inside b r) (fl : Option BibleFlag) :
    r.spansStartChap (only e b) fl = r.spansStartChap e fl ∧ r.spansEndChap (only e b) fl = r.spansEndChap e fl ∧
    r.spansStartBook (only e b) fl = r.spansStartBook e fl ∧ r.spansEndBook (only e b) fl = r.spansEndBook e fl := by
  refine ⟨?_, ?_, ?_, ?_⟩
  · unfold BibleRange.spansStartChap
    refine bind_same fun s hs => ?_
    split
    · rfl
    · refine bind_same fun t ht => ?_
      rw [verse_lessEq_only ((lastVerse_book ht).trans hr.1) hr.2]
  · unfold BibleRange.spansEndChap
    refine bind_same fun s hs => ?_
    split
    · rfl
    · refine bind_same fun t ht => ?_
      rw [verse_lessEq_only hr.1 ((firstVerse_book ht).trans hr.2)]
  · unfold BibleRange.spansStartBook
    refine bind_same fun s hs => ?_
    split
    · rfl
    · refine bind_same fun t ht => ?_
      rw [verse_lessEq_only ((lastVerse_book ht).trans hr.1) hr.2]
  · unfold BibleRange.spansEndBook
    refine bind_same fun s hs => ?_
    split
    · rfl
    · refine bind_same fun t ht => ?_
      rw [verse_lessEq_only hr.1 ((firstVerse_book ht).trans hr.2)]

omit hb in
theorem outer_only {r : BibleRange} (hr : Inside b r) (fl : Option BibleFlag) :
    r.chapRange (only e b) fl = r.chapRange e fl ∧ r.bookRange (only e b) fl = r.bookRange e fl := by
  constructor
  · unfold BibleRange.chapRange
    refine bind_same fun s hs => bind_same fun t ht => ?_
    exact new_only' ((firstVerse_book hs).trans hr.1) ((lastVerse_book ht).trans hr.2) _
  · unfold BibleRange.bookRange
    refine bind_same fun s hs => bind_same fun t ht => ?_
    exact new_only' ((firstVerse_book hs).trans hr.1) ((lastVerse_book ht).trans hr.2) _

theorem chop_only (f : BibleFlag) {endOf : BibleVerse → Except PyErr BibleVerse}
    (hend : ∀ v w, endOf v = .ok w → w.book = v.book) (fuel : Nat) : ∀ start target : BibleVerse, start.book = b → target.book = b →
    BibleRange.chop (only e b) f endOf fuel start target = BibleRange.chop e f endOf fuel start target ∧
    ∀ l, BibleRange.chop e f endOf fuel start target = .ok l → ∀ x ∈ l, Inside b x := by
  induction fuel with
  | zero => intro s t _ _; exact ⟨rfl, fun l hl => by cases hl⟩
  | succ fuel ih =>
    intro s t hs ht
    rw [BibleRange.chop, BibleRange.chop]
    cases h1 : endOf s with
    | error x => exact ⟨rfl, fun l hl => by cases hl⟩
    | ok w =>
      have hw : w.book = b := (hend s w h1).trans hs
      simp only [bind, Except.bind]
      rw [verse_less_only hw ht, new_only' hs hw, new_only' hs ht, (add_only hb hw 1 (some f)).1,
        BibleVerse.less_eq (comparable_book (hw.trans ht.symm))]
      simp only
      by_cases hlt : w.lt e.data t = true
      · rw [if_pos hlt, if_pos hlt]
        cases h2 : BibleRange.new e (some s) (some w) (some f) with
        | error x => exact ⟨rfl, fun l hl => by cases hl⟩
        | ok piece =>
          simp only
          cases h3 : w.add e 1 (some f) with
          | error x => exact ⟨rfl, fun l hl => by cases hl⟩
          | ok o =>
            cases o with
            | none => exact ⟨rfl, fun l hl => by cases hl⟩
            | some s' =>
              have hs' := (add_only hb hw 1 (some f)).2 s' h3
              simp only
              rw [(ih s' t hs' ht).1]
              refine ⟨rfl, ?_⟩
              cases h4 : BibleRange.chop e f endOf fuel s' t with
              | error x => exact fun l hl => by cases hl
              | ok rest =>
                intro l hl x hx
                cases hl
                rcases List.mem_cons.mp hx with rfl | hx
                · exact range_new_inside (by rintro v ⟨⟩; exact hs) (by rintro v ⟨⟩; exact hw) h2
                · exact (ih s' t hs' ht).2 rest h4 x hx
      · rw [if_neg hlt, if_neg hlt]
        refine ⟨rfl, ?_⟩
        cases h2 : BibleRange.new e (some s) (some t) (some f) with
        | error x => exact fun l hl => by cases hl
        | ok piece =>
          intro l hl x hx
          cases hl
          cases List.mem_singleton.mp hx
          exact range_new_inside (by rintro v ⟨⟩; exact hs) (by rintro v ⟨⟩; exact ht) h2

theorem chopNum_only (f : BibleFlag) (n : Int) {target : BibleVerse} (ht : target.book = b) (fuel : Nat) :
    ∀ s t : Option BibleVerse, (∀ v, s = some v → v.book = b) → (∀ v, t = some v → v.book = b) →
    BibleRange.chopNum (only e b) f n target fuel s t = BibleRange.chopNum e f n target fuel s t := by
  induction fuel with
  | zero => intro s t _ _; rfl
  | succ fuel ih =>
    intro s t hs hw
    have ht' : ∀ v, some target = some v → v.book = b := by rintro v ⟨⟩; exact ht
    cases t with
    | none => rw [BibleRange.chopNum.eq_def, BibleRange.chopNum.eq_def]; simp only; rw [new_only hs ht']
    | some w =>
      have hwb := hw w rfl
      rw [BibleRange.chopNum.eq_def, BibleRange.chopNum.eq_def]
      simp only
      rw [verse_less_only hwb ht, BibleVerse.less_eq (comparable_book (hwb.trans ht.symm))]
      simp only [bind, Except.bind]
      rw [new_only hs hw, new_only hs ht', (add_only hb hwb 1 (some f)).1, (add_only hb hwb n (some f)).1]
      by_cases hlt : w.lt e.data target = true
      · rw [if_pos hlt, if_pos hlt]
        refine bind_same fun p hp => bind_same fun s' hs' => bind_same fun t' ht'' => ?_
        rw [ih s' t' (fun v hv => (add_only hb hwb 1 (some f)).2 v (hv ▸ hs')) (fun v hv => (add_only hb hwb n (some f)).2 v (hv ▸ ht''))]
      · rw [if_neg hlt, if_neg hlt]

omit hb in
theorem mapM_same {α β : Type} {f g : α → Except PyErr β} {l : List α} (hfg : ∀ x ∈ l, f x = g x) : l.mapM f = l.mapM g := by
  induction l with
  | nil => rfl
  | cons x l ih => rw [List.mapM_cons, List.mapM_cons, hfg x List.mem_cons_self, ih (fun y hy => hfg y (List.mem_cons_of_mem _ hy))]

omit hb in
theorem mapM_except {step step' : BibleRange → Except PyErr (List BibleRange)} {P : BibleRange → Prop}
    (hst : ∀ r, P r → step' r = step r ∧ ∀ l, step r = .ok l → ∀ x ∈ l, P x) : ∀ l : List BibleRange, (∀ r ∈ l, P r) →
    l.mapM step' = l.mapM step ∧ ∀ ls, l.mapM step = .ok ls → ∀ x ∈ ls.flatten, P x := by
  intro l
  induction l with
  | nil => intro _; exact ⟨rfl, fun ls hls => by cases hls; simp⟩
  | cons r l ih =>
    intro hP
    have hr := hst r (hP r List.mem_cons_self)
    have hl := ih (fun x hx => hP x (List.mem_cons_of_mem _ hx))
    rw [List.mapM_cons, List.mapM_cons, hr.1, hl.1]
    refine ⟨rfl, ?_⟩
    cases h1 : step r with
    | error x => exact fun ls hls => by cases hls
    | ok a =>
      cases h2 : l.mapM step with
      | error x => exact fun ls hls => by cases hls
      | ok as =>
        intro ls hls x hx
        cases hls
        rw [List.flatten_cons, List.mem_append] at hx
        rcases hx with hx | hx
        · exact hr.2 a h1 x hx
        · exact hl.2 as h2 x hx

omit hb in
theorem splitEach_only {step step' : BibleRange → Except PyErr (List BibleRange)}
    (hst : ∀ r, Inside b r → step' r = step r ∧ ∀ l, step r = .ok l → ∀ x ∈ l, Inside b x) (l : List BibleRange)
    (hl : ∀ r ∈ l, Inside b r) :
    BibleRange.splitEach step' l = BibleRange.splitEach step l ∧ ∀ l', BibleRange.splitEach step l = .ok l' → ∀ x ∈ l', Inside b x := by
  have key := mapM_except hst l hl
  unfold BibleRange.splitEach
  rw [key.1]
  refine ⟨rfl, ?_⟩
  cases h1 : l.mapM step with
  | error x => exact fun ls hls => by cases hls
  | ok as => intro ls hls; cases hls; exact key.2 as h1

omit hb in
theorem splitEach_same {f g : BibleRange → Except PyErr (List BibleRange)} {l : List BibleRange} (hfg : ∀ x ∈ l, f x = g x) :
    BibleRange.splitEach f l = BibleRange.splitEach g l := by
  unfold BibleRange.splitEach; rw [mapM_same hfg]

theorem numStep_only {x : BibleRange} (hx : Inside b x) (f : BibleFlag) (n : Int) (fuel : Nat) :
    (do let stop ← x.start.add (only e b) (n - 1) (some f)
        BibleRange.chopNum (only e b) f n x.stop fuel (some x.start) stop : Except PyErr (List BibleRange)) =
    (do let stop ← x.start.add e (n - 1) (some f)
        BibleRange.chopNum e f n x.stop fuel (some x.start) stop) := by
  have ha := add_only hb hx.1 (n - 1) (some f)
  rw [ha.1]
  exact bind_same fun t ht =>
    chopNum_only hb _ n hx.2 fuel _ _ (by rintro v ⟨⟩; exact hx.1) (fun v hv => ha.2 v (hv ▸ ht))

theorem splitRaw_only {r : BibleRange} (hr : Inside b r) (byBook byChap : Bool) (n : Option Int) (fl : Option BibleFlag) (fuel : Nat) :
    r.splitRaw (only e b) byBook byChap n fl fuel = r.splitRaw e byBook byChap n fl fuel ∧
    (n = none → ∀ l, r.splitRaw e byBook byChap n fl fuel = .ok l → ∀ x ∈ l, Inside b x) := by
  have hbook : ∀ l, (∀ x ∈ l, Inside b x) → _ := fun l hl => splitEach_only (b := b)
    (step' := fun x => BibleRange.chop (only e b) (r.splitFlags e fl) (fun v => v.book.lastVerse e none) fuel x.start x.stop)
    (step := fun x => BibleRange.chop e (r.splitFlags e fl) (fun v => v.book.lastVerse e none) fuel x.start x.stop)
    (fun x hx => chop_only hb (r.splitFlags e fl) (fun v w hw => lastVerse_book hw) fuel x.start x.stop hx.1 hx.2) l hl
  have hchap : ∀ l, (∀ x ∈ l, Inside b x) → _ := fun l hl => splitEach_only (b := b)
    (step' := fun x => BibleRange.chop (only e b) (r.splitFlags e fl) (fun v => v.lastVerse e none) fuel x.start x.stop)
    (step := fun x => BibleRange.chop e (r.splitFlags e fl) (fun v => v.lastVerse e none) fuel x.start x.stop)
    (fun x hx => chop_only hb (r.splitFlags e fl) (fun v w hw => lastVerse_book hw) fuel x.start x.stop hx.1 hx.2) l hl
  have h0 : ∀ x ∈ [r], Inside b x := by simpa using hr
  have hl1 : ∀ (o : Except PyErr (List BibleRange)), o = (if byBook then BibleRange.splitEach (fun r' => BibleRange.chop e (r.splitFlags e fl)
      (fun v => v.book.lastVerse e none) fuel r'.start r'.stop) [r] else pure [r] : Except PyErr (List BibleRange)) →
      ∀ l, o = .ok l → ∀ x ∈ l, Inside b x := by
    rintro _ rfl l hl
    cases byBook
    · cases hl; exact h0
    · exact (hbook _ h0).2 l hl
  have hl2 : ∀ l₀, (∀ x ∈ l₀, Inside b x) → ∀ l, (if byChap then BibleRange.splitEach (fun r' => BibleRange.chop e (r.splitFlags e fl)
      (fun v => v.lastVerse e none) fuel r'.start r'.stop) l₀ else pure l₀ : Except PyErr (List BibleRange)) = .ok l →
      ∀ x ∈ l, Inside b x := by
    intro l₀ hl₀ l hl
    cases byChap
    · cases hl; exact hl₀
    · exact (hchap _ hl₀).2 l hl
  unfold BibleRange.splitRaw
  constructor
  · show (Except.bind _ _) = (Except.bind _ _)
    have e1 : (if byBook then BibleRange.splitEach (fun r' => BibleRange.chop (only e b) (r.splitFlags (only e b) fl)
      (fun v => v.book.lastVerse (only e b) none) fuel r'.start r'.stop) [r] else pure [r] : Except PyErr (List BibleRange)) =
      (if byBook then BibleRange.splitEach (fun r' => BibleRange.chop e (r.splitFlags e fl)
      (fun v => v.book.lastVerse e none) fuel r'.start r'.stop) [r] else pure [r]) := by
      cases byBook
      · rfl
      · exact (hbook _ h0).1
    rw [e1]
    refine bind_same fun l1 h1 => ?_
    have hI1 := hl1 _ rfl l1 h1
    have e2 : (if byChap then BibleRange.splitEach (fun r' => BibleRange.chop (only e b) (r.splitFlags (only e b) fl)
      (fun v => v.lastVerse (only e b) none) fuel r'.start r'.stop) l1 else pure l1 : Except PyErr (List BibleRange)) =
      (if byChap then BibleRange.splitEach (fun r' => BibleRange.chop e (r.splitFlags e fl)
      (fun v => v.lastVerse e none) fuel r'.start r'.stop) l1 else pure l1) := by
      cases byChap
      · rfl
      · exact (hchap _ hI1).1
    rw [e2]
    refine bind_same fun l2 h2 => ?_
    have hI2 := hl2 _ hI1 l2 h2
    cases n with
    | none => rfl
    | some n =>
      simp only
      exact splitEach_same fun x hx => numStep_only hb (hI2 x hx) _ n fuel
  · rintro rfl l hl
    simp only [bind] at hl
    cases h1 : (if byBook then BibleRange.splitEach (fun r' => BibleRange.chop e (r.splitFlags e fl)
      (fun v => v.book.lastVerse e none) fuel r'.start r'.stop) [r] else pure [r] : Except PyErr (List BibleRange)) with
    | error x => rw [h1] at hl; cases hl
    | ok l1 =>
      rw [h1] at hl
      simp only [Except.bind] at hl
      cases h2 : (if byChap then BibleRange.splitEach (fun r' => BibleRange.chop e (r.splitFlags e fl)
        (fun v => v.lastVerse e none) fuel r'.start r'.stop) l1 else pure l1 : Except PyErr (List BibleRange)) with
      | error x => rw [h2] at hl; cases hl
      | ok l2 => rw [h2] at hl; cases hl; exact hl2 _ (hl1 _ rfl l1 h1) _ h2

theorem counts_only {r : BibleRange} (hr : Inside b r) (whole : Bool) :
    r.verseCount (only e b) = r.verseCount e ∧ r.chapCount (only e b) whole = r.chapCount e whole ∧
    r.bookCount (only e b) whole = r.bookCount e whole := by
  refine ⟨?_, ?_, ?_⟩
  · unfold BibleRange.verseCount
    rw [(splitRaw_only hb hr _ _ _ _ _).1]; rfl
  · unfold BibleRange.chapCount
    rw [(splitRaw_only hb hr _ _ _ _ _).1]; rfl
  · unfold BibleRange.bookCount
    rw [(splitRaw_only hb hr _ _ _ _ _).1]; rfl

theorem iterFrom_only {stop : BibleVerse} (ht : stop.book = b) (fuel : Nat) : ∀ s : Option BibleVerse, (∀ v, s = some v → v.book = b) →
    BibleRange.iterFrom (only e b) stop fuel s = BibleRange.iterFrom e stop fuel s := by
  induction fuel with
  | zero => intro s _; cases s <;> rfl
  | succ fuel ih =>
    intro s hs
    cases s with
    | none => rfl
    | some v =>
      have hv := hs v rfl
      rw [BibleRange.iterFrom, BibleRange.iterFrom, verse_lessEq_only hv ht, (add_only hb hv 1 _).1]
      refine bind_same fun x hx => ?_
      split
      · refine bind_same fun s' hs' => ?_
        rw [ih s' (fun w hw => (add_only hb hv 1 _).2 w (hw ▸ hs'))]
      · rfl

theorem iter_only {r : BibleRange} (hr : Inside b r) : r.iter (only e b) = r.iter e :=
  iterFrom_only hb hr.2 _ _ (by rintro v ⟨⟩; exact hr.1)

theorem subVerse_only {v w : BibleVerse} (hv : v.book = b) (hw : w.book = b) : v.subVerse (only e b) w = v.subVerse e w := by
  unfold BibleVerse.subVerse
  rw [new_only' hv hw]
  refine bind_same fun r hr => ?_
  rw [(counts_only hb (range_new_inside (by rintro v ⟨⟩; exact hv) (by rintro v ⟨⟩; exact hw) hr) true).1]
  refine bind_same fun n hn => ?_
  rw [verse_less_only hv hw]

/-! ## Two ranges of the book -/

omit hb in
theorem lowerHigher_only {a r : BibleRange} (ha : Inside b a) (hr : Inside b r) :
    BibleRange.lowerHigher (only e b).data a r = BibleRange.lowerHigher e.data a r ∧
    Inside b (BibleRange.lowerHigher e.data a r).1 ∧ Inside b (BibleRange.lowerHigher e.data a r).2 := by
  unfold BibleRange.lowerHigher
  rw [range_lt_only ha hr]
  split
  · exact ⟨rfl, ha, hr⟩
  · exact ⟨rfl, hr, ha⟩

omit hb in
theorem tests_only {a r : BibleRange} (ha : Inside b a) (hr : Inside b r) :
    a.disjointT (only e b).data r = a.disjointT e.data r ∧ a.containsT (only e b).data r = a.containsT e.data r ∧
    a.surroundsT (only e b).data r = a.surroundsT e.data r ∧
    BibleRange.minVerse (only e b).data a.start r.start = BibleRange.minVerse e.data a.start r.start ∧
    BibleRange.maxVerse (only e b).data a.stop r.stop = BibleRange.maxVerse e.data a.stop r.stop ∧
    BibleRange.maxVerse (only e b).data a.start r.start = BibleRange.maxVerse e.data a.start r.start ∧
    BibleRange.minVerse (only e b).data a.stop r.stop = BibleRange.minVerse e.data a.stop r.stop := by
  refine ⟨?_, ?_, ?_, ?_, ?_, ?_, ?_⟩
  · have h1 := lowerHigher_only (e := e) ha hr
    unfold BibleRange.disjointT
    rw [h1.1]
    exact verse_lt_only h1.2.1.2 h1.2.2.1
  · unfold BibleRange.containsT
    rw [verse_le_only ha.1 hr.1, verse_le_only hr.1 ha.2, verse_le_only ha.1 hr.2, verse_le_only hr.2 ha.2]
  · unfold BibleRange.surroundsT
    rw [verse_lt_only ha.1 hr.1, verse_lt_only hr.1 ha.2, verse_lt_only ha.1 hr.2, verse_lt_only hr.2 ha.2]
  · unfold BibleRange.minVerse; rw [verse_lt_only hr.1 ha.1]
  · unfold BibleRange.maxVerse; rw [verse_lt_only ha.2 hr.2]
  · unfold BibleRange.maxVerse; rw [verse_lt_only ha.1 hr.1]
  · unfold BibleRange.minVerse; rw [verse_lt_only hr.2 ha.2]

omit hb in
theorem minVerse_book (d : BibleData) {v w : BibleVerse} (hv : v.book = b) (hw : w.book = b) : (BibleRange.minVerse d v w).book = b := by
  unfold BibleRange.minVerse; split <;> assumption

omit hb in
theorem maxVerse_book (d : BibleData) {v w : BibleVerse} (hv : v.book = b) (hw : w.book = b) : (BibleRange.maxVerse d v w).book = b := by
  unfold BibleRange.maxVerse; split <;> assumption

theorem isAdjacent_only {a r : BibleRange} (ha : Inside b a) (hr : Inside b r) (fl : Option BibleFlag) :
    a.isAdjacent (only e b) r fl = a.isAdjacent e r fl := by
  have h1 := lowerHigher_only (e := e) ha hr
  rw [BibleRange.isAdjacent_eq (inside_alike ha hr), BibleRange.isAdjacent_eq (inside_alike ha hr)]
  rw [h1.1]
  simp only
  rw [(add_only hb h1.2.1.2 1 fl).1]

theorem union_only {a r : BibleRange} (ha : Inside b a) (hr : Inside b r) (fl : Option BibleFlag) :
    a.union (only e b) r fl = a.union e r fl ∧ ∀ l, a.union e r fl = .ok l → ∀ x ∈ l, Inside b x := by
  obtain ⟨t1, -, -, t2, t3, -, -⟩ := tests_only (e := e) ha hr
  have hn := new_only' (e := e) (minVerse_book e.data ha.1 hr.1) (maxVerse_book e.data ha.2 hr.2) fl
  have h1 := lowerHigher_only (e := e) ha hr
  rw [BibleRange.union_eq (inside_alike ha hr), BibleRange.union_eq (inside_alike ha hr)]
  rw [t1, isAdjacent_only hb ha hr, t2, t3, hn, h1.1]
  refine ⟨rfl, fun l hl => ?_⟩
  simp only [bind] at hl
  cases hq : (if a.disjointT e.data r then (a.isAdjacent e r fl).bind (fun adj => pure (!adj)) else pure false : Except PyErr Bool) with
  | error x => rw [hq] at hl; cases hl
  | ok apart =>
    rw [hq] at hl
    simp only [Except.bind] at hl
    cases apart with
    | true =>
      cases hl
      intro x hx
      rcases List.mem_cons.mp hx with rfl | hx
      · exact h1.2.1
      · cases List.mem_singleton.mp hx; exact h1.2.2
    | false =>
      simp only [Bool.false_eq_true, if_false] at hl
      cases hr2 : BibleRange.new e (some (BibleRange.minVerse e.data a.start r.start)) (some (BibleRange.maxVerse e.data a.stop r.stop)) fl with
      | error x => rw [hr2] at hl; cases hl
      | ok y =>
        rw [hr2] at hl
        cases hl
        intro x hx
        cases List.mem_singleton.mp hx
        exact range_new_inside (by rintro v ⟨⟩; exact minVerse_book e.data ha.1 hr.1) (by rintro v ⟨⟩; exact maxVerse_book e.data ha.2 hr.2) hr2

omit hb in
theorem intersection_only {a r : BibleRange} (ha : Inside b a) (hr : Inside b r) (fl : Option BibleFlag) :
    a.intersection (only e b) r fl = a.intersection e r fl ∧ ∀ l, a.intersection e r fl = .ok l → ∀ x ∈ l, Inside b x := by
  obtain ⟨t1, -, -, -, -, t2, t3⟩ := tests_only (e := e) ha hr
  have hn := new_only' (e := e) (maxVerse_book e.data ha.1 hr.1) (minVerse_book e.data ha.2 hr.2) fl
  rw [BibleRange.intersection_eq (inside_alike ha hr), BibleRange.intersection_eq (inside_alike ha hr)]
  rw [t1, t2, t3, hn]
  refine ⟨rfl, fun l hl => ?_⟩
  split at hl
  · cases hl; simp
  · cases hr2 : BibleRange.new e (some (BibleRange.maxVerse e.data a.start r.start)) (some (BibleRange.minVerse e.data a.stop r.stop)) fl with
    | error x => rw [hr2] at hl; cases hl
    | ok y =>
      rw [hr2] at hl
      cases hl
      intro x hx
      cases List.mem_singleton.mp hx
      exact range_new_inside (by rintro v ⟨⟩; exact maxVerse_book e.data ha.1 hr.1) (by rintro v ⟨⟩; exact minVerse_book e.data ha.2 hr.2) hr2

theorem difference_only {a r : BibleRange} (ha : Inside b a) (hr : Inside b r) (fl : Option BibleFlag) :
    a.difference (only e b) r fl = a.difference e r fl := by
  rw [BibleRange.difference_eq (inside_alike ha hr), BibleRange.difference_eq (inside_alike ha hr)]
  rw [(tests_only ha hr).1, (tests_only hr ha).2.1, (tests_only ha hr).2.2.1, range_lt_only ha hr, (sub_only hb hr.1 1 fl).1,
    (add_only hb hr.2 1 fl).1]
  split
  · rfl
  · split
    · rfl
    · refine bind_same fun s hs => ?_
      rw [new_only (by rintro v ⟨⟩; exact ha.1) (fun v hv => (sub_only hb hr.1 1 fl).2 v (hv ▸ hs))]
      refine bind_same fun lower hl => bind_same fun t ht => ?_
      rw [new_only (fun v hv => (add_only hb hr.2 1 fl).2 v (hv ▸ ht)) (by rintro v ⟨⟩; exact ha.2)]

theorem symDifference_only {a r : BibleRange} (ha : Inside b a) (hr : Inside b r) (fl : Option BibleFlag) :
    a.symDifference (only e b) r fl = a.symDifference e r fl := by
  unfold BibleRange.symDifference
  rw [(union_only hb ha hr fl).1, (intersection_only ha hr fl).1]
  split
  · rfl
  · refine bind_same fun u hu => bind_same fun i hi => ?_
    split
    · rfl
    · cases u with
      | nil => rfl
      | cons u0 u =>
        cases i with
        | nil => rfl
        | cons i0 i =>
          exact difference_only hb ((union_only hb ha hr fl).2 _ hu u0 List.mem_cons_self)
            ((intersection_only ha hr fl).2 _ hi i0 List.mem_cons_self) none

end
end Bibleref

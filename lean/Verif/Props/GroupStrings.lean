import Verif.Model.GroupStr
import Verif.SpecGroupText
import Verif.Props.GroupedLists
import Verif.Props.Reprs
import Verif.Lemmas.ListOps

/-!
# Strings of groups (C84)
-/

namespace Bibleref
open Spec HM

/-! ## Telling lists apart -/

theorem pyItems_cons (x : List Char) {l : List (List Char)} (hl : l ≠ []) : pyItems (x :: l) = x ++ ',' :: ' ' :: pyItems l := by
  cases l with
  | nil => exact absurd rfl hl
  | cons y l => rfl

theorem pyItems_eq (l : List (List Char)) : pyItems l = List.intercalate ", ".toList l := by
  induction l with
  | nil => rfl
  | cons x l ih =>
    cases l with
    | nil => simp [pyItems, List.intercalate]
    | cons y l =>
      rw [pyItems_cons x (by simp), ih]
      simp [List.intercalate, List.intersperse]

theorem pyListStr_eq (l : List (List Char)) : pyListStr l = bracketed l := by
  unfold pyListStr bracketed
  rw [pyItems_eq]
  rfl

theorem pyItems_next (x : List Char) (l : List (List Char)) (s : List Char) :
    pyItems (x :: l) ++ ']' :: s = x ++ (if l = [] then ']' else ',') :: (if l = [] then s else ' ' :: (pyItems l ++ ']' :: s)) := by
  by_cases hl : l = []
  · subst hl; rfl
  · rw [pyItems_cons x hl, if_neg hl, if_neg hl]
    simp

section
variable {α : Type} {text : α → List Char} {D : α → Prop}

theorem pyItems_inj (ht : Telling text D) {xs ys : List α} (hx : ∀ x ∈ xs, D x) (hy : ∀ y ∈ ys, D y) {s t : List Char}
    (hh : pyItems (xs.map text) ++ ']' :: s = pyItems (ys.map text) ++ ']' :: t) : xs = ys := by
  have one : ∀ {y : α} {l : List α} {s t : List Char}, D y → ']' :: s ≠ pyItems ((y :: l).map text) ++ ']' :: t := by
    intro y l s t hy hh
    rw [List.map_cons, pyItems_next] at hh
    obtain ⟨c, r, h1, h2⟩ := ht.start y hy
    rw [h1] at hh
    injection hh with hc
    exact h2 hc.symm
  induction xs generalizing ys s t with
  | nil =>
    cases ys with
    | nil => rfl
    | cons y l => exact absurd hh (one (hy y List.mem_cons_self))
  | cons x xs ih =>
    cases ys with
    | nil => exact absurd hh.symm (one (hx x List.mem_cons_self))
    | cons y ys =>
      rw [List.map_cons, List.map_cons, pyItems_next, pyItems_next] at hh
      have hxy := ht.apart x y (hx x List.mem_cons_self) (hy y List.mem_cons_self) _ (by split <;> simp) _ (by split <;> simp) _ _ hh
      subst hxy
      have hh := List.append_cancel_left hh
      simp only [List.map_eq_nil_iff] at hh
      injection hh with h1 h2
      congr 1
      by_cases e1 : xs = [] <;> by_cases e2 : ys = [] <;> simp only [e1, e2, if_true, if_false] at h1 h2
      · rw [e1, e2]
      · exact absurd h1 (by decide)
      · exact absurd h1 (by decide)
      · injection h2 with _ h2
        exact ih (fun x hm => hx x (List.mem_cons_of_mem _ hm)) (fun y hm => hy y (List.mem_cons_of_mem _ hm)) h2

theorem bracketed_inj (ht : Telling text D) {xs ys : List α} (hx : ∀ x ∈ xs, D x) (hy : ∀ y ∈ ys, D y) {s t : List Char}
    (hh : bracketed (xs.map text) ++ s = bracketed (ys.map text) ++ t) : xs = ys := by
  rw [← pyListStr_eq, ← pyListStr_eq, pyListStr, pyListStr] at hh
  simp only [List.cons_append, List.append_assoc, List.nil_append] at hh
  injection hh with _ hh
  exact pyItems_inj ht hx hy hh

/-- Lists can be told apart if their items can be, whatever is written around them. -/
theorem telling_wrapped (ht : Telling text D) (pre suf : List Char) (hpre : ∀ c, pre.head? = some c → c ≠ ']') :
    Telling (fun xs : List α => pre ++ bracketed (xs.map text) ++ suf) (fun xs => ∀ x ∈ xs, D x) := by
  refine ⟨fun xs _ => ?_, fun xs ys hx hy c _ c' _ s t hh => ?_⟩
  · cases pre with
    | nil => exact ⟨'[', _, rfl, by decide⟩
    | cons c pre => exact ⟨c, _, rfl, hpre c rfl⟩
  · simp only [List.append_assoc] at hh
    exact bracketed_inj ht hx hy (List.append_cancel_left hh)

theorem mapM_text {shown : α → Except PyErr (List Char)} {xs : List α} (hs : ∀ x ∈ xs, shown x = .ok (text x)) :
    xs.mapM shown = .ok (xs.map text) := mapM_ok hs

end

/-! ## C84 -/

variable {α : Type} [DecidableEq α] {le : α → α → Bool} {depth : Nat} {ops : List (WorldOp α)} {h : Heap α}
  {ws : List (List (List α))} {L M : Nat} {xs ys : List (List α)} {shown : α → Except PyErr (List Char)} {text : α → List Char}

omit [DecidableEq α] in
/-- C84 for a view, in any state of the memory: its string shows the items that iterating over it gives, and iterating and the string
raise the same exception if the view is no longer valid. -/
theorem C84_view (g : Nat) : (∀ grp, Heap.viewToList g h = (.ok grp, h) → (∀ x ∈ grp, shown x = .ok (text x)) →
      Heap.viewStr shown g h = (.ok (bracketed (grp.map text)), h)) ∧
    ∀ x, Heap.viewToList g h = (.error x, h) → Heap.viewStr shown g h = (.error x, h) := by
  unfold Heap.viewToList Heap.viewStr Heap.viewText
  simp only [readE_run]
  cases hv : Heap.viewIds g h with
  | error y =>
    refine ⟨fun grp hg => ?_, fun x hx => ?_⟩
    · cases hg
    · cases hx; rfl
  | ok l =>
    refine ⟨fun grp hg hs => ?_, fun x hx => by cases hx⟩
    have hg : grp = l.map h.value := by cases hg; rfl
    subst hg
    simp only [bind, Except.bind]
    rw [mapM_ok (g := fun n => text (h.value n)) (fun n hn => hs _ (List.mem_map_of_mem hn)), ← pyListStr_eq, List.map_map]
    rfl

/-- C84: the strings of a list, and of its groups, after any history of the lists. -/
theorem C84_shown (ha : After le depth ops h ws) (hL : ws[L]? = some xs) (hs : ∀ x ∈ xs.flatten, shown x = .ok (text x)) :
    Heap.listStr shown L h = (.ok (bracketed (xs.map fun g => bracketed (g.map text))), h) ∧
    Heap.listRepr shown L h = (.ok ("GroupedList(".toList ++ bracketed (xs.map fun g => bracketed (g.map text)) ++ ")".toList), h) ∧
    Heap.groupsStr shown L h = (.ok (bracketed (xs.map fun g => "GroupView(".toList ++ bracketed (g.map text) ++ ")".toList)), h) ∧
    Heap.groupsRepr shown L h = (.ok ("GroupViews(".toList ++
      bracketed (xs.map fun g => "GroupView(".toList ++ bracketed (g.map text) ++ ")".toList) ++ ")".toList), h) := by
  obtain ⟨gs, hr, rfl⟩ := ha.rep hL
  have hs' : ∀ g ∈ gs, ∀ n ∈ g.1 :: g.2, shown (h.value n) = .ok (text (h.value n)) := fun g hg n hn =>
    hs _ (List.mem_flatten.mpr ⟨_, List.mem_map_of_mem hg, List.mem_map_of_mem hn⟩)
  have h1 : Heap.listStr shown L h = (.ok (bracketed ((valuesOf h gs).map fun g => bracketed (g.map text))), h) := by
    unfold Heap.listStr
    rw [bind_ok hr.toNested, readE_run]
    rw [mapM_ok (g := fun g => bracketed (g.map text))]
    · simp only [bind, Except.bind, pure, Except.pure, pyListStr_eq]
    · intro g hg
      rw [mapM_text (text := text) fun x hx => hs x (List.mem_flatten.mpr ⟨g, hg, hx⟩)]
      simp only [bind, Except.bind, pure, Except.pure, pyListStr_eq]
  have h3 : Heap.groupsStr shown L h =
      (.ok (bracketed ((valuesOf h gs).map fun g => "GroupView(".toList ++ bracketed (g.map text) ++ ")".toList)), h) := by
    unfold Heap.groupsStr
    rw [readE_run, hr.headIds]
    simp only [bind, Except.bind]
    have key : ∀ g ∈ gs, Heap.viewRepr shown g.1 h =
        .ok ("GroupView(".toList ++ bracketed (((g.1 :: g.2).map h.value).map text) ++ ")".toList) := by
      intro g hg
      unfold Heap.viewRepr Heap.viewText
      rw [hr.viewIds hg]
      simp only [bind, Except.bind]
      rw [mapM_ok (g := fun n => text (h.value n)) (hs' g hg), List.map_map]
      simp only [pure, Except.pure, pyListStr_eq]
      rfl
    have all : ∀ l : List Grp, (∀ g ∈ l, g ∈ gs) → ((headsOf l).mapM fun g => Heap.viewRepr shown g h) =
        .ok ((valuesOf h l).map fun g => "GroupView(".toList ++ bracketed (g.map text) ++ ")".toList) := by
      intro l hl
      induction l with
      | nil => rfl
      | cons g l ih =>
        rw [headsOf_cons, List.mapM_cons, ih (fun x hx => hl x (List.mem_cons_of_mem _ hx)), key g (hl g List.mem_cons_self)]
        rfl
    rw [all gs fun _ hg => hg]
    simp only [pure, Except.pure, pyListStr_eq]
  refine ⟨h1, ?_, h3, ?_⟩
  · unfold Heap.listRepr; rw [bind_ok h1]; rfl
  · unfold Heap.groupsRepr; rw [bind_ok h3]; rfl

/-- C84: if the items can be told apart, two lists have the same string exactly when they have the same groups, and so for the strings
of their groups. -/
theorem C84_distinct (ha : After le depth ops h ws) (hL : ws[L]? = some xs) (hM : ws[M]? = some ys) {D : α → Prop}
    (ht : Telling text D) (hx : ∀ x ∈ xs.flatten, D x ∧ shown x = .ok (text x)) (hy : ∀ y ∈ ys.flatten, D y ∧ shown y = .ok (text y)) :
    ((Heap.listStr shown L h).1 = (Heap.listStr shown M h).1 ↔ xs = ys) ∧
    ((Heap.groupsStr shown L h).1 = (Heap.groupsStr shown M h).1 ↔ xs = ys) := by
  obtain ⟨a1, _, a3, _⟩ := C84_shown ha hL (fun x hm => (hx x hm).2)
  obtain ⟨b1, _, b3, _⟩ := C84_shown ha hM (fun x hm => (hy x hm).2)
  have dx : ∀ g ∈ xs, ∀ x ∈ g, D x := fun g hg x hm => (hx x (List.mem_flatten.mpr ⟨g, hg, hm⟩)).1
  have dy : ∀ g ∈ ys, ∀ x ∈ g, D x := fun g hg x hm => (hy x (List.mem_flatten.mpr ⟨g, hg, hm⟩)).1
  have t1 := telling_wrapped ht [] [] nofun
  have t2 := telling_wrapped ht "GroupView(".toList ")".toList (by decide)
  simp only [List.nil_append, List.append_nil] at t1
  constructor
  · rw [a1, b1]
    refine ⟨fun hh => ?_, fun hh => by rw [hh]⟩
    exact bracketed_inj (s := []) (t := []) t1 dx dy (by rw [Except.ok.inj hh])
  · rw [a3, b3]
    refine ⟨fun hh => ?_, fun hh => by rw [hh]⟩
    exact bracketed_inj (s := []) (t := []) t2 dx dy (by rw [Except.ok.inj hh])

/-! ## C84 for ranges -/

theorem mem_of_mem_strip {u : Uni} {s : List Char} {c : Char} (hc : c ∈ strip u s) : c ∈ s := by
  unfold strip at hc
  rw [List.mem_reverse] at hc
  have h1 := (List.dropWhile_sublist _).subset hc
  rw [List.mem_reverse] at h1
  exact (List.dropWhile_sublist _).subset h1

theorem mem_of_mem_blanks {s : List Char} {c : Char} (hc : c ∈ removeBlanks s) : c ∈ s := (List.mem_filter.mp hc).1

theorem not_mem_intStr (n : Int) : ')' ∉ intStr n := by
  have h1 : ')' ∉ natStr n.natAbs := fun hh => absurd ((natStr_spec _).2.1 _ hh) (by decide)
  unfold intStr
  split
  · simp only [List.mem_cons, not_or]
    exact ⟨by decide, h1⟩
  · exact h1

theorem verse_str_paren {u : Uni} {d : BibleData} {o : StrOpts} {p : Parts} {v : BibleVerse} (hn : ')' ∉ v.book.shownName d o)
    (h1 : d.verseSepStd ≠ ')') (h2 : d.verseSepAlt ≠ ')') : ')' ∉ v.str u d o p := by
  intro hh
  have key : ∀ p : Parts, ')' ∉ (if p.book then v.book.shownName d o else []) ++ [' '] ++ (if p.chap then intStr v.chap else []) ++
      (if p.chap && p.verse then [if o.altSep then d.verseSepAlt else d.verseSepStd] else []) ++ (if p.verse then intStr v.verse else []) := by
    intro p
    have i1 := not_mem_intStr v.chap
    have i2 := not_mem_intStr v.verse
    rcases p with ⟨a, b, c⟩
    cases a <;> cases b <;> cases c <;> cases o.altSep <;> simp [hn, i1, i2, h1.symm, h2.symm]
  unfold BibleVerse.str at hh
  dsimp only at hh
  split at hh
  · exact key _ (mem_of_mem_blanks hh)
  · exact key _ (mem_of_mem_strip hh)

theorem range_str_paren {u : Uni} {e : Env} {o : StrOpts} {flags : Option BibleFlag} {r : BibleRange} {s : List Char}
    (hs : r.str u e o flags = .ok s) (hn : ')' ∉ r.start.book.shownName e.data o) (hn' : ')' ∉ r.stop.book.shownName e.data o)
    (h1 : e.data.verseSepStd ≠ ')') (h2 : e.data.verseSepAlt ≠ ')') (h3 : e.data.rangeSep ≠ ')') : ')' ∉ s := by
  have k1 : ∀ p, ')' ∉ r.start.str u e.data o p := fun p => verse_str_paren hn h1 h2
  have k2 : ∀ p, ')' ∉ r.stop.str u e.data o p := fun p => verse_str_paren hn' h1 h2
  have k3 : ∀ p q, ')' ∉ r.start.str u e.data o p ++ e.data.rangeSep :: r.stop.str u e.data o q := by
    intro p q
    simp only [List.mem_append, List.mem_cons, not_or]
    exact ⟨k1 p, h3.symm, k2 q⟩
  have k4 : ∀ p, ')' ∉ r.start.str u e.data o p ++ [] := fun p => by rw [List.append_nil]; exact k1 p
  have fin : ∀ t : List Char, ')' ∉ t → ')' ∉ (if o.nospace then removeBlanks t else strip u t) := by
    intro t ht hh
    split at hh
    · exact ht (mem_of_mem_blanks hh)
    · exact ht (mem_of_mem_strip hh)
  unfold BibleRange.str at hs
  cases ha : r.strStart e o with
  | error x => rw [ha] at hs; cases hs
  | ok pa =>
    rw [ha] at hs
    cases hd : RangeList.isDual e flags r with
    | error x => simp only [hd, bind, Except.bind] at hs; cases hs
    | ok dual =>
      simp only [hd, bind, Except.bind, pure, Except.pure] at hs
      cases dual with
      | false =>
        simp only [Bool.false_eq_true, if_false, Except.ok.injEq] at hs
        rw [← hs]
        exact fin _ (k4 _)
      | true =>
        simp only [if_true] at hs
        cases hst : r.strStop e flags pa.2 with
        | error x => rw [hst] at hs; cases hs
        | ok q =>
          simp only [hst, Except.ok.injEq] at hs
          rw [← hs]
          exact fin _ (k3 _ _)

theorem split_at {c : Char} {s t s' t' : List Char} (hs : c ∉ s) (ht : c ∉ t) (hh : s ++ c :: s' = t ++ c :: t') : s = t := by
  induction s generalizing t with
  | nil =>
    cases t with
    | nil => rfl
    | cons x t => injection hh with h1; exact absurd (h1 ▸ List.mem_cons_self) ht
  | cons y s ih =>
    cases t with
    | nil => injection hh with h1; exact absurd (h1 ▸ List.mem_cons_self) hs
    | cons x t =>
      injection hh with h1 h2
      rw [h1, ih (fun hm => hs (List.mem_cons_of_mem _ hm)) (fun hm => ht (List.mem_cons_of_mem _ hm)) h2]

/-- No closing parenthesis in the name shown for the book. -/
abbrev NoParen (d : BibleData) (b : BibleBook) : Prop := ')' ∉ shownAs d .default b

/-- The ranges of a list that the global flags allow, with names that are recognised and have no parenthesis. -/
structure Plainly (u : Uni) (e : Env) (r : BibleRange) : Prop where
  allowed : Allowed e.data e.flags r
  reads : NameReads u e.data .default r.start.book ∧ NameReads u e.data .default r.stop.book
  paren : NoParen e.data r.start.book ∧ NoParen e.data r.stop.book

theorem telling_ranges {u : Uni} {e : Env} (h : e.data.WF) (hd : PlainSeps u e.data)
    (hp : ')' ∉ [e.data.rangeSep, e.data.verseSepStd, e.data.verseSepAlt]) :
    ∃ text, Telling text (Plainly u e) ∧ ∀ r, Plainly u e r → r.repr u e = .ok (text r) := by
  have key : ∀ r, Plainly u e r → ∃ s, r.repr u e = .ok ("BibleRange(".toList ++ s ++ ")".toList) ∧
      (BibleRange.ofStr u e none s PState.init).1 = .ok r ∧ ')' ∉ s := by
    intro r hr
    simp only [List.mem_cons, List.not_mem_nil, or_false, not_or] at hp
    obtain ⟨s, h1, h2, _⟩ := C41_range_partial u e h hd none .default r hr.allowed hr.reads.1 hr.reads.2 rfl PState.init
    refine ⟨s, ?_, h2, range_str_paren h1 hr.paren.1 hr.paren.2 (Ne.symm hp.2.1) (Ne.symm hp.2.2) (Ne.symm hp.1)⟩
    unfold BibleRange.repr
    rw [h1]; rfl
  refine ⟨fun r => match r.repr u e with | .ok s => s | .error _ => [], ⟨fun r hr => ?_, fun r r' hr hr' c _ c' _ s t hh => ?_⟩,
    fun r hr => ?_⟩
  · obtain ⟨s, h1, _⟩ := key r hr
    simp only [h1]
    exact ⟨'B', _, rfl, by decide⟩
  · obtain ⟨a, h1, h2, h3⟩ := key r hr
    obtain ⟨b, h4, h5, h6⟩ := key r' hr'
    simp only [h1, h4, List.append_assoc] at hh
    have hab := split_at h3 h6 (List.append_cancel_left hh)
    rw [hab, h5] at h2
    exact (Except.ok.inj h2).symm
  · obtain ⟨s, h1, _⟩ := key r hr
    simp only [h1]

/-- **C84 for lists of ranges**: the strings of the groups of two lists are the same exactly when the lists have the same groups. -/
theorem C84_ranges (u : Uni) (e : Env) (hw : e.data.WF) (hd : PlainSeps u e.data)
    (hp : ')' ∉ [e.data.rangeSep, e.data.verseSepStd, e.data.verseSepAlt]) {le : BibleRange → BibleRange → Bool} {depth : Nat}
    {ops : List (WorldOp BibleRange)} {h : Heap BibleRange} {ws : List RangeList} (ha : After le depth ops h ws) {L M : Nat}
    {l m : RangeList} (hL : ws[L]? = some l) (hM : ws[M]? = some m) (hl : ∀ r ∈ l.flatten, Plainly u e r)
    (hm : ∀ r ∈ m.flatten, Plainly u e r) :
    (∃ s, Heap.groupsStr (BibleRange.repr u e) L h = (.ok s, h)) ∧
    ((Heap.groupsStr (BibleRange.repr u e) L h).1 = (Heap.groupsStr (BibleRange.repr u e) M h).1 ↔ l = m) := by
  obtain ⟨text, ht, hs⟩ := telling_ranges hw hd hp
  exact ⟨⟨_, (C84_shown ha hL fun x hx => hs x (hl x hx)).2.2.1⟩,
    (C84_distinct ha hL hM ht (fun x hx => ⟨hl x hx, hs x (hl x hx)⟩) (fun x hx => ⟨hm x hx, hs x (hm x hx)⟩)).2⟩

theorem default_noParen (b : BibleBook) : NoParen defaultData b := by
  have : ∀ b ∈ BibleBook.all, NoParen defaultData b := by decide +kernel
  exact this b b.mem_all

/-- **C84 for the default Bible**, without any condition on names. -/
theorem C84_default (u : Uni) (f : BibleFlag) {le : BibleRange → BibleRange → Bool} {depth : Nat} {ops : List (WorldOp BibleRange)}
    {h : Heap BibleRange} {ws : List RangeList} (ha : After le depth ops h ws) {L M : Nat} {l m : RangeList} (hL : ws[L]? = some l)
    (hM : ws[M]? = some m) (hl : ∀ r ∈ l.flatten, Allowed defaultData f r) (hm : ∀ r ∈ m.flatten, Allowed defaultData f r) :
    (Heap.groupsStr (BibleRange.repr u ⟨defaultData, f⟩) L h).1 = (Heap.groupsStr (BibleRange.repr u ⟨defaultData, f⟩) M h).1 ↔ l = m := by
  have hn : ∀ b, NameReads u defaultData .default b := fun b => default_nameReads u _ b fun hh => by cases hh.1
  have hr : ∀ r, Allowed defaultData f r → Plainly u ⟨defaultData, f⟩ r := fun r hr =>
    ⟨hr, ⟨hn _, hn _⟩, default_noParen _, default_noParen _⟩
  exact (C84_ranges u ⟨defaultData, f⟩ defaultData_wf (default_plainSeps u)
    (by show ')' ∉ [defaultData.rangeSep, defaultData.verseSepStd, defaultData.verseSepAlt]; decide) ha hL hM (fun r h => hr r (hl r h))
    (fun r h => hr r (hm r h))).2

/-- Numbers can be told apart. -/
theorem telling_numbers : Telling natStr fun _ => True := by
  have key : ∀ n, ',' ∉ natStr n ∧ ']' ∉ natStr n := fun n =>
    ⟨fun hh => absurd ((natStr_spec n).2.1 _ hh) (by decide), fun hh => absurd ((natStr_spec n).2.1 _ hh) (by decide)⟩
  refine ⟨fun n _ => ?_, fun m n _ _ c hc c' hc' s t hh => ?_⟩
  · cases hn : natStr n with
    | nil => exact absurd hn (natStr_spec n).1
    | cons c r => exact ⟨c, r, rfl, fun hc => (key n).2 (by rw [hn, hc]; exact List.mem_cons_self)⟩
  · have dig : ∀ {n c s}, c ∈ [',', ']'] → (natStr n ++ c :: s).takeWhile isDigit = natStr n := by
      intro n c s hc
      rw [List.takeWhile_append_of_pos (natStr_spec n).2.1, List.takeWhile_cons_of_neg, List.append_nil]
      simp only [List.mem_cons, List.not_mem_nil, or_false] at hc
      rcases hc with rfl | rfl <;> decide
    have h1 := congrArg (List.takeWhile isDigit) hh
    rw [dig hc, dig hc'] at h1
    rw [← (natStr_spec m).2.2, h1, (natStr_spec n).2.2]

/-- The strings of the lists `[[1, 2], [3]]` and `[]` of the example history. -/
example :
    let h := (calls natLe 100 exampleOps (Heap.empty 0)).2
    (Heap.listStr (fun n => .ok (natStr n)) 0 h).1 = .ok "[[1, 2], [3]]".toList ∧
    (Heap.listRepr (fun n => .ok (natStr n)) 1 h).1 = .ok "GroupedList([])".toList ∧
    (Heap.groupsStr (fun n => .ok (natStr n)) 0 h).1 = .ok "[GroupView([1, 2]), GroupView([3])]".toList ∧
    (Heap.groupsRepr (fun n => .ok (natStr n)) 1 h).1 = .ok "GroupViews([])".toList ∧
    (Heap.viewStr (fun n => .ok (natStr n)) 1 h).1 = .ok "[3]".toList := by
  decide +kernel

example : (Heap.listStr (fun n => .ok (natStr n)) 0 (calls natLe 100 exampleOps (Heap.empty 0)).2).1 =
      (Heap.listStr (fun n => .ok (natStr n)) 1 (calls natLe 100 exampleOps (Heap.empty 0)).2).1 ↔ [[1, 2], [3]] = ([] : List (List Nat)) :=
  (C84_distinct (L := 0) (M := 1) exampleOps_after rfl rfl telling_numbers (fun _ _ => ⟨trivial, rfl⟩) (fun _ _ => ⟨trivial, rfl⟩)).1

/-- The groups of the list of Mark 1:1-3 and Luke 2:4. -/
example :
    let h := (calls (fun _ _ => true) 100 [.new, .on 0 (.append ⟨⟨.Mark, 1, 1⟩, ⟨.Mark, 1, 3⟩⟩ false),
      .on 0 (.append ⟨⟨.Luke, 2, 4⟩, ⟨.Luke, 2, 4⟩⟩ true)] (Heap.empty ⟨⟨.Gen, 1, 1⟩, ⟨.Gen, 1, 1⟩⟩)).2
    (Heap.groupsRepr (BibleRange.repr exampleUni dflt) 0 h).1 =
      .ok "GroupViews([GroupView([BibleRange(Mark 1:1-3)]), GroupView([BibleRange(Luke 2:4)])])".toList := by
  decide +kernel

end Bibleref

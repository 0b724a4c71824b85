import Verif.Lemmas.Joined

/-!
# Reading references one after another (C75)
-/

namespace Bibleref
open Spec

/-- **C75.** A string with a list separator in it, and references after the separator, is read by reading what comes before the separator
and the separator, then, with what has been learnt, what comes after; the outcome is one result after the other, and the parser is left
in the same state. -/
theorem C75_one_after (u : Uni) (e : Env) (hd : PlainSeps u e.data) (flags : Option BibleFlag) (m : Bool) (a b : List Char)
    (hb : Fits u e.data b) (st : PState) :
    RangeList.ofStr u e flags (a ++ listSep e.data m :: b) st =
      (RangeList.ofStr u e flags (a ++ [listSep e.data m]) >>= fun x => RangeList.ofStr u e flags b >>= fun y => pure (oneAfter m x y)) st := by
  obtain ⟨t, ht⟩ := hb
  by_cases ha : Fits u e.data (a ++ [listSep e.data m])
  · obtain ⟨ta, hta⟩ := ha
    obtain ⟨l, h1, h2⟩ := list_sep hd m hta
    have h3 : ListRule u e.data (a ++ [listSep e.data m]) ⟨ta.first, l, some m⟩ := list_end hd m h1
    rw [ofStr_tree hd flags (list_join hd m h1 ht), evalTree_append, PM.bind_run, PM.bind_run, ofStr_tree hd flags h3]
    cases evalTree u e (e.eff flags) ⟨ta.first, l, some m⟩ st with
    | mk r s =>
      cases r with
      | error => rfl
      | ok x =>
        simp only
        rw [PM.bind_run, PM.bind_run, ofStr_tree hd flags ht]
  · rw [PM.bind_err (C53_refused u e flags _ st fun t h => ha ⟨t, h⟩)]
    refine C53_refused u e flags _ st fun t h => ha ?_
    obtain ⟨l, h1, _⟩ := list_sep hd m h
    exact ⟨_, list_end hd m h1⟩

/-- C75: if what comes after the separator does not fit the grammar, and is not blank, nothing of the string is read. -/
theorem C75_refused (u : Uni) (e : Env) (hd : PlainSeps u e.data) (flags : Option BibleFlag) (m : Bool) (a b : List Char)
    (hb : ¬ Fits u e.data b) (hw : ∃ c ∈ b, isWs c = false) (st : PState) :
    RangeList.ofStr u e flags (a ++ listSep e.data m :: b) st = (.error .parsing, st) := by
  refine C53_refused u e flags _ st fun t h => ?_
  obtain ⟨l, h1, h2 | ⟨r, l', h2, h3⟩⟩ := list_sep hd m h
  · obtain ⟨c, hc, hw⟩ := hw
    rw [h2.1 c hc] at hw
    cases hw
  · exact hb ⟨_, h3⟩

/-- C75, for all strings: the result of a string with a separator in it, and something after the separator, is the result of what comes
before followed by that of what comes after. -/
theorem C75_result (u : Uni) (e : Env) (h : e.data.Full) (hd : PlainSeps u e.data) (flags : Option BibleFlag) (m : Bool) (a b : List Char)
    (hw : ∃ c ∈ b, isWs c = false) (st : PState) :
    (RangeList.ofStr u e flags (a ++ listSep e.data m :: b) st).1 =
      ((RangeList.ofStr u e flags (a ++ [listSep e.data m]) >>= fun x => RangeList.ofStr u e flags b >>= fun y =>
        pure (oneAfter m x y)) st).1 := by
  by_cases hb : Fits u e.data b
  · rw [C75_one_after u e hd flags m a b hb st]
  · rw [C75_refused u e hd flags m a b hb hw st, PM.bind_run]
    have ha := C45_list u e h flags (a ++ [listSep e.data m]) st
    cases hx : RangeList.ofStr u e flags (a ++ [listSep e.data m]) st with
    | mk r s =>
      rw [hx] at ha
      cases r with
      | error x =>
        rcases ha with ha | ⟨l, ha, _⟩
        · exact ha.symm
        · cases ha
      | ok x =>
        simp only
        rw [PM.bind_err (C53_refused u e flags b s fun t h => hb ⟨t, h⟩)]

/-- C75: a separator at the end does not change what is read. -/
theorem C75_trailing (u : Uni) (e : Env) (hd : PlainSeps u e.data) (flags : Option BibleFlag) (m : Bool) (a : List Char)
    (ha : Fits u e.data (a ++ [listSep e.data m])) (st : PState) :
    (RangeList.ofStr u e flags (a ++ [listSep e.data m]) st).1 = (RangeList.ofStr u e flags a st).1 := by
  obtain ⟨t, ht⟩ := ha
  obtain ⟨l, h1, _⟩ := list_sep hd m ht
  rw [ofStr_tree hd flags (list_end hd m h1), ofStr_tree hd flags h1]
  cases h2 : evalRef u e (e.eff flags) t.first st with
  | mk r s =>
    cases r with
    | error => unfold evalTree; rw [PM.bind_err h2, PM.bind_err h2]
    | ok x =>
      cases h3 : evalRest u e (e.eff flags) l s with
      | mk r s' =>
        cases r with
        | error => unfold evalTree; rw [PM.bind_ok h2, PM.bind_ok h2, PM.bind_err h3, PM.bind_err h3]
        | ok y => rw [evalTree_ok h2 h3, evalTree_ok h2 h3]

/-- C75: nothing can come between two separators. -/
theorem C75_empty (u : Uni) (e : Env) (hd : PlainSeps u e.data) (flags : Option BibleFlag) (m m' : Bool) (a w b : List Char)
    (hw : ∀ c ∈ w, isWs c = true) (st : PState) :
    RangeList.ofStr u e flags (a ++ listSep e.data m :: (w ++ listSep e.data m' :: b)) st = (.error .parsing, st) := by
  refine C53_refused u e flags _ st fun t h => ?_
  obtain ⟨l, h1, h2 | ⟨r, l', h2, h3⟩⟩ := list_sep hd m h
  · have := h2.1 (listSep e.data m') (by simp)
    rw [listSep_ws hd m'] at this
    cases this
  · obtain ⟨l, ⟨s, h4, _⟩, _⟩ := list_sep hd m' h3
    obtain ⟨c, hc, h5⟩ := ref_ne h4
    rw [hw c hc] at h5
    cases h5

/-- C75, when what comes after the separator begins with a book's name: it can be read on its own, by any parser. -/
theorem C75_named (u : Uni) (e : Env) (h : e.data.Full) (hd : PlainSeps u e.data) (flags : Option BibleFlag) (m : Bool) (a b : List Char)
    (t : Tree) (hb : ListRule u e.data b t) (ht : NamesBook t.first) (st st' : PState) :
    (RangeList.ofStr u e flags (a ++ listSep e.data m :: b) st).1 =
      match (RangeList.ofStr u e flags (a ++ [listSep e.data m]) st).1, (RangeList.ofStr u e flags b st').1 with
      | .ok x, .ok y => .ok (oneAfter m x y)
      | _, _ => .error .parsing := by
  rw [C75_one_after u e hd flags m a b ⟨t, hb⟩ st, PM.bind_run]
  have ha := C45_list u e h flags (a ++ [listSep e.data m]) st
  cases hx : RangeList.ofStr u e flags (a ++ [listSep e.data m]) st with
  | mk r s =>
    rw [hx] at ha
    cases r with
    | error x =>
      rcases ha with ha | ⟨l, ha, _⟩
      · cases ha; rfl
      · cases ha
    | ok x =>
      simp only
      have hn := (ofStr_named hd flags hb s (.inr ht)).trans (ofStr_named hd flags hb st' (.inr ht)).symm
      have hb := C45_list u e h flags b s
      rw [PM.bind_run, ← hn]
      cases hy : RangeList.ofStr u e flags b s with
      | mk r s' =>
        rw [hy] at hb
        cases r with
        | error x =>
          rcases hb with hb | ⟨l, hb, _⟩
          · cases hb; rfl
          · cases hb
        | ok y => rfl

/-- C75: the ranges of one list after another are those of the one, then those of the other, whatever the separator. -/
theorem C75_flatten (m : Bool) (x y : RangeList) : (oneAfter m x y).flatten = x.flatten ++ y.flatten := by
  cases m
  · show (runOn x y).flatten = _
    induction x with
    | nil => rfl
    | cons g x ih =>
      cases x with
      | nil => cases y <;> simp [runOn]
      | cons g' x =>
        have : runOn (g :: g' :: x) y = g :: runOn (g' :: x) y := by cases y <;> rfl
        rw [this, List.flatten_cons, ih, List.flatten_cons (l := g), List.append_assoc]
  · exact List.flatten_append

/-- C75, any number of strings that begin with a book's name and do not end with a separator: with major list separators between them,
they are read as the groups of each, one string after the other. -/
theorem C75_many (u : Uni) (e : Env) (h : e.data.Full) (hd : PlainSeps u e.data) (flags : Option BibleFlag) (ss : List (List Char))
    (hne : ss ≠ []) (hs : ∀ s ∈ ss, ∃ r l, ListRule u e.data s ⟨r, l, none⟩ ∧ NamesBook r) (st st' : PState) :
    (RangeList.ofStr u e flags ([listSep e.data true].intercalate ss) st).1 =
      match ss.mapM fun s => (RangeList.ofStr u e flags s st').1 with
      | .ok ls => .ok ls.flatten
      | .error _ => .error .parsing := by
  have key : ∀ ss : List (List Char), ss ≠ [] → (∀ s ∈ ss, ∃ r l, ListRule u e.data s ⟨r, l, none⟩ ∧ NamesBook r) →
      (∃ r l, ListRule u e.data ([listSep e.data true].intercalate ss) ⟨r, l, none⟩ ∧ NamesBook r) ∧
      ∀ st, (RangeList.ofStr u e flags ([listSep e.data true].intercalate ss) st).1 =
        match ss.mapM fun s => (RangeList.ofStr u e flags s st').1 with
        | .ok ls => .ok ls.flatten
        | .error _ => .error .parsing := by
    intro ss
    induction ss with
    | nil => exact fun h => absurd rfl h
    | cons s ss ih =>
      intro _ hs
      obtain ⟨r, l, h1, h2⟩ := hs s List.mem_cons_self
      have hss : ∀ st, (RangeList.ofStr u e flags s st).1 = (RangeList.ofStr u e flags s st').1 := fun st =>
        (ofStr_named hd flags h1 st (.inr h2)).trans (ofStr_named hd flags h1 st' (.inr h2)).symm
      have herr := C45_list u e h flags s st'
      rw [List.mapM_cons]
      cases ss with
      | nil =>
        have : [listSep e.data true].intercalate [s] = s := by simp [List.intercalate]
        rw [this]
        refine ⟨⟨r, l, h1, h2⟩, fun st => ?_⟩
        rw [hss st]
        rcases herr with he | ⟨x, he, _⟩
        · rw [he]; rfl
        · rw [he]
          show Except.ok x = Except.ok [x].flatten
          simp
      | cons s' ss =>
        obtain ⟨⟨r', l', h3, h4⟩, ih⟩ := ih (by simp) fun x hx => hs x (List.mem_cons_of_mem _ hx)
        have : [listSep e.data true].intercalate (s :: s' :: ss) = s ++ listSep e.data true :: [listSep e.data true].intercalate (s' :: ss) := by
          simp [List.intercalate]
        rw [this]
        refine ⟨⟨_, _, list_join hd true h1 h3, h2⟩, fun st => ?_⟩
        rw [C75_named u e h hd flags true s _ _ h3 h4 st st', C75_trailing u e hd flags true s ⟨_, list_end hd true h1⟩, hss, ih]
        rcases herr with he | ⟨x, he, _⟩
        · rw [he]; rfl
        · rw [he]
          cases (s' :: ss).mapM fun s => (RangeList.ofStr u e flags s st').1 with
          | error => rfl
          | ok ls => show Except.ok (x ++ ls.flatten) = Except.ok (x :: ls).flatten; simp
  exact (key ss hne hs).2 st

/-- "Mark 3; 4:2, 5": "4:2, 5" is read after "Mark 3;". The chapter carries over the minor separator only. -/
example : listSep defaultData true = ';' ∧ listSep defaultData false = ',' ∧ Fits exampleUni defaultData " 4:2, 5".toList ∧
    (RangeList.ofStr exampleUni dflt none "Mark 3; 4:2, 5".toList PState.init).1 =
      .ok [[⟨⟨.Mark, 3, 1⟩, ⟨.Mark, 3, 35⟩⟩], [⟨⟨.Mark, 4, 2⟩, ⟨.Mark, 4, 2⟩⟩, ⟨⟨.Mark, 4, 5⟩, ⟨.Mark, 4, 5⟩⟩]] ∧
    (RangeList.ofStr exampleUni dflt none "Mark 4:2, Matt 5".toList PState.init).1 =
      .ok [[⟨⟨.Mark, 4, 2⟩, ⟨.Mark, 4, 2⟩⟩, ⟨⟨.Matt, 5, 1⟩, ⟨.Matt, 5, 48⟩⟩]] :=
  ⟨by decide +kernel, by decide +kernel, ⟨_, tree_sound (t := ⟨.single (.chapVerse 4 2), [(false, .single (.num 5))], none⟩)
    (by decide +kernel)⟩, by decide +kernel, by decide +kernel⟩
/-- Each of the conditions of the theorems is met. -/
example : ListRule exampleUni defaultData " Matt 5".toList ⟨.single (.bookNum "Matt".toList 5), [], none⟩ ∧
    NamesBook (.single (.bookNum "Matt".toList 5)) ∧ Fits exampleUni defaultData ("Mark 3".toList ++ [listSep defaultData false]) ∧
    (RangeList.ofStr exampleUni dflt none "Mark 3,; 4".toList PState.init).1 = .error .parsing ∧
    (RangeList.ofStr exampleUni dflt none "Mark 3; 4 5".toList PState.init).1 = .error .parsing :=
  ⟨tree_sound (by decide +kernel), by trivial, ⟨_, tree_sound (t := ⟨.single (.bookNum "Mark".toList 3), [], some false⟩) (by decide +kernel)⟩,
    by decide +kernel, by decide +kernel⟩
/-- "Mark 3" and " Matt 5". -/
example : ∀ s ∈ ["Mark 3".toList, " Matt 5".toList], ∃ r l, ListRule exampleUni defaultData s ⟨r, l, none⟩ ∧ NamesBook r := by
  intro s hs
  rcases List.mem_cons.1 hs with rfl | hs
  · exact ⟨.single (.bookNum "Mark".toList 3), [], tree_sound (by decide +kernel), by trivial⟩
  · rw [List.mem_singleton.1 hs]
    exact ⟨.single (.bookNum "Matt".toList 5), [], tree_sound (by decide +kernel), by trivial⟩

end Bibleref

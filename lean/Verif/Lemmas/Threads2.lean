import Verif.Lemmas.Threads
import Verif.Lemmas.Meaning
import Verif.Props.FlagLaws

/-!
# Lemmas about threads that have their turns in any order

A thread is followed through its accesses while nothing is known about what is shared but assertions that all threads keep.
-/

namespace Bibleref

open Spec

section
variable {ι α β : Type} (I : ι → Shared → Prop)

/-- The thread, of which the assertion `I l` is known, keeps all assertions with each of its accesses and ends with `Q`, whatever
other threads that keep all assertions do in between. -/
def Good : ι → Thread α → (Except PyErr α → ι → Prop) → Prop
  | l, .done r, Q => Q r l
  | l, .access change next, Q => ∀ s, I l s → (∀ k, I k s → I k (change s)) ∧ ∃ l', I l' (change s) ∧ Good l' (next s) Q

variable {I}

theorem Good.bind {x : Thread α} {g : α → Thread β} {l : ι} {Q : Except PyErr α → ι → Prop} {R : Except PyErr β → ι → Prop}
    (hx : Good I l x Q) (hok : ∀ a l', Q (.ok a) l' → Good I l' (g a) R) (herr : ∀ err l', Q (.error err) l' → R (.error err) l') :
    Good I l (x >>= g) R := by
  rw [Thread.bind_eq]
  induction x generalizing l with
  | done r =>
    cases r with
    | ok a => exact hok a l hx
    | error err => exact herr err l hx
  | access change next ih =>
    intro s hs
    obtain ⟨h1, l', h2, h3⟩ := hx s hs
    exact ⟨h1, l', h2, ih s h3⟩

theorem Good.mono {x : Thread α} {l : ι} {Q R : Except PyErr α → ι → Prop} (hx : Good I l x Q) (h : ∀ r l', Q r l' → R r l') :
    Good I l x R := by
  induction x generalizing l with
  | done r => exact h r l hx
  | access change next ih =>
    intro s hs
    obtain ⟨h1, l', h2, h3⟩ := hx s hs
    exact ⟨h1, l', h2, ih s h3⟩

/-- All threads are known to end well. -/
def AllGood (Q : Nat → Except PyErr α → Prop) (x : Thread.System α) : Prop :=
  ∀ i th, x.2[i]? = some th → ∃ l, I l x.1 ∧ Good I l th (fun r _ => Q i r)

theorem AllGood.turn {Q : Nat → Except PyErr α → Prop} {x : Thread.System α} (h : AllGood (I := I) Q x) (i : Nat) :
    AllGood (I := I) Q (Thread.turn i x) := by
  unfold Thread.turn
  cases hi : x.2[i]? with
  | none => exact h
  | some th =>
    cases th with
    | done r => exact h
    | access change next =>
      obtain ⟨l, hl, hg⟩ := h i _ hi
      obtain ⟨h1, l', h2, h3⟩ := hg x.1 hl
      intro j th hj
      simp only [List.getElem?_set] at hj
      by_cases hij : i = j
      · subst hij
        rw [if_pos rfl] at hj
        split at hj
        · cases hj
          exact ⟨l', h2, h3⟩
        · cases hj
      · rw [if_neg hij] at hj
        obtain ⟨k, hk, hgk⟩ := h j th hj
        exact ⟨k, h1 k hk, hgk⟩

theorem AllGood.run {Q : Nat → Except PyErr α → Prop} (schedule : List Nat) {x : Thread.System α} (h : AllGood (I := I) Q x) :
    AllGood (I := I) Q (Thread.run schedule x) := by
  induction schedule generalizing x with
  | nil => exact h
  | cons i schedule ih => exact ih (h.turn i)

theorem AllGood.result {Q : Nat → Except PyErr α → Prop} {x : Thread.System α} (h : AllGood (I := I) Q x) {i : Nat}
    {r : Except PyErr α} (hr : resultOf x i = some r) : Q i r := by
  unfold resultOf at hr
  cases hi : x.2[i]? with
  | none => rw [hi] at hr; cases hr
  | some th =>
    rw [hi] at hr
    cases th with
    | access change next => cases hr
    | done r' =>
      cases hr
      obtain ⟨l, _, hg⟩ := h i _ hi
      exact hg

/-! ## The callbacks -/

/-- What the callbacks need: the assertion says, if `P`, which flags the transformer has, and assertions are about nothing else that
callbacks write. -/
structure Settled (I : ι → Shared → Prop) (e : Env) (F : BibleFlag) (t : Nat) (l : ι) (P : Prop) : Prop where
  flags : P → ∀ s, I l s → e.eff (s.attrs t).flags = F
  keeps : ∀ s g k, (∀ a : Attrs, (g a).flags = a.flags) → I k s → I k (s.update t g)

/-- The thread keeps the assertions, and if `P` it does what the callbacks do from any state. -/
def Tame (I : ι → Shared → Prop) (P : Prop) (l : ι) (x : Thread α) (m : PM α) : Prop :=
  (P → ∀ p, (m p).1 = (m .init).1) ∧ Good I l x (fun r l' => l' = l ∧ (P → r = (m .init).1))

variable {P : Prop} {l : ι} {e : Env} {F : BibleFlag} {t : Nat}

theorem Tame.bind {x : Thread α} {m : PM α} {g : α → Thread β} {k : α → PM β} (hx : Tame I P l x m)
    (hg : ∀ a, Tame I P l (g a) (k a)) : Tame I P l (x >>= g) (m >>= k) := by
  have hv : P → ∀ p, ((m >>= k) p).1 = match (m .init).1 with
      | .ok a => (k a .init).1
      | .error err => .error err := by
    intro hP p
    rw [show (m >>= k) p = PM.bind m k p from rfl, ← hx.1 hP p]
    unfold PM.bind
    rcases m p with ⟨r, p'⟩
    cases r with
    | ok a => exact (hg a).1 hP p'
    | error err => rfl
  refine ⟨fun hP p => by rw [hv hP p, hv hP .init], ?_⟩
  refine hx.2.bind ?_ ?_
  · rintro a _ ⟨rfl, ha⟩
    refine (hg a).2.mono ?_
    rintro r _ ⟨rfl, hr⟩
    refine ⟨rfl, fun hP => ?_⟩
    rw [hv hP .init, ← ha hP, hr hP]
  · rintro err _ ⟨rfl, he⟩
    refine ⟨rfl, fun hP => ?_⟩
    rw [hv hP .init, ← he hP]

/-- Threads whose value is of no interest. -/
def Retains (I : ι → Shared → Prop) (l : ι) (x : Thread α) : Prop := Good I l x (fun _ l' => l' = l)

theorem Retains.bind {x : Thread α} {g : α → Thread β} (hx : Retains I l x) (hg : ∀ a, Retains I l (g a)) : Retains I l (x >>= g) :=
  Good.bind hx (fun a _ h => h ▸ hg a) (fun _ _ h => h)

theorem Retains.done (r : Except PyErr α) : Retains I l (Thread.done r) := rfl

theorem Retains.read (f : Shared → β) : Retains I l (Thread.read f) := fun _ hs => ⟨fun _ h => h, l, hs, rfl⟩

theorem Retains.write (h : Settled I e F t l P) {g : Attrs → Attrs} (hg : ∀ a, (g a).flags = a.flags) :
    Retains I l (Thread.write fun s => s.update t g) := fun s hs => ⟨fun k => h.keeps s g k hg, l, h.keeps s g l hg hs, rfl⟩

theorem Retains.tame {x : Thread α} (h : Retains I l x) (m : PM α) : Tame I False l x m :=
  ⟨fun h => h.elim, Good.mono h fun _ _ hl => ⟨hl, fun h => h.elim⟩⟩

theorem Tame.retains {x : Thread α} {m : PM α} (h : Tame I P l x m) : Retains I l x := Good.mono h.2 fun _ _ hl => hl.1

theorem Tame.weaken {P' : Prop} {x : Thread α} {m : PM α} (h : Tame I P l x m) (hP : P' → P) : Tame I P' l x m :=
  ⟨fun h' => h.1 (hP h'), Good.mono h.2 fun _ _ hl => ⟨hl.1, fun h' => hl.2 (hP h')⟩⟩

theorem Tame.ofNot {x : Thread α} {m : PM α} (h : Retains I l x) (hP : ¬ P) : Tame I P l x m := (h.tame m).weaken hP

theorem Tame.done (r : Except PyErr α) : Tame I P l (Thread.done r) (PM.lift r) := ⟨fun _ _ => rfl, rfl, fun _ => rfl⟩
theorem Tame.pure (a : α) : Tame I P l (pure a) (pure a) := ⟨fun _ _ => rfl, rfl, fun _ => rfl⟩

/-- First something without a value, which the callbacks do as well. -/
theorem Tame.after {x : Thread β} {y : Thread α} {m n : PM α} (hx : Good I l x fun r l' => l' = l ∧ ∃ a, r = .ok a)
    (hy : Tame I P l y m) (hn : P → ∀ p, (n p).1 = (m .init).1) : Tame I P l (x >>= fun _ => y) n := by
  refine ⟨fun hP p => by rw [hn hP, hn hP], ?_⟩
  refine hx.bind ?_ ?_
  · rintro a _ ⟨rfl, _⟩
    refine hy.2.mono ?_
    rintro r _ ⟨rfl, hr⟩
    exact ⟨rfl, fun hP => by rw [hr hP, hn hP]⟩
  · rintro err _ ⟨_, a, h⟩
    cases h

theorem good_write (h : Settled I e F t l P) {g : Attrs → Attrs} (hg : ∀ a, (g a).flags = a.flags) :
    Good I l (Thread.write fun s => s.update t g) fun r l' => l' = l ∧ ∃ a, r = .ok a :=
  fun s hs => ⟨fun k => h.keeps s g k hg, l, h.keeps s g l hg hs, rfl, _, rfl⟩

theorem tame_name (u : Uni) (d : BibleData) (name : List Char) :
    Tame I P l (Thread.nameCallback u d name) (nameCallback u d name) := by
  unfold Thread.nameCallback nameCallback
  cases BibleBook.fromStr u d name with
  | none => exact Tame.done _
  | some b => exact Tame.pure b

theorem tame_flags (h : Settled I e F t l P) (k : Option BibleFlag → Except PyErr α)
    (hk : ∀ f f', e.eff f = e.eff f' → k f = k f') (hF : e.eff (some F) = F) :
    Tame I P l (Thread.getFlags t >>= fun f => Thread.lift (k f)) (PM.lift (k (some F))) := by
  refine ⟨fun _ _ => rfl, ?_⟩
  intro s hs
  refine ⟨fun _ h => h, l, hs, rfl, fun hP => ?_⟩
  exact hk _ _ (by rw [h.flags hP s hs, hF])

theorem tame_oneRange (h : Settled I e F t l P) (hF : e.eff (some F) = F) (b : BibleBook) (c v : Option Int) :
    Tame I P l (Thread.oneRange e t (some b) c v) (oneRange e F b c v) :=
  tame_flags h (fun f => asParsing (BibleRange.ofArgs e (some b) c v none none none f))
    (fun _ _ hf => by rw [ofArgs_same hf]) hF

theorem keeps_setBook (h : Settled I e F t l P) (b : BibleBook) : Retains I l (Thread.setBook t b) := Retains.write h fun _ => rfl
theorem keeps_setChap (h : Settled I e F t l P) (c : Int) : Retains I l (Thread.setChap t c) := Retains.write h fun _ => rfl
theorem keeps_setAtVerse (h : Settled I e F t l P) (x : Bool) : Retains I l (Thread.setAtVerse t x) := Retains.write h fun _ => rfl

theorem keeps_oneRange (_ : Settled I e F t l P) (b : Option BibleBook) (c v : Option Int) :
    Retains I l (Thread.oneRange e t b c v) := Retains.bind (Retains.read _) fun _ => Retains.done _

theorem keeps_single (u : Uni) (h : Settled I e F t l P) (x : Single) : Retains I l (Thread.evalSingle u e t x) := by
  have hn : ∀ name, Retains I l (Thread.nameCallback u e.data name) := fun name => (tame_name (P := False) u e.data name).retains
  cases x with
  | book name =>
    exact (hn name).bind fun b => (keeps_setBook h b).bind fun _ => (keeps_setAtVerse h _).bind fun _ => keeps_oneRange h _ _ _
  | bookNum name n =>
    refine (hn name).bind fun b => (keeps_setBook h b).bind fun _ => (keeps_setAtVerse h _).bind fun _ => ?_
    split
    · exact (keeps_setChap h _).bind fun _ => (Retains.read _).bind fun _ => keeps_oneRange h _ _ _
    · exact (keeps_setChap h _).bind fun _ => keeps_oneRange h _ _ _
  | bookChapVerse name c v =>
    exact (hn name).bind fun b => (keeps_setBook h b).bind fun _ => (keeps_setChap h _).bind fun _ =>
      (keeps_setAtVerse h _).bind fun _ => keeps_oneRange h _ _ _
  | chapVerse c v =>
    refine (Retains.read _).bind fun b => ?_
    cases b with
    | none => exact Retains.done _
    | some _ =>
      exact (Retains.read _).bind fun b => (keeps_setChap h _).bind fun _ => (keeps_setAtVerse h _).bind fun _ =>
        keeps_oneRange h _ _ _
  | num n =>
    refine (Retains.read _).bind fun b => ?_
    cases b with
    | none => exact Retains.done _
    | some _ =>
      refine (Retains.read _).bind fun b => ?_
      cases b with
      | none => exact Retains.done _
      | some b =>
        refine (Retains.read _).bind fun a => ?_
        split
        · split
          · exact (keeps_setChap h _).bind fun _ => (Retains.read _).bind fun _ => keeps_oneRange h _ _ _
          · refine (Retains.read _).bind fun c => ?_
            cases c with
            | none => exact Retains.bind (Retains.done _) fun _ => (Retains.read _).bind fun _ => keeps_oneRange h _ _ _
            | some _ => exact (Retains.read _).bind fun _ => keeps_oneRange h _ _ _
        · exact keeps_oneRange h _ _ _

theorem tame_single (u : Uni) (h : Settled I e F t l P) (hF : e.eff (some F) = F) (hd : e.data.WF) (x : Single)
    (hP : P → SaysAll u e.data x) : Tame I P l (Thread.evalSingle u e t x) (evalSingle u e F x) := by
  cases x with
  | book name =>
    refine Tame.bind (tame_name u _ _) fun b => ?_
    exact Tame.after (good_write h fun _ => rfl) (Tame.after (good_write h fun _ => rfl) (tame_oneRange h hF b none none)
      (n := PM.lift _) fun _ _ => rfl) fun _ _ => rfl
  | bookNum name n =>
    cases hb : BibleBook.fromStr u e.data name with
    | none =>
      simp only [Thread.evalSingle, evalSingle, Thread.nameCallback, nameCallback, hb]
      exact ⟨fun _ _ => rfl, rfl, fun _ => rfl⟩
    | some b =>
      by_cases hc : b.chapCount e.data = 1
      · refine Tame.ofNot (keeps_single u h _) fun hs => hP hs b hb ?_
        rw [hd.chapCount] at hc
        rw [chapters_length]
        omega
      · have hm : evalSingle u e F (.bookNum name n) = fun p => (oneRange e F b (some n) none) ⟨some b, some n, false⟩ := by
          funext p
          simp [evalSingle, nameCallback, hb, Bind.bind, PM.bind, Pure.pure, PM.get, PM.set, hc]
        have hx : Thread.evalSingle u e t (.bookNum name n) = (do
            Thread.setBook t b
            Thread.setAtVerse t (b.chapCount e.data = 1)
            Thread.setChap t n
            Thread.oneRange e t (some b) (some n) none) := by
          simp only [Thread.evalSingle, Thread.nameCallback, hb, Thread.pure_eq]
          show Thread.bind _ _ = _
          simp only [Thread.bind, hc, if_false]
        rw [hm, hx]
        exact Tame.after (good_write h fun _ => rfl) (Tame.after (good_write h fun _ => rfl) (Tame.after (good_write h fun _ => rfl)
          (tame_oneRange h hF b (some n) none) (n := PM.lift _) fun _ _ => rfl) (n := PM.lift _) fun _ _ => rfl) fun _ _ => rfl
  | bookChapVerse name c v =>
    refine Tame.bind (tame_name u _ _) fun b => ?_
    exact Tame.after (good_write h fun _ => rfl) (Tame.after (good_write h fun _ => rfl) (Tame.after (good_write h fun _ => rfl)
      (tame_oneRange h hF b (some c) (some v)) (n := PM.lift _) fun _ _ => rfl) (n := PM.lift _) fun _ _ => rfl) fun _ _ => rfl
  | chapVerse c v => exact Tame.ofNot (keeps_single u h _) hP
  | num n => exact Tame.ofNot (keeps_single u h _) hP

theorem tame_ref (u : Uni) (h : Settled I e F t l P) (hF : e.eff (some F) = F) (hd : e.data.WF) (x : Ref)
    (hP : P → RefSaysAll u e.data x) : Tame I P l (Thread.evalRef u e t x) (evalRef u e F x) := by
  cases x with
  | single a => exact tame_single u h hF hd a hP
  | dual a b =>
    refine Tame.bind (tame_single u h hF hd a fun p => (hP p).1) fun first => Tame.bind (tame_single u h hF hd b fun p => (hP p).2)
      fun second => ?_
    exact tame_flags h (fun f => asParsing (BibleRange.ofArgs e _ _ _ _ _ _ f)) (fun _ _ hf => by rw [ofArgs_same hf]) hF

theorem tame_sep (h : Settled I e F t l P) (major : Bool) : Tame I P l (Thread.evalSep t major) (evalSep major) := by
  cases major with
  | false => exact ⟨fun _ _ => rfl, rfl, fun _ => rfl⟩
  | true =>
    refine ⟨fun _ _ => rfl, ?_⟩
    intro s hs
    exact ⟨fun k => h.keeps s _ k fun _ => rfl, l, h.keeps s _ l (fun _ => rfl) hs, rfl, fun _ => rfl⟩

theorem tame_rest (u : Uni) (h : Settled I e F t l P) (hF : e.eff (some F) = F) (hd : e.data.WF) (xs : List (Bool × Ref))
    (hP : P → ∀ x ∈ xs, RefSaysAll u e.data x.2) : Tame I P l (Thread.evalRest u e t xs) (evalRest u e F xs) := by
  induction xs with
  | nil => exact Tame.pure _
  | cons x xs ih =>
    exact Tame.bind (tame_sep h x.1) fun _ => Tame.bind (tame_ref u h hF hd x.2 fun p => hP p x (.head _)) fun _ =>
      Tame.bind (ih fun p y hy => hP p y (.tail _ hy)) fun _ => Tame.pure _

theorem tame_tree (u : Uni) (h : Settled I e F t l P) (hF : e.eff (some F) = F) (hd : e.data.WF) (tree : Tree)
    (hP : P → RefSaysAll u e.data tree.first ∧ ∀ x ∈ tree.rest, RefSaysAll u e.data x.2) :
    Tame I P l (Thread.evalTree u e t tree) (evalTree u e F tree) := by
  refine Tame.bind (tame_ref u h hF hd _ fun p => (hP p).1) fun r => Tame.bind (tame_rest u h hF hd _ fun p => (hP p).2) fun xs => ?_
  cases tree.trailing with
  | none => exact Tame.pure (groupUp r xs)
  | some major => exact Tame.bind (tame_sep h major) fun _ => Tame.pure (groupUp r xs)

end

/-! ## A transformer in use -/

/-- The global names the transformer `t`, and after the flags have been set, it has them. -/
def inUseAssert (t : Nat) (F : BibleFlag) (set : Bool) (s : Shared) : Prop :=
  s.current = some t ∧ t < s.objs.length ∧ (set = true → (s.attrs t).flags = some F)

theorem attrs_update (s : Shared) (t : Nat) (g : Attrs → Attrs) (h : t < s.objs.length) : (s.update t g).attrs t = g (s.attrs t) := by
  unfold Shared.attrs Shared.update
  simp [h]

theorem settled_inUse (e : Env) (F : BibleFlag) (hF : e.eff (some F) = F) (t : Nat) (P : Prop) :
    Settled (inUseAssert t F) e F t true P where
  flags _ s hs := by rw [hs.2.2 rfl, hF]
  keeps s g k hg hs := ⟨hs.1, by simpa [Shared.update] using hs.2.1, fun hk => by rw [attrs_update s t g hs.2.1, hg]; exact hs.2.2 hk⟩

theorem good_transformer_inUse {t : Nat} {F : BibleFlag} {l : Bool} : Good (inUseAssert t F) l Thread.transformer
    (fun r l' => r = .ok t ∧ l' = l) := by
  have hr : Good (inUseAssert t F) l (Thread.read Shared.current) (fun r l' => r = .ok (some t) ∧ l' = l) := fun s hs =>
    ⟨fun _ h => h, l, hs, by rw [hs.1], rfl⟩
  have he : Good (inUseAssert t F) l Thread.ensureTransformer (fun r l' => r = .ok () ∧ l' = l) := by
    refine hr.bind ?_ ?_
    · rintro a l' ⟨h, rfl⟩
      cases h
      exact ⟨rfl, rfl⟩
    · rintro _ _ ⟨h, _⟩; cases h
  refine he.bind ?_ ?_
  · rintro a l' ⟨_, rfl⟩
    refine hr.bind ?_ ?_
    · rintro a l' ⟨h, rfl⟩
      cases h
      exact ⟨rfl, rfl⟩
    · rintro _ _ ⟨h, _⟩; cases h
  · rintro _ _ ⟨h, _⟩; cases h

theorem good_parse_inUse (u : Uni) (e : Env) (hd : e.data.WF) (flags : Option BibleFlag) (str : List Char) (t : Nat) :
    Good (inUseAssert t (e.eff flags)) false (Thread.parse u e flags str)
      (fun r _ => TextSaysAll u e.data str → ∀ p, r = (parse u e flags str p).1) := by
  unfold Thread.parse parse
  cases hp : parseTree u e.data str with
  | none => exact fun _ _ => rfl
  | some tree =>
    refine good_transformer_inUse.bind ?_ fun _ _ h => by cases h.1
    rintro _ _ ⟨h, rfl⟩
    cases h
    intro s hs
    have hupd : ∀ k, inUseAssert t (e.eff flags) k s → inUseAssert t (e.eff flags) true
        (s.update t fun a => { a with flags := some (e.eff flags) }) := fun k hk =>
      ⟨hk.1, by simpa [Shared.update] using hk.2.1, fun _ => by rw [attrs_update s t _ hk.2.1]⟩
    have hweak : ∀ k s, inUseAssert t (e.eff flags) true s → inUseAssert t (e.eff flags) k s := fun k s hk =>
      ⟨hk.1, hk.2.1, fun _ => hk.2.2 rfl⟩
    refine ⟨fun k hk => hweak k _ (hupd k hk), true, hupd _ hs, ?_⟩
    refine good_transformer_inUse.bind ?_ fun _ _ h => by cases h.1
    rintro _ _ ⟨h, rfl⟩
    cases h
    have ht := tame_tree (P := TextSaysAll u e.data str) u (settled_inUse e (e.eff flags) (e.eff_eff flags) t _) (e.eff_eff flags) hd tree
      fun hP => hP tree hp
    exact ht.2.mono fun r _ hr hP p => by rw [hr.2 hP, ht.1 hP p]

/-! ## Possibly no transformer yet -/

/-- The flags of all transformers are as they should be; and possibly one transformer is known to exist, and the global to name
one. -/
def firstAssert (ok : Option BibleFlag → Prop) (k : Option Nat × Bool) (s : Shared) : Prop :=
  (∀ a ∈ s.objs, ok a.flags) ∧ (∀ t, s.current = some t → t < s.objs.length) ∧
  (∀ t, k.1 = some t → t < s.objs.length) ∧ (k.2 = true → s.current ≠ none)

theorem update_flags_ok {ok : Option BibleFlag → Prop} {s : Shared} {t : Nat} {g : Attrs → Attrs}
    (hg : ∀ a : Attrs, ok a.flags → ok (g a).flags) (h : ∀ a ∈ s.objs, ok a.flags) : ∀ a ∈ (s.update t g).objs, ok a.flags := by
  intro a ha
  unfold Shared.update at ha
  obtain ⟨i, hi, rfl⟩ := List.mem_iff_getElem.mp ha
  simp only [List.getElem_modify]
  simp only [List.length_modify] at hi
  split
  · exact hg _ (h _ (List.getElem_mem _))
  · exact h _ (List.getElem_mem _)

theorem firstAssert_update {ok : Option BibleFlag → Prop} {s : Shared} {t : Nat} {g : Attrs → Attrs} {k : Option Nat × Bool}
    (hg : ∀ a : Attrs, ok a.flags → ok (g a).flags) (h : firstAssert ok k s) : firstAssert ok k (s.update t g) :=
  ⟨update_flags_ok hg h.1, by simpa [Shared.update] using h.2.1, by simpa [Shared.update] using h.2.2.1, h.2.2.2⟩

theorem settled_first {ok : Option BibleFlag → Prop} (e : Env) (F : BibleFlag) {P : Prop} (hok : P → ∀ f, ok f → e.eff f = F) (t : Nat) :
    Settled (firstAssert ok) e F t (some t, true) P where
  flags hP s hs := by
    have ht := hs.2.2.1 t rfl
    unfold Shared.attrs
    rw [List.getElem?_eq_getElem ht]
    exact hok hP _ (hs.1 _ (List.getElem_mem _))
  keeps s g k hg hs := firstAssert_update (fun a ha => by rw [hg]; exact ha) hs

theorem good_transformer_first {ok : Option BibleFlag → Prop} (hnone : ok none) {l : Option Nat × Bool} : Good (firstAssert ok) l Thread.transformer
    (fun r l' => ∃ t, r = .ok t ∧ l' = (some t, true)) := by
  have he : Good (firstAssert ok) l Thread.ensureTransformer (fun r l' => r = .ok () ∧ l'.2 = true) := by
    intro s hs
    cases hc : s.current with
    | some t =>
      refine ⟨fun _ h => h, (none, true), ⟨hs.1, hs.2.1, fun t' h => (by cases h), fun _ => by simp [hc]⟩, ?_⟩
      show Good _ _ (Thread.bind _ _) _
      simp only [Thread.bind, hc]
      exact ⟨rfl, rfl⟩
    | none =>
      refine ⟨fun _ h => h, (none, false), ⟨hs.1, hs.2.1, fun t' h => (by cases h), fun h => by cases h⟩, ?_⟩
      show Good _ _ (Thread.bind _ _) _
      simp only [Thread.bind, hc]
      intro s' hs'
      have happ : ∀ k, firstAssert ok k s' → firstAssert ok k { s' with objs := s'.objs ++ [.new] } := by
        intro k hk
        refine ⟨?_, fun t ht => ?_, fun t ht => ?_, hk.2.2.2⟩
        · intro a ha
          rcases List.mem_append.mp ha with ha | ha
          · exact hk.1 a ha
          · rw [List.mem_singleton.mp ha]; exact hnone
        · have := hk.2.1 t ht
          simp only [List.length_append, List.length_singleton]
          omega
        · have := hk.2.2.1 t ht
          simp only [List.length_append, List.length_singleton]
          omega
      refine ⟨happ, (some s'.objs.length, false), ⟨(happ _ hs').1, (happ _ hs').2.1, fun t h => ?_, fun h => by cases h⟩, ?_⟩
      · cases h
        simp
      intro s'' hs''
      have hset : ∀ k, firstAssert ok k s'' → firstAssert ok (k.1, true) { s'' with current := some s'.objs.length } := by
        intro k hk
        refine ⟨hk.1, fun t ht => ?_, hk.2.2.1, fun _ h => by cases h⟩
        cases ht
        exact hs''.2.2.1 _ rfl
      exact ⟨fun k hk => ⟨(hset k hk).1, (hset k hk).2.1, (hset k hk).2.2.1, fun _ h => by cases h⟩, (some s'.objs.length, true),
        hset _ hs'', rfl, rfl⟩
  refine he.bind ?_ fun _ _ h => by cases h.1
  rintro _ ⟨a, b⟩ ⟨_, rfl⟩
  intro s hs
  cases hc : s.current with
  | none => exact absurd hc (hs.2.2.2 rfl)
  | some t =>
    refine ⟨fun _ h => h, (some t, true), ⟨hs.1, hs.2.1, fun t' h => ?_, fun _ => hs.2.2.2 rfl⟩, ?_⟩
    · cases h; exact hs.2.1 t hc
    · show Good _ _ (Thread.bind _ _) _
      simp only [Thread.bind, hc]
      exact ⟨t, rfl, rfl⟩

theorem good_parse_first {ok : Option BibleFlag → Prop} (hnone : ok none) (u : Uni) (e : Env) (hd : e.data.WF) (flags : Option BibleFlag)
    (hset : ok (some (e.eff flags))) (str : List Char) {P : Prop} (hok : P → ∀ f, ok f → e.eff f = e.eff flags)
    (hP : P → TextSaysAll u e.data str) :
    Good (firstAssert ok) (none, false) (Thread.parse u e flags str) (fun r _ => P → ∀ p, r = (parse u e flags str p).1) := by
  unfold Thread.parse parse
  cases hp : parseTree u e.data str with
  | none => exact fun _ _ => rfl
  | some tree =>
    refine (good_transformer_first hnone).bind ?_ fun _ _ h => by obtain ⟨_, h, _⟩ := h; cases h
    rintro t _ ⟨_, _, rfl⟩
    intro s hs
    have hupd : ∀ k, firstAssert ok k s → firstAssert ok k (s.update t fun a => { a with flags := some (e.eff flags) }) := fun k hk =>
      firstAssert_update (fun _ _ => hset) hk
    refine ⟨hupd, _, hupd _ hs, ?_⟩
    refine (good_transformer_first hnone).bind ?_ fun _ _ h => by obtain ⟨_, h, _⟩ := h; cases h
    rintro t _ ⟨_, h, rfl⟩
    cases h
    have ht := tame_tree (P := P) u (settled_first e (e.eff flags) hok t) (e.eff_eff _) hd tree fun h => hP h tree hp
    exact ht.2.mono fun r _ hr hP p => by rw [hr.2 hP, ht.1 hP p]

/-! ## How often a thread needs its turn -/

/-- The thread ends after at most so many turns. -/
def Within {α : Type} : Nat → Thread α → Prop
  | _, .done _ => True
  | 0, .access _ _ => False
  | n + 1, .access _ next => ∀ s, Within n (next s)

theorem Within.mono {α : Type} {x : Thread α} {m n : Nat} (h : Within m x) (hmn : m ≤ n) : Within n x := by
  induction x generalizing m n with
  | done r => cases n <;> trivial
  | access change next ih =>
    cases m with
    | zero => exact h.elim
    | succ m =>
      cases n with
      | zero => omega
      | succ n => exact fun s => ih s (h s) (by omega)

theorem Within.bind {α β : Type} {x : Thread α} {g : α → Thread β} {m n : Nat} (hx : Within m x) (hg : ∀ a, Within n (g a)) :
    Within (m + n) (x >>= g) := by
  rw [Thread.bind_eq]
  induction x generalizing m with
  | done r =>
    cases r with
    | ok a => exact (hg a).mono (by omega)
    | error err => show Within _ (Thread.done _); cases m + n <;> trivial
  | access change next ih =>
    cases m with
    | zero => exact hx.elim
    | succ m =>
      rw [Nat.succ_add]
      exact fun s => ih s (hx s)

theorem Within.done {α : Type} (r : Except PyErr α) : Within 0 (Thread.done r) := trivial
theorem Within.read {β : Type} (f : Shared → β) : Within 1 (Thread.read f) := fun _ => trivial
theorem Within.write (f : Shared → Shared) : Within 1 (Thread.write f) := fun _ => trivial

section
variable {u : Uni} {e : Env} {t : Nat}

theorem within_oneRange (b : Option BibleBook) (c v : Option Int) : Within 1 (Thread.oneRange e t b c v) :=
  (Within.read _).bind (n := 0) fun _ => Within.done _

theorem within_name (name : List Char) : Within 0 (Thread.nameCallback u e.data name) := by
  unfold Thread.nameCallback
  split <;> exact Within.done _

theorem within_single (x : Single) : Within 6 (Thread.evalSingle u e t x) := by
  cases x with
  | book name =>
    exact Within.mono ((within_name name).bind fun b => (Within.write _).bind fun _ => (Within.write _).bind fun _ => within_oneRange _ _ _)
      (by omega : 0 + (1 + (1 + 1)) ≤ 6)
  | bookNum name n =>
    refine Within.mono ((within_name name).bind fun b => (Within.write _).bind fun _ => (Within.write _).bind (n := 3) fun _ => ?_)
      (by omega : 0 + (1 + (1 + 3)) ≤ 6)
    split
    · exact (Within.write _).bind fun _ => (Within.read _).bind fun _ => within_oneRange _ _ _
    · exact Within.mono ((Within.write _).bind fun _ => within_oneRange _ _ _) (by omega : 1 + 1 ≤ 3)
  | bookChapVerse name c v =>
    exact Within.mono ((within_name name).bind fun b => (Within.write _).bind fun _ => (Within.write _).bind fun _ =>
      (Within.write _).bind fun _ => within_oneRange _ _ _) (by omega : 0 + (1 + (1 + (1 + 1))) ≤ 6)
  | chapVerse c v =>
    refine Within.mono ((Within.read _).bind (n := 4) fun b => ?_) (by omega : 1 + 4 ≤ 6)
    cases b with
    | none => exact Within.mono (Within.done _) (by omega)
    | some _ =>
      exact (Within.read _).bind fun b => (Within.write _).bind fun _ => (Within.write _).bind fun _ => within_oneRange _ _ _
  | num n =>
    refine (Within.read _).bind (n := 5) fun b => ?_
    cases b with
    | none => exact Within.mono (Within.done _) (by omega)
    | some _ =>
      refine (Within.read _).bind (n := 4) fun b => ?_
      cases b with
      | none => exact Within.mono (Within.done _) (by omega)
      | some b =>
        refine (Within.read _).bind (n := 3) fun a => ?_
        split
        · split
          · exact (Within.write _).bind fun _ => (Within.read _).bind fun _ => within_oneRange _ _ _
          · refine (Within.read _).bind (n := 2) fun c => ?_
            cases c with
            | none => exact (Within.done _).bind (n := 2) fun _ => (Within.read _).bind fun _ => within_oneRange _ _ _
            | some _ => exact (Within.read _).bind fun _ => within_oneRange _ _ _
        · exact Within.mono (within_oneRange _ _ _) (by omega)

theorem within_ref (x : Ref) : Within 13 (Thread.evalRef u e t x) := by
  cases x with
  | single a => exact Within.mono (within_single a) (by omega)
  | dual a b =>
    exact (within_single a).bind fun _ => (within_single b).bind fun _ => (Within.read _).bind (n := 0) fun _ => Within.done _

theorem within_sep (major : Bool) : Within 1 (Thread.evalSep t major) := by
  cases major with
  | false => exact Within.mono (Within.done _) (by omega)
  | true => exact Within.write _

theorem within_rest (l : List (Bool × Ref)) : Within (14 * l.length) (Thread.evalRest u e t l) := by
  induction l with
  | nil => exact Within.done _
  | cons x l ih =>
    exact Within.mono ((within_sep _).bind fun _ => (within_ref x.2).bind fun _ => ih.bind (n := 0) fun _ => Within.done _)
      (by simp only [List.length_cons]; omega)

theorem within_tree (tree : Tree) : Within (14 + 14 * tree.rest.length) (Thread.evalTree u e t tree) := by
  refine Within.mono ((within_ref _).bind fun r => (within_rest _).bind (n := 1) fun l => ?_)
    (by omega : 13 + (14 * tree.rest.length + 1) ≤ _)
  cases tree.trailing with
  | none => exact Within.mono (Within.done _) (by omega)
  | some major => exact (within_sep _).bind (n := 0) fun _ => Within.done _

theorem within_transformer : Within 4 Thread.transformer := by
  refine Within.bind (m := 3) (n := 1) ?_ fun _ => (Within.read _).bind (n := 0) fun c => ?_
  · refine (Within.read _).bind (n := 2) fun c => ?_
    cases c with
    | some _ => exact Within.mono (Within.done _) (by omega)
    | none => exact Within.bind (m := 1) (n := 1) (fun _ => trivial) fun _ => Within.write _
  · cases c <;> exact Within.done _

end

theorem within_parse (u : Uni) (e : Env) (flags : Option BibleFlag) (str : List Char) : ∃ n, Within n (Thread.parse u e flags str) := by
  unfold Thread.parse
  cases parseTree u e.data str with
  | none => exact ⟨0, Within.done _⟩
  | some tree =>
    exact ⟨_, within_transformer.bind fun _ => (Within.write _).bind fun _ => within_transformer.bind fun _ => within_tree tree⟩

theorem within_listOfStr (u : Uni) (e : Env) (flags : Option BibleFlag) (str : List Char) :
    ∃ n, Within n (Thread.listOfStr u e flags str) := by
  obtain ⟨n, h⟩ := within_parse u e (some (e.eff flags)) str
  exact ⟨_, h.bind (n := 0) fun _ => Within.done _⟩

theorem Within.run {α : Type} {n i : Nat} (schedule : List Nat) (hn : n ≤ schedule.count i) {x : Thread.System α} {th : Thread α}
    (hi : x.2[i]? = some th) (h : Within n th) : ∃ r, resultOf (Thread.run schedule x) i = some r := by
  induction schedule generalizing x n th with
  | nil =>
    cases th with
    | done r => exact ⟨r, by simp [Thread.run, resultOf, hi, Thread.result]⟩
    | access change next =>
      simp only [List.count_nil, Nat.le_zero] at hn
      subst hn
      exact h.elim
  | cons j schedule ih =>
    show ∃ r, resultOf (Thread.run schedule (Thread.turn j x)) i = some r
    rw [List.count_cons] at hn
    by_cases hj : j = i
    · subst hj
      simp only [beq_self_eq_true, if_true] at hn
      unfold Thread.turn
      rw [hi]
      cases th with
      | done r => exact ih (n := 0) (by omega) hi trivial
      | access change next =>
        cases n with
        | zero => exact h.elim
        | succ n =>
          refine ih (n := n) (by omega) (th := next x.1) ?_ (h x.1)
          have : j < x.2.length := (List.getElem?_eq_some_iff.mp hi).1
          simp [this]
    · rw [if_neg (by simpa using hj)] at hn
      have hi' : (Thread.turn j x).2[i]? = some th := by
        unfold Thread.turn
        split
        · simp [List.getElem?_set_ne hj, hi]
        · exact hi
      exact ih hn hi' h

/-! ## A thread that is not interrupted -/

theorem run_alone {α : Type} (k i : Nat) {x : Thread.System α} {th : Thread α} (hi : x.2[i]? = some th) {r : Except PyErr α}
    (hr : resultOf (Thread.run (List.replicate k i) x) i = some r) : r = (th.alone x.1).1 := by
  induction k generalizing x th with
  | zero =>
    simp only [List.replicate_zero, Thread.run, List.foldl_nil, resultOf, hi, Option.bind_some] at hr
    cases th with
    | done r' => cases hr; rfl
    | access change next => cases hr
  | succ k ih =>
    have hr' : resultOf (Thread.run (List.replicate k i) (Thread.turn i x)) i = some r := hr
    cases th with
    | done r' =>
      have : Thread.turn i x = x := by unfold Thread.turn; rw [hi]
      rw [this] at hr'
      exact ih hi hr'
    | access change next =>
      have hl : i < x.2.length := (List.getElem?_eq_some_iff.mp hi).1
      have : Thread.turn i x = (change x.1, x.2.set i (next x.1)) := by unfold Thread.turn; rw [hi]
      rw [this] at hr'
      exact ih (x := (change x.1, x.2.set i (next x.1))) (th := next x.1) (by simp [hl]) hr'

theorem run_others {α : Type} (schedule : List Nat) (i : Nat) (hs : i ∉ schedule) (x : Thread.System α) :
    (Thread.run schedule x).2[i]? = x.2[i]? := by
  induction schedule generalizing x with
  | nil => rfl
  | cons j schedule ih =>
    show (Thread.run schedule (Thread.turn j x)).2[i]? = _
    rw [ih (fun h => hs (.tail _ h))]
    have hj : j ≠ i := fun h => hs (h ▸ .head _)
    unfold Thread.turn
    split
    · simp [List.getElem?_set_ne hj]
    · rfl

end Bibleref

import Verif.SpecThreads
import Verif.Props.Parsing

/-!
# Lemmas about threads
-/

namespace Bibleref

open Spec

namespace Thread

variable {α β : Type}

theorem pure_eq (a : α) : (pure a : Thread α) = .done (.ok a) := rfl
theorem bind_eq (x : Thread α) (f : α → Thread β) : (x >>= f) = x.bind f := rfl

/-! ## A thread without any other -/

theorem alone_bind (x : Thread α) (f : α → Thread β) (s : Shared) :
    (x >>= f).alone s = match x.alone s with
      | (.ok a, s') => (f a).alone s'
      | (.error err, s') => (.error err, s') := by
  rw [bind_eq]
  induction x generalizing s with
  | done r => cases r <;> rfl
  | access change next ih => simp only [bind, alone, ih]

theorem alone_pure (a : α) (s : Shared) : (pure a : Thread α).alone s = (.ok a, s) := rfl
theorem alone_raise (err : PyErr) (s : Shared) : (raise err : Thread α).alone s = (.error err, s) := rfl
theorem alone_lift (x : Except PyErr α) (s : Shared) : (lift x).alone s = (x, s) := rfl
theorem alone_read (f : Shared → β) (s : Shared) : (read f).alone s = (.ok (f s), s) := rfl
theorem alone_write (f : Shared → Shared) (s : Shared) : (write f).alone s = (.ok (), f s) := rfl

end Thread

/-- What is shared, when the transformer `t` has the attributes `p` and the flags `f`. -/
def Shared.Sees (s : Shared) (t : Nat) (f : BibleFlag) (p : PState) : Prop :=
  s.current = some t ∧ s.objs[t]? = some ⟨p.book, p.chap, p.atVerse, some f⟩

/-- Running a thread alone does what the callbacks do. -/
def Mirrors {α : Type} (t : Nat) (f : BibleFlag) (x : Thread α) (m : PM α) : Prop :=
  ∀ s p, s.Sees t f p → (x.alone s).1 = (m p).1 ∧ (x.alone s).2.Sees t f (m p).2

section
variable {α β : Type} {t : Nat} {f : BibleFlag}

theorem Mirrors.bind {x : Thread α} {m : PM α} {g : α → Thread β} {k : α → PM β} (hx : Mirrors t f x m)
    (hg : ∀ a, Mirrors t f (g a) (k a)) : Mirrors t f (x >>= g) (m >>= k) := by
  intro s p hs
  have h := hx s p hs
  rw [Thread.alone_bind]
  show _ ∧ Shared.Sees _ t f (PM.bind m k p).2
  rw [show (m >>= k) p = PM.bind m k p from rfl]
  unfold PM.bind
  revert h
  rcases x.alone s with ⟨r, s'⟩
  rcases m p with ⟨r', p'⟩
  rintro ⟨rfl, h2⟩
  cases r with
  | ok a => exact hg a s' p' h2
  | error err => exact ⟨rfl, h2⟩

theorem Mirrors.lift (x : Except PyErr α) : Mirrors t f (Thread.lift x) (PM.lift x) := fun _ _ hs => ⟨rfl, hs⟩
theorem Mirrors.pure (a : α) : Mirrors t f (pure a) (pure a) := fun _ _ hs => ⟨rfl, hs⟩
theorem Mirrors.raise (err : PyErr) : Mirrors t f (Thread.raise (α := α) err) (PM.raise err) := fun _ _ hs => ⟨rfl, hs⟩

theorem Shared.Sees.attrs {s : Shared} {p : PState} (h : s.Sees t f p) : s.attrs t = ⟨p.book, p.chap, p.atVerse, some f⟩ := by
  unfold Shared.attrs; rw [h.2]; rfl

theorem Shared.Sees.update {s : Shared} {p : PState} (h : s.Sees t f p) (g : Attrs → Attrs) (q : PState)
    (hq : g ⟨p.book, p.chap, p.atVerse, some f⟩ = ⟨q.book, q.chap, q.atVerse, some f⟩) : (s.update t g).Sees t f q := by
  refine ⟨h.1, ?_⟩
  unfold Shared.update
  simp [h.2, hq]

theorem mirrors_name (u : Uni) (d : BibleData) (name : List Char) :
    Mirrors t f (Thread.nameCallback u d name) (nameCallback u d name) := by
  unfold Thread.nameCallback nameCallback
  cases BibleBook.fromStr u d name with
  | none => exact Mirrors.raise _
  | some b => exact Mirrors.pure b

theorem mirrors_oneRange (e : Env) (b : BibleBook) (c v : Option Int) :
    Mirrors t f (Thread.oneRange e t (some b) c v) (oneRange e f b c v) := by
  intro s p hs
  unfold Thread.oneRange oneRange Thread.getFlags
  simp only [Thread.alone_bind, Thread.alone_read, Thread.alone_lift, hs.attrs]
  exact ⟨rfl, hs⟩

/-- `alone` of a program that starts with an access. -/
theorem mirrors_write {x : Thread α} {m : PM α} (g : Attrs → Attrs) (p' : PState → PState)
    (hg : ∀ p : PState, g ⟨p.book, p.chap, p.atVerse, some f⟩ = ⟨(p' p).book, (p' p).chap, (p' p).atVerse, some f⟩)
    (hx : ∀ s p, s.Sees t f (p' p) → (x.alone s).1 = (m p).1 ∧ (x.alone s).2.Sees t f (m p).2) :
    Mirrors t f (Thread.write (fun s => s.update t g) >>= fun _ => x) m := by
  intro s p hs
  rw [Thread.alone_bind, Thread.alone_write]
  exact hx _ p (hs.update g _ (hg p))

end

open Thread in
theorem mirrors_single (u : Uni) (e : Env) (t : Nat) (f : BibleFlag) (x : Single) :
    Mirrors t f (Thread.evalSingle u e t x) (evalSingle u e f x) := by
  cases x with
  | book name =>
    refine Mirrors.bind (mirrors_name u e.data name) fun b => ?_
    intro s p hs
    simp only [alone_bind, setBook, setAtVerse, alone_write]
    exact mirrors_oneRange e b none none _ _ (((hs.update _ { p with book := some b } rfl)).update _ { p with book := some b, atVerse := false } rfl)
  | bookNum name n =>
    refine Mirrors.bind (mirrors_name u e.data name) fun b => ?_
    intro s p hs
    simp only [alone_bind, setBook, setAtVerse, setChap, alone_write, getChap]
    by_cases hc : b.chapCount e.data = 1
    · have h3 := ((hs.update (fun a => { a with book := some b }) { p with book := some b } rfl).update
        (fun a => { a with atVerse := decide (b.chapCount e.data = 1) }) { p with book := some b, atVerse := true } (by simp [hc])).update
        (fun a => { a with chap := some (b.minChapNum e.data) }) ⟨some b, some (b.minChapNum e.data), true⟩ rfl
      simp only [hc, if_true, alone_bind, alone_write, alone_read] at h3 ⊢
      rw [h3.attrs]
      exact mirrors_oneRange e b (some (b.minChapNum e.data)) (some n) _ _ h3
    · have h3 := ((hs.update (fun a => { a with book := some b }) { p with book := some b } rfl).update
        (fun a => { a with atVerse := decide (b.chapCount e.data = 1) }) { p with book := some b, atVerse := false } (by simp [hc])).update
        (fun a => { a with chap := some (n : Int) }) ⟨some b, some n, false⟩ rfl
      simp only [hc, if_false, alone_bind, alone_write] at h3 ⊢
      have := mirrors_oneRange (t := t) (f := f) e b (some n) none _ _ h3
      simpa [Bind.bind, PM.bind, PM.get, PM.set, hc] using this
  | bookChapVerse name c v =>
    refine Mirrors.bind (mirrors_name u e.data name) fun b => ?_
    intro s p hs
    simp only [alone_bind, setBook, setAtVerse, setChap, alone_write]
    exact mirrors_oneRange e b (some c) (some v) _ _ (((hs.update _ { p with book := some b } rfl).update _ { p with book := some b, chap := some (c : Int) } rfl).update _
      ⟨some b, some c, true⟩ rfl)
  | chapVerse c v =>
    intro s p hs
    unfold Thread.evalSingle evalSingle
    simp only [alone_bind, getBook, alone_read, hs.attrs]
    simp only [Bind.bind, PM.bind, PM.get]
    cases hb : p.book with
    | none => exact ⟨rfl, hs⟩
    | some b =>
      simp only [← bind_eq, alone_bind, alone_read, setChap, setAtVerse, alone_write, hs.attrs, hb]
      exact mirrors_oneRange e b (some c) (some v) _ _ ((hs.update _ { p with chap := some (c : Int) } rfl).update _
        ⟨some b, some c, true⟩ (by simp [hb]))
  | num n =>
    intro s p hs
    unfold Thread.evalSingle evalSingle
    simp only [alone_bind, getBook, alone_read, hs.attrs]
    simp only [Bind.bind, PM.bind, PM.get]
    cases hb : p.book with
    | none => exact ⟨rfl, hs⟩
    | some b =>
      simp only [← bind_eq, alone_bind, alone_read, setChap, getAtVerse, getChap, hs.attrs, hb]
      by_cases hc : b.chapCount e.data = 1
      · have h3 := hs.update (fun a => { a with chap := some (b.minChapNum e.data) }) { p with chap := some (b.minChapNum e.data) } rfl
        simp only [hc, or_true, if_true, alone_bind, alone_write, alone_read, h3.attrs]
        exact mirrors_oneRange e b (some (b.minChapNum e.data)) (some n) _ _ (by rw [← hb]; exact h3)
      · simp only [hc, or_false, if_false]
        by_cases ha : p.atVerse = true
        · simp only [ha, if_true, alone_bind, alone_read, hs.attrs]
          have hr := fun c => mirrors_oneRange (t := t) (f := f) e b (some c) (some n) _ _ hs
          cases hch : p.chap with
          | none =>
            simp only [alone_bind, alone_raise]
            exact ⟨rfl, hs⟩
          | some c =>
            simp only [alone_bind, alone_read, hs.attrs, hch]
            exact hr c
        · simp only [ha]
          exact mirrors_oneRange (t := t) (f := f) e b (some n) none _ _ hs

theorem mirrors_ref (u : Uni) (e : Env) (t : Nat) (f : BibleFlag) (x : Ref) :
    Mirrors t f (Thread.evalRef u e t x) (evalRef u e f x) := by
  cases x with
  | single a => exact mirrors_single u e t f a
  | dual a b =>
    refine Mirrors.bind (mirrors_single u e t f a) fun first => Mirrors.bind (mirrors_single u e t f b) fun second => ?_
    intro s p hs
    simp only [Thread.getFlags, Thread.alone_bind, Thread.alone_read, hs.attrs]
    exact ⟨rfl, hs⟩

theorem mirrors_sep (t : Nat) (f : BibleFlag) (major : Bool) : Mirrors t f (Thread.evalSep t major) (evalSep major) := by
  intro s p hs
  cases major with
  | false => exact ⟨rfl, hs⟩
  | true => exact ⟨rfl, hs.update _ { p with atVerse := false } rfl⟩

theorem mirrors_rest (u : Uni) (e : Env) (t : Nat) (f : BibleFlag) (l : List (Bool × Ref)) :
    Mirrors t f (Thread.evalRest u e t l) (evalRest u e f l) := by
  induction l with
  | nil => exact Mirrors.pure _
  | cons x l ih =>
    exact Mirrors.bind (mirrors_sep t f x.1) fun _ => Mirrors.bind (mirrors_ref u e t f x.2) fun _ => Mirrors.bind ih fun _ => Mirrors.pure _

theorem mirrors_tree (u : Uni) (e : Env) (t : Nat) (f : BibleFlag) (tree : Tree) :
    Mirrors t f (Thread.evalTree u e t tree) (evalTree u e f tree) := by
  refine Mirrors.bind (mirrors_ref u e t f _) fun r => Mirrors.bind (mirrors_rest u e t f _) fun l => ?_
  cases tree.trailing with
  | none => exact Mirrors.pure (groupUp r l)
  | some major => exact Mirrors.bind (mirrors_sep t f major) fun _ => Mirrors.pure (groupUp r l)

/-- `_transformer()` when there is a transformer. -/
theorem transformer_alone {s : Shared} {t : Nat} (h : s.current = some t) : Thread.transformer.alone s = (.ok t, s) := by
  unfold Thread.transformer Thread.ensureTransformer
  simp only [Thread.alone_bind, Thread.alone_read, h, Thread.alone_pure]

/-- `_transformer()` when there is none. -/
theorem transformer_alone_none {s : Shared} (h : s.current = none) : Thread.transformer.alone s =
    (.ok s.objs.length, ⟨some s.objs.length, s.objs ++ [.new]⟩) := by
  unfold Thread.transformer Thread.ensureTransformer
  simp only [Thread.alone_bind, Thread.alone_read, h]
  rfl

theorem parse_alone (u : Uni) (e : Env) (flags : Option BibleFlag) (str : List Char) (s : Shared)
    (hs : ∀ t, s.current = some t → t < s.objs.length) :
    ((Thread.parse u e flags str).alone s).1 = (parse u e flags str (remembered s)).1 ∧
    remembered ((Thread.parse u e flags str).alone s).2 = (parse u e flags str (remembered s)).2 := by
  unfold Thread.parse parse
  cases parseTree u e.data str with
  | none => exact ⟨rfl, rfl⟩
  | some tree =>
    have key : ∀ s' t, s'.Sees t (e.eff flags) (remembered s) →
        ((Thread.evalTree u e t tree).alone s').1 = (evalTree u e (e.eff flags) tree (remembered s)).1 ∧
        remembered ((Thread.evalTree u e t tree).alone s').2 = (evalTree u e (e.eff flags) tree (remembered s)).2 := by
      intro s' t h
      obtain ⟨h1, h2⟩ := mirrors_tree u e t (e.eff flags) tree s' _ h
      refine ⟨h1, ?_⟩
      generalize (evalTree u e (e.eff flags) tree (remembered s)).2 = p at h2
      unfold remembered
      simp only [h2.1, h2.attrs]
    simp only [Thread.alone_bind]
    cases hc : s.current with
    | none =>
      rw [transformer_alone_none hc]
      simp only [Thread.setFlags, Thread.alone_write]
      rw [transformer_alone (t := s.objs.length) rfl]
      refine key _ _ ⟨rfl, ?_⟩
      simp [Shared.update, remembered, hc, Attrs.new, PState.init]
    | some t =>
      rw [transformer_alone hc]
      simp only [Thread.setFlags, Thread.alone_write]
      rw [transformer_alone (s := s.update t _) (t := t) hc]
      refine key _ _ ⟨hc, ?_⟩
      have ht := hs t hc
      simp [Shared.update, remembered, hc, Shared.attrs, ht]

end Bibleref

import Verif.Spec

/-! # Other book orders -/

namespace Bibleref.Spec

/-- The same data and flags with another book order. -/
def reordered (e : Env) (o : List BibleBook) : Env := { e with data := { e.data with bookOrder := o } }

/-- The same data and flags with `b` as the only book in the order. -/
def only (e : Env) (b : BibleBook) : Env := { e with data := { e.data with bookOrder := [b] } }

/-- A range whose verses are of book `b`. -/
def Inside (b : BibleBook) (r : BibleRange) : Prop := r.start.book = b ∧ r.stop.book = b

end Bibleref.Spec

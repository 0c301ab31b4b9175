import Verif.Model.Bindings
/-! A converter used by one thread only, and what it means that a concurrent execution is equivalent to it. -/
namespace Verif.Spec
open Verif.Model

/-- A converter which is called by one thread: a call which panics makes all later ones fail, if it may change
the converter. -/
structure Sequential where
  converter : Converter
  broken : Bool

/-- One call -/
def Sequential.call (f : PyFlags) (fuel : Nat) (s : Sequential) (m : Method) : PyReply × Sequential :=
  if s.broken then (.lockError, s)
  else
    let (r, c) := f.run fuel s.converter m
    (r, ⟨c, m.writes && r == .panic⟩)

/-- The replies to calls made one after the other -/
def Sequential.replies (f : PyFlags) (fuel : Nat) : Sequential → List Method → List PyReply
  | _, [] => []
  | s, m :: ms => (s.call f fuel m).1 :: Sequential.replies f fuel (s.call f fuel m).2 ms

/-- The converter after them -/
def Sequential.after (f : PyFlags) (fuel : Nat) : Sequential → List Method → Sequential
  | s, [] => s
  | s, m :: ms => Sequential.after f fuel (s.call f fuel m).2 ms

/-- Threads which have not started yet -/
def start (c : Converter) (programs : Nat → List Method) : Machine := { shared := c, todo := programs }

/-- Any number of steps -/
inductive Steps (f : PyFlags) (fuel : Nat) : Machine → Machine → Prop
  | refl {m} : Steps f fuel m m
  | step {m m' m''} : Steps f fuel m m' → Step f fuel m' m'' → Steps f fuel m m''

/-- The call which a thread is making -/
def current (m : Machine) (t : Nat) : List Method :=
  match m.state t with
  | .idle => []
  | .waiting call | .holding call | .loaded call _ | .finished call _ => [call]

/-- The reply which a thread is about to return -/
def pending (m : Machine) (t : Nat) : List (Method × PyReply) :=
  match m.state t with
  | .finished call r => [(call, r)]
  | _ => []

/-- A sequential order of calls explains what has happened: made one after the other, they give the replies which
have been given; the calls of each thread are those it has made, in its order, with the replies it has seen. -/
structure Explains (f : PyFlags) (fuel : Nat) (c : Converter) (programs : Nat → List Method) (m : Machine)
    (order : List (Nat × Method × PyReply)) : Prop where
  replies : order.map (·.2.2) = Sequential.replies f fuel ⟨c, false⟩ (order.map (·.2.1))
  threads : ∀ t, (order.filter (·.1 == t)).map (·.2) = m.returned t ++ pending m t
  programs : ∀ t, programs t = (m.returned t).map (·.1) ++ current m t ++ m.todo t

end Verif.Spec

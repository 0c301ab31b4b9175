import Verif.Model.Stores
import Verif.Model.Error
/-! The outcome of running a piece of the parser: a result, an error, or a panic. Not part of the
Rust code: this is how `&mut self` and `Result` are modelled. -/
namespace Verif.Model

/-- The outcome of a computation with state `σ`. The state is kept when an error is returned,
because what a failing snippet did to the global state remains. `panic` stands for every way in
which the code could panic (`unwrap`, `unreachable!`, arithmetic overflow) and `fuel` for a
computation which needs more steps than it was given. -/
inductive Res (σ α : Type)
  | ok (a : α) (s : σ)
  | err (e : LatexError) (s : σ)
  | panic
  | fuel

/-- A computation which reads the configuration and changes the state. -/
def St (σ α : Type) := ParserConfig → σ → Res σ α

namespace St
variable {σ τ α β : Type}

/-- Return a value. -/
def pure (a : α) : St σ α := fun _ s => .ok a s

/-- Run the second computation on what the first one returns, unless it failed (`?`). -/
def bind (m : St σ α) (f : α → St σ β) : St σ β := fun cfg s =>
  match m cfg s with
  | .ok a s' => f a cfg s'
  | .err e s' => .err e s'
  | .panic => .panic
  | .fuel => .fuel

instance : Monad (St σ) where
  pure := St.pure
  bind := St.bind

/-- `return Err(...)` -/
def throw (e : LatexError) : St σ α := fun _ s => .err e s
/-- A panic -/
def panic : St σ α := fun _ _ => .panic
/-- Too many steps -/
def outOfFuel : St σ α := fun _ _ => .fuel
/-- The current state -/
def get : St σ σ := fun _ s => .ok s s
/-- Change the state. -/
def modify (f : σ → σ) : St σ Unit := fun _ s => .ok () (f s)
/-- The configuration -/
def config : St σ ParserConfig := fun cfg s => .ok cfg s
/-- Look at the result instead of passing on an error (`let Ok(x) = ... else`). -/
def attempt (m : St σ α) : St σ (Except LatexError α) := fun cfg s =>
  match m cfg s with
  | .ok a s' => .ok (.ok a) s'
  | .err e s' => .ok (.error e) s'
  | .panic => .panic
  | .fuel => .fuel
/-- A `Result` computed without state -/
def ofExcept : Except LatexError α → St σ α
  | .ok a => St.pure a
  | .error e => St.throw e

/-- Run a computation on a part of the state. -/
def zoom (getPart : σ → τ) (setPart : τ → σ → σ) (m : St τ α) : St σ α := fun cfg s =>
  match m cfg (getPart s) with
  | .ok a t => .ok a (setPart t s)
  | .err e t => .err e (setPart t s)
  | .panic => .panic
  | .fuel => .fuel

end St
end Verif.Model

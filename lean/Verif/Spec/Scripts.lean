import Verif.Spec.Source
/-! Scripts, as they are written and as they are shown, for property C35. -/
namespace Verif.Spec
open Model

/-- The subscripts which are written after a base -/
def Scripts.subs : Scripts → List Arg
  | .nil => []
  | .sub a s => a :: s.subs
  | .sup _ s | .primes _ _ s | .primesSup _ _ _ s => s.subs

/-- The superscripts which are written after a base: primes, then perhaps an argument of `^` -/
def Scripts.sups : Scripts → List (List Token × Option Arg)
  | .nil => []
  | .sub _ s => s.sups
  | .sup a s => ([], some a) :: s.sups
  | .primes t ts s => (t :: ts, none) :: s.sups
  | .primesSup t ts a s => (t :: ts, some a) :: s.sups

/-- The arguments of `_` and `^` -/
def Scripts.args (s : Scripts) : List Arg := s.subs ++ s.sups.filterMap (·.2)

/-- The formula by itself has a meaning, whatever is around it. -/
def Form.Sound (f : Form) : Prop := ∀ l prev nxt, ∃ r, f.denote l prev nxt = .ok r
def Base.Sound (b : Base) : Prop := ∀ l prev nxt, ∃ r, b.denote l prev nxt = .ok r
def Arg.Sound (a : Arg) : Prop := ∀ reset l, ∃ r, a.denote reset l = .ok r

/-- The node of a subscript or superscript, which is one style smaller -/
inductive ScriptNode (style : Style) : Arg → Node → Prop
  | mk {a l l' n} : l.style = scriptStyle style → a.denote true l = .ok (n, l') → ScriptNode style a n

/-- A single node, or a row -/
def rowOf : List Node → Node
  | [n] => n
  | ns => .row ns {}

/-- What is shown as the subscript -/
inductive ShownSub (style : Style) : List Arg → Option Node → Prop
  | none : ShownSub style [] none
  | one {a n} : ScriptNode style a n → ShownSub style [a] (some n)

/-- What is shown as the superscript: the primes, then the argument of `^` -/
inductive ShownSup (style : Style) : List (List Token × Option Arg) → Option Node → Prop
  | none : ShownSup style [] none
  | arg {a n} : ScriptNode style a n → ShownSup style [([], some a)] (some n)
  | primes {ts} : ShownSup style [(ts, .none)] (some (rowOf (primesNodes ts)))
  | both {ts a n} : ScriptNode style a n → ShownSup style [(ts, some a)] (some (rowOf (primesNodes ts ++ [n])))

/-- The primes a character shows -/
def marksOf (c : Char) : List PrimeDirection :=
  if c = '′' then [.forward]
  else if c = '″' then [.forward, .forward]
  else if c = '‴' then [.forward, .forward, .forward]
  else if c = '⁗' then [.forward, .forward, .forward, .forward]
  else if c = '‵' then [.reversed]
  else if c = '‶' then [.reversed, .reversed]
  else if c = '‷' then [.reversed, .reversed, .reversed]
  else []

/-- The primes a node shows -/
def nodeMarks : Node → List PrimeDirection
  | .operator op _ _ _ _ => op.sc.text.flatMap marksOf
  | _ => []

/-- The primes which are written -/
def writtenMarks (t : Token) : List PrimeDirection :=
  match t.unwrapMath with
  | .prime .single => [.forward]
  | .prime .double => [.forward, .forward]
  | .prime .triple => [.forward, .forward, .forward]
  | .prime .quadruple => [.forward, .forward, .forward, .forward]
  | .prime .reversed => [.reversed]
  | .prime .reversedDouble => [.reversed, .reversed]
  | .prime .reversedTriple => [.reversed, .reversed, .reversed]
  | _ => []

end Verif.Spec

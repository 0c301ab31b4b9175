import Verif.Model.Queue
import Verif.Model.Emit
/-! The state of the parser (crates/math-core/src/parser.rs) and its simplest operations. -/
namespace Verif.Model

/-- parser.rs:46-75 `Parser` and `ParserState`; the arena and the string buffer are not needed. -/
structure PState where
  q : TokenQueue
  cmdArgs : CmdArgs := {}
  transform : Option MathVariant := none
  rightBoundaryHack : Bool := false
  env : EnvState := {}
  style : Style
  verticalLineDef : Option VerticalLineDef := none
  expansionsLeft : Nat

/-- Computations of the parser -/
abbrev P := St PState

/-- A call of a method of `self.tokens` -/
def liftQ {α : Type} (m : Q α) : P α := St.zoom PState.q (fun q s => { s with q }) m

namespace P
/-- parser.rs:171-173 `next_token` -/
def next : P TokSpan := liftQ TokenQueue.next
/-- `self.tokens.peek()` -/
def peek : P TokSpan := fun _ s => .ok s.q.peek s
/-- `self.tokens.peek_any_token()` -/
def peekAny : P TokSpan := fun _ s => .ok s.q.peekAny s
/-- `self.tokens.next_any_token()` -/
def nextAny : P TokSpan := liftQ TokenQueue.nextAny
/-- See `TokenQueue.loopFuel`. -/
def loopFuel : P Nat := fun _ s => .ok s.q.loopFuel s
/-- `if b { self.next_token()?; }` -/
def skipIf (b : Bool) : P Unit := do
  if b then
    let _ ← P.next
    return ()
  else return ()
/-- `return Err(LatexError(span, kind))` -/
def fail {α : Type} (span : Span) (kind : LatexErrKind) : P α := St.throw (span.err kind)
end P

/-- `matches!(tok, Token::SquareBracketOpen)` -/
def Token.isSquareOpen : Token → Bool
  | .squareBracketOpen => true
  | _ => false
/-- `matches!(tok, Token::SquareBracketClose)` -/
def Token.isSquareClose : Token → Bool
  | .squareBracketClose => true
  | _ => false
/-- `matches!(tok, Token::GroupEnd)` -/
def Token.isGroupEnd : Token → Bool
  | .groupEnd => true
  | _ => false
/-- parser.rs:44 `FULL_STOP_TOKEN` -/
def Token.isFullStop : Token → Bool
  | .letter c .mathOrText => c = SuperChar.fromChar '.'
  | _ => false

/-- parser.rs:3171-3180: the text of the tokens of a string literal -/
def literalText : List TokSpan → Except LatexError Str
  | [] => .ok []
  | t :: ts =>
    match recoverLimitedAscii t.tok with
    | none => .error (t.span.err .expectedAscii)
    | some c =>
      match literalText ts with
      | .ok s => .ok (c :: s)
      | .error e => .error e

/-- parser.rs:3154-3182 `parse_string_literal` -/
def parseStringLiteral : P (Str × Span) := do
  match ← liftQ (TokenQueue.readArgument true) with
  | .group toks span =>
    let s ← St.ofExcept (literalText toks)
    return (s, span)
  | .token t =>
    match t.tok with
    | .internalStringLiteral content => return (content, t.span)
    | _ =>
      let s ← St.ofExcept (literalText [t])
      return (s, t.span)

/-- specifications.rs:65-81: the `Length` in the result of `parse_length_specification` -/
def specLength (value : Dec) (unit : LatexUnit) : Length := unit.lengthWithUnit value.toRat

/-- parser.rs:1636-1656 and text_parser.rs:286-306: the distance of a `\raisebox` -/
def parseRaise : P LengthSet := do
  let (s, span) ← parseStringLiteral
  match parseLengthSpecification s with
  | some (value, u, unit, isMath) =>
    if isMath then P.fail span (.illegalUnit unit false)
    else return LengthSet.zero.addLength (specLength value u)
  | none => P.fail span (.expectedLength s)

end Verif.Model

import Verif.Spec.Grammar
import Verif.Spec.Harmless
/-! Formulas without the known defects of the output. -/
namespace Verif.Spec
open Model

/-- No markup in the name of an operator -/
def plainName (s : Str) : Bool := !s.contains '<' && !s.contains '>' && !s.contains '&'

/-- A delimiter which stretches without being told to -/
def stretchesItself (t : Token) : Bool :=
  match t.unwrapMath.delimiter with
  | some d => decide (d.stretchy = .always) || decide (d.stretchy = .alwaysAsymmetric)
  | none => true

mutual
/-- No delimiter is made to stretch in this formula, except in arguments, fences and environments. -/
def Form.unstretched : Form → Bool
  | .nil | .style _ _ | .color _ _ => true
  | .item b _ rest => b.unstretched && rest.unstretched
  | .bigOp _ _ rest | .func _ _ _ rest | .amp rest | .newLine _ rest | .noNumber rest | .tag _ _ rest | .label _ rest
  | .emptyCall _ _ _ rest => rest.unstretched
  | .call _ _ _ cont => cont.unstretched
/-- The same for bases -/
def Base.unstretched : Base → Bool
  | .leaf (.big _ _ t) | .leaf (.middle t) => stretchesItself t
  | .group f => f.unstretched
  | .mathClass _ b | .overlay _ b => b.unstretched
  | _ => true
end

mutual
/-- The separators `&` and `\\` are only directly in the formula (if `sep`) and directly in environments, not in groups
or behind a change of the style or of the colour, the names of operators contain no markup, and nothing is made to stretch in the argument
of `\mathrel` and so on. -/
def Form.tame (sep : Bool) : Form → Bool
  | .nil => true
  | .item b s rest => b.tame && s.tame && rest.tame sep
  | .bigOp _ s rest => s.tame && rest.tame sep
  | .func x _ s rest => plainName x.name.shown && s.tame && rest.tame sep
  | .amp rest | .newLine _ rest => sep && rest.tame sep
  | .noNumber rest | .tag _ _ rest | .label _ rest => rest.tame sep
  | .style _ rest | .color _ rest => rest.tame false
  | .call _ _ _ cont => cont.tame sep
  | .emptyCall _ _ s rest => s.tame && rest.tame sep
/-- The same for bases -/
def Base.tame : Base → Bool
  | .atom _ | .number _ _ | .leaf _ => true
  | .group f | .cramped _ f => f.tame false
  | .frac _ _ a b | .genfrac _ a b | .braceLabel _ _ a b => a.tame && b.tame
  | .prescript a b c => a.tame && b.tame && c.tame
  | .sqrt a | .deco _ a | .brace _ _ a | .stackTok _ a _ | .arrow _ a => a.tame
  | .mathClass _ b => b.tame && b.unstretched
  | .overlay _ b => b.tame
  | .root f a | .arrowUnder _ f a => f.tame false && a.tame
  | .stackGroup _ a f => a.tame && f.tame false
  | .fence _ _ f => f.tame false
  | .env _ _ _ f => f.tame true
/-- The same for arguments -/
def Arg.tame : Arg → Bool
  | .tok _ => true
  | .braces f => f.tame false
/-- The same for scripts -/
def Scripts.tame : Scripts → Bool
  | .nil => true
  | .sub a s | .sup a s => a.tame && s.tame
  | .primes _ _ s => s.tame
  | .primesSup _ _ a s => a.tame && s.tame
end

end Verif.Spec

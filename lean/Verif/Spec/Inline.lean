import Verif.Spec.Grammar
/-! Formulas in which the calls of macros are written out. -/
namespace Verif.Spec
open Model

mutual
/-- The formula in which every call of a macro is replaced by what it stands for; `{}` if this is nothing. -/
def Form.inlined : Form → Form
  | .nil => .nil
  | .item b s rest => .item b.inlined s.inlined rest.inlined
  | .bigOp o s rest => .bigOp o s.inlined rest.inlined
  | .func x limits s rest => .func x limits s.inlined rest.inlined
  | .amp rest => .amp rest.inlined
  | .newLine line rest => .newLine line rest.inlined
  | .noNumber rest => .noNumber rest.inlined
  | .tag paren text rest => .tag paren text rest.inlined
  | .label text rest => .label text rest.inlined
  | .style s rest => .style s rest.inlined
  | .color name rest => .color name rest.inlined
  | .call _ _ _ cont => cont.inlined
  | .emptyCall _ _ s rest => .item (.group .nil) s.inlined rest.inlined
/-- The same for bases -/
def Base.inlined : Base → Base
  | .atom t => .atom t
  | .number d more => .number d more
  | .group f => .group f.inlined
  | .frac attr isBinom num den => .frac attr isBinom num.inlined den.inlined
  | .genfrac x num den => .genfrac x num.inlined den.inlined
  | .sqrt a => .sqrt a.inlined
  | .root degree a => .root degree.inlined a.inlined
  | .deco d a => .deco d a.inlined
  | .brace x isOver a => .brace x isOver a.inlined
  | .braceLabel x isOver a label => .braceLabel x isOver a.inlined label.inlined
  | .prescript sup sub a => .prescript sup.inlined sub.inlined a.inlined
  | .leaf x => .leaf x
  | .mathClass kind b => .mathClass kind b.inlined
  | .overlay o b => .overlay o b.inlined
  | .stackTok isOver symbol t => .stackTok isOver symbol.inlined t
  | .stackGroup isOver symbol f => .stackGroup isOver symbol.inlined f.inlined
  | .arrow rel over => .arrow rel over.inlined
  | .arrowUnder rel under over => .arrowUnder rel under.inlined over.inlined
  | .cramped st f => .cramped st f.inlined
  | .fence l r f => .fence l r f.inlined
  | .env e e' o f => .env e e' o f.inlined
/-- The same for arguments -/
def Arg.inlined : Arg → Arg
  | .tok t => .tok t
  | .braces f => .braces f.inlined
/-- The same for scripts -/
def Scripts.inlined : Scripts → Scripts
  | .nil => .nil
  | .sub a s => .sub a.inlined s.inlined
  | .sup a s => .sup a.inlined s.inlined
  | .primes t ts s => .primes t ts s.inlined
  | .primesSup t ts a s => .primesSup t ts a.inlined s.inlined
end

mutual
/-- How many macros are expanded -/
def Form.calls : Form → Nat
  | .nil => 0
  | .item b s rest => b.calls + s.calls + rest.calls
  | .bigOp _ s rest | .func _ _ s rest => s.calls + rest.calls
  | .amp rest | .newLine _ rest | .noNumber rest | .tag _ _ rest | .label _ rest | .style _ rest
  | .color _ rest => rest.calls
  | .call _ _ _ cont => 1 + cont.calls
  | .emptyCall _ _ s rest => 1 + s.calls + rest.calls
/-- The same for bases -/
def Base.calls : Base → Nat
  | .atom _ | .number _ _ | .leaf _ => 0
  | .group f | .fence _ _ f | .env _ _ _ f | .cramped _ f => f.calls
  | .frac _ _ a b | .genfrac _ a b | .braceLabel _ _ a b => a.calls + b.calls
  | .prescript a b c => a.calls + b.calls + c.calls
  | .sqrt a | .deco _ a | .brace _ _ a | .stackTok _ a _ | .arrow _ a => a.calls
  | .mathClass _ b | .overlay _ b => b.calls
  | .root f a | .arrowUnder _ f a => f.calls + a.calls
  | .stackGroup _ a f => a.calls + f.calls
/-- The same for arguments -/
def Arg.calls : Arg → Nat
  | .tok _ => 0
  | .braces f => f.calls
/-- The same for scripts -/
def Scripts.calls : Scripts → Nat
  | .nil => 0
  | .sub a s | .sup a s | .primesSup _ _ a s => a.calls + s.calls
  | .primes _ _ s => s.calls
end

/-- What comes first has the same class in both cases. -/
def SameLead (xs ys : List Tk) : Prop := ∀ nxt, lead xs nxt = lead ys nxt

/-- Does the spacing around the atom depend on what follows? -/
def atomWatches : Token → Bool
  | .relation _ | .forceRelation _ | .punctuation _ | .forcePunctuation _ | .binaryOp _ | .forceBinaryOp _
  | .inner _ | .forceMathInner _ => true
  | _ => false

/-- The same for bases -/
def Base.watches : Base → Bool
  | .atom t => atomWatches t.unwrapMath
  | .leaf (.big _ side _) => decide (side = some .middle)
  | .mathClass _ _ | .arrow _ _ | .arrowUnder _ _ _ => true
  | .overlay _ b => b.watches
  | .stackTok _ _ t => atomWatches t.unwrapMath
  | _ => false

mutual
/-- Where an operator is followed by the call of a macro, the call has the class of what it stands for. -/
def Form.SameClasses : Form → Prop
  | .nil => True
  | .item b s rest =>
    (b.watches = true → SameLead (s.tokens ++ rest.tokens) (s.inlined.tokens ++ rest.inlined.tokens)) ∧
    b.SameClasses ∧ s.SameClasses ∧ rest.SameClasses
  | .bigOp _ s rest => SameLead (s.tokens ++ rest.tokens) (s.inlined.tokens ++ rest.inlined.tokens) ∧
    SameLead rest.tokens rest.inlined.tokens ∧ s.SameClasses ∧ rest.SameClasses
  | .func _ _ s rest => SameLead rest.tokens rest.inlined.tokens ∧ s.SameClasses ∧ rest.SameClasses
  | .amp rest | .newLine _ rest | .noNumber rest | .tag _ _ rest | .label _ rest | .style _ rest
  | .color _ rest => rest.SameClasses
  | .call _ _ _ cont => cont.SameClasses
  | .emptyCall _ _ s rest => s.SameClasses ∧ rest.SameClasses
/-- The same for bases -/
def Base.SameClasses : Base → Prop
  | .atom _ | .number _ _ | .leaf _ => True
  | .group f | .fence _ _ f | .env _ _ _ f | .cramped _ f => f.SameClasses
  | .frac _ _ a b | .genfrac _ a b | .braceLabel _ _ a b => a.SameClasses ∧ b.SameClasses
  | .prescript a b c => a.SameClasses ∧ b.SameClasses ∧ c.SameClasses
  | .sqrt a | .deco _ a | .brace _ _ a | .stackTok _ a _ | .arrow _ a => a.SameClasses
  | .mathClass _ b | .overlay _ b => b.SameClasses
  | .root f a | .arrowUnder _ f a => f.SameClasses ∧ a.SameClasses
  | .stackGroup _ a f => a.SameClasses ∧ f.SameClasses
/-- The same for arguments -/
def Arg.SameClasses : Arg → Prop
  | .tok _ => True
  | .braces f => f.SameClasses
/-- The same for scripts -/
def Scripts.SameClasses : Scripts → Prop
  | .nil => True
  | .sub a s | .sup a s | .primesSup _ _ a s => a.SameClasses ∧ s.SameClasses
  | .primes _ _ s => s.SameClasses
end

end Verif.Spec

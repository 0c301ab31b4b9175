import Verif.Spec.Grammar
import Verif.Model.Builtins
/-!
Formulas which differ only in how their symbols are written: by a command, or as a character.
-/
namespace Verif.Spec
open Model

/-- Two ways of writing the same symbol of a formula. There are letters which are shown in another way inside
`\mathrm` and so on if they are written by a command. -/
def SameSymbol (t t' : Token) : Prop :=
  t.unwrapMath = t'.unwrapMath ∨ ∃ c m m', t.unwrapMath = .letter c m ∧ t'.unwrapMath = .letter c m'

/-- The same for what may be missing -/
inductive SameDelim : Option Token → Option Token → Prop
  | none : SameDelim none none
  | some {t t'} : SameSymbol t t' → SameDelim (some t) (some t')

/-- The same for commands with arguments which are not formulas: delimiters can be written in two ways. -/
inductive Leaf.Alike : Leaf → Leaf → Prop
  | same {x} : Leaf.Alike x x
  | big {size side t t'} : SameSymbol t t' → Leaf.Alike (.big size side t) (.big size side t')
  | middle {t t'} : SameSymbol t t' → Leaf.Alike (.middle t) (.middle t')

mutual
/-- The same formula, perhaps with symbols written in another way -/
inductive Form.Alike : Form → Form → Prop
  | nil : Form.Alike .nil .nil
  | item {b b' s s' rest rest'} : b.Alike b' → s.Alike s' → rest.Alike rest' →
    Form.Alike (.item b s rest) (.item b' s' rest')
  | bigOp {op lim char char' s s' rest rest'} : s.Alike s' → rest.Alike rest' →
    Form.Alike (.bigOp ⟨op, lim, char⟩ s rest) (.bigOp ⟨op, lim, char'⟩ s' rest')
  | func {x limits s s' rest rest'} : s.Alike s' → rest.Alike rest' →
    Form.Alike (.func x limits s rest) (.func x limits s' rest')
  | amp {rest rest'} : rest.Alike rest' → Form.Alike (.amp rest) (.amp rest')
  | newLine {line rest rest'} : rest.Alike rest' → Form.Alike (.newLine line rest) (.newLine line rest')
  | noNumber {rest rest'} : rest.Alike rest' → Form.Alike (.noNumber rest) (.noNumber rest')
  | tag {paren text rest rest'} : rest.Alike rest' → Form.Alike (.tag paren text rest) (.tag paren text rest')
  | label {text rest rest'} : rest.Alike rest' → Form.Alike (.label text rest) (.label text rest')
  | style {st rest rest'} : rest.Alike rest' → Form.Alike (.style st rest) (.style st rest')
  | color {name rest rest'} : rest.Alike rest' → Form.Alike (.color name rest) (.color name rest')
  | call {t args k cont cont'} : cont.Alike cont' → Form.Alike (.call t args k cont) (.call t args k cont')
  | emptyCall {t args s s' rest rest'} : s.Alike s' → rest.Alike rest' →
    Form.Alike (.emptyCall t args s rest) (.emptyCall t args s' rest')
/-- The same for bases -/
inductive Base.Alike : Base → Base → Prop
  | atom {t t'} : SameSymbol t t' → Base.Alike (.atom t) (.atom t')
  | number {d more} : Base.Alike (.number d more) (.number d more)
  | group {f f'} : f.Alike f' → Base.Alike (.group f) (.group f')
  | frac {attr isBinom a a' b b'} : a.Alike a' → b.Alike b' →
    Base.Alike (.frac attr isBinom a b) (.frac attr isBinom a' b')
  | genfrac {l l' r r' line style a a' b b'} : SameDelim l l' → SameDelim r r' → a.Alike a' → b.Alike b' →
    Base.Alike (.genfrac ⟨l, r, line, style⟩ a b) (.genfrac ⟨l', r', line, style⟩ a' b')
  | sqrt {a a'} : a.Alike a' → Base.Alike (.sqrt a) (.sqrt a')
  | root {f f' a a'} : f.Alike f' → a.Alike a' → Base.Alike (.root f a) (.root f' a')
  | deco {d a a'} : a.Alike a' → Base.Alike (.deco d a) (.deco d a')
  | brace {x isOver a a'} : a.Alike a' → Base.Alike (.brace x isOver a) (.brace x isOver a')
  | braceLabel {x isOver a a' b b'} : a.Alike a' → b.Alike b' →
    Base.Alike (.braceLabel x isOver a b) (.braceLabel x isOver a' b')
  | prescript {a a' b b' c c'} : a.Alike a' → b.Alike b' → c.Alike c' →
    Base.Alike (.prescript a b c) (.prescript a' b' c')
  | leaf {x x'} : x.Alike x' → Base.Alike (.leaf x) (.leaf x')
  | mathClass {kind b b'} : b.Alike b' → Base.Alike (.mathClass kind b) (.mathClass kind b')
  | overlay {o b b'} : b.Alike b' → Base.Alike (.overlay o b) (.overlay o b')
  | stackTok {isOver a a' t t'} : a.Alike a' → SameSymbol t t' →
    Base.Alike (.stackTok isOver a t) (.stackTok isOver a' t')
  | stackGroup {isOver a a' f f'} : a.Alike a' → f.Alike f' →
    Base.Alike (.stackGroup isOver a f) (.stackGroup isOver a' f')
  | arrow {rel a a'} : a.Alike a' → Base.Alike (.arrow rel a) (.arrow rel a')
  | arrowUnder {rel f f' a a'} : f.Alike f' → a.Alike a' → Base.Alike (.arrowUnder rel f a) (.arrowUnder rel f' a')
  | cramped {style f f'} : f.Alike f' → Base.Alike (.cramped style f) (.cramped style f')
  | fence {l l' r r' f f'} : l.unwrapMath = l'.unwrapMath → r.unwrapMath = r'.unwrapMath → f.Alike f' →
    Base.Alike (.fence l r f) (.fence l' r' f')
  | env {e e' o f f'} : f.Alike f' → Base.Alike (.env e e' o f) (.env e e' o f')
/-- The same for arguments -/
inductive Arg.Alike : Arg → Arg → Prop
  | tok {t t'} : SameSymbol t t' → Arg.Alike (.tok t) (.tok t')
  | braces {f f'} : f.Alike f' → Arg.Alike (.braces f) (.braces f')
/-- The same for scripts -/
inductive Scripts.Alike : Scripts → Scripts → Prop
  | nil : Scripts.Alike .nil .nil
  | sub {a a' s s'} : a.Alike a' → s.Alike s' → Scripts.Alike (.sub a s) (.sub a' s')
  | sup {a a' s s'} : a.Alike a' → s.Alike s' → Scripts.Alike (.sup a s) (.sup a' s')
  | primes {t t' ts ts' s s'} : t.unwrapMath = t'.unwrapMath → ts.map Token.unwrapMath = ts'.map Token.unwrapMath → s.Alike s' →
    Scripts.Alike (.primes t ts s) (.primes t' ts' s')
  | primesSup {t t' ts ts' a a' s s'} : t.unwrapMath = t'.unwrapMath → ts.map Token.unwrapMath = ts'.map Token.unwrapMath →
    a.Alike a' → s.Alike s' → Scripts.Alike (.primesSup t ts a s) (.primesSup t' ts' a' s')
end

end Verif.Spec

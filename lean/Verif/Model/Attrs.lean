import Verif.Basic
import Verif.Model.Atof
import Verif.Model.SuperChar
import Verif.Model.Transform
/-!
Model of the plain data types of crates/mathml-renderer: attribute.rs, length.rs, symbol.rs and
the data part of table.rs.
-/
namespace Verif.Model

/-- attribute.rs:11-26 `OpAttrs`, a set of flags in 16 bits. -/
abbrev OpAttrs := BitVec 16
namespace OpAttrs
/-- attribute.rs:11-26 -/
def empty : OpAttrs := 0#16
/-- attribute.rs:16 -/
def stretchyFalse : OpAttrs := 1#16
/-- attribute.rs:17 -/
def stretchyTrue : OpAttrs := 2#16
/-- attribute.rs:18 -/
def noMovableLimits : OpAttrs := 4#16
/-- attribute.rs:19 -/
def forceMovableLimits : OpAttrs := 8#16
/-- attribute.rs:20 -/
def formPrefix : OpAttrs := 16#16
/-- attribute.rs:21 -/
def formInfix : OpAttrs := 32#16
/-- attribute.rs:22 -/
def formPostfix : OpAttrs := 64#16
/-- attribute.rs:23 -/
def symmetricTrue : OpAttrs := 128#16
/-- attribute.rs:24 -/
def largeopTrue : OpAttrs := 256#16
/-- `bitflags` `contains`. -/
def contains (a f : OpAttrs) : Bool := a &&& f == f
end OpAttrs

/-- attribute.rs:75-78 -/
inductive LetterAttr | default | forcedUpright
  deriving DecidableEq, Repr

/-- attribute.rs:82-91 -/
inductive Size | scale1 | scale2 | scale3 | scale4
  deriving DecidableEq, Repr

/-- attribute.rs:96-103 -/
inductive FracAttr | displayStyleTrue | displayStyleFalse | cfracStyle
  deriving DecidableEq, Repr

/-- attribute.rs:107-116 -/
inductive Style | display | text | script | scriptScript
  deriving DecidableEq, Repr

/-- attribute.rs:120-126 -/
def Style.shrink : Style → Style
  | .display => .text
  | .text => .script
  | .script | .scriptScript => .scriptScript

/-- attribute.rs:129-134 -/
def Style.scriptify : Style → Style
  | .display | .text => .script
  | .script | .scriptScript => .scriptScript

/-- attribute.rs:139-151 -/
inductive MathSpacing | zero | threeMu | fourMu | fiveMu
  deriving DecidableEq, Repr

/-- attribute.rs:153-164 `Notation`, a set of flags in 8 bits. -/
abbrev Notation := BitVec 8
namespace Notation
/-- attribute.rs:158 -/
def upDiagonal : Notation := 1#8
/-- attribute.rs:159 -/
def downDiagonal : Notation := 2#8
/-- attribute.rs:160 -/
def box : Notation := 4#8
/-- attribute.rs:161 -/
def actuarial : Notation := 8#8
/-- attribute.rs:162 -/
def phasorAngle : Notation := 16#8
/-- `bitflags` `contains`. -/
def contains (a f : Notation) : Bool := a &&& f == f
end Notation

/-- attribute.rs:168-179 -/
inductive HtmlTextStyle
  | bold | italic | boldItalic | emphasis | typewriter | smallCaps | sansSerif | serif
  | strikethrough | underline
  deriving DecidableEq, Repr

/-- attribute.rs:183-206 -/
inductive HtmlTextSize
  | size50 | size60 | size70 | size80 | size90 | size100 | size120 | size140 | size170 | size200
  | size250
  deriving DecidableEq, Repr

/-- attribute.rs:434-441. A colour is three bytes. -/
structure RowAttrs where
  color : Option (UInt8 × UInt8 × UInt8) := none
  style : Option Style := none
  mathShiftCompact : Bool := false
  deriving DecidableEq, Repr

/-- length.rs:33 `LengthValue`, an `f32`. The model uses exact rationals, `none` for NaN:
rounding is not modelled. -/
abbrev LengthValue := Option Rat

/-- length.rs:24-27 -/
structure Length where
  value : LengthValue
  unit : LengthUnit
  deriving DecidableEq, Repr

/-- length.rs:53-58 -/
def Length.none : Length := ⟨Option.none, .rem⟩
/-- length.rs:60-65 -/
def Length.zero : Length := ⟨some 0, .rem⟩
/-- length.rs:71-77 -/
def Length.fromParts (value : LengthValue) (unit : LengthUnit) : Option Length :=
  match value with
  | some _ => some ⟨value, unit⟩
  | Option.none => Option.none
/-- length.rs:79-81; a comparison with NaN is false. -/
def Length.isNegative (l : Length) : Bool :=
  match l.value with
  | some v => decide (v < 0)
  | Option.none => false

/-- specifications.rs:48-62 `length_with_unit`, without rounding. -/
def LatexUnit.lengthWithUnit (u : LatexUnit) (value : Rat) : Length :=
  ⟨some (value * u.factor.1.1 / u.factor.1.2), u.factor.2⟩

/-- The exact value of a parsed number. -/
def Dec.toRat (d : Dec) : Rat :=
  (if d.neg then -1 else 1) * ((d.mantissa : Rat) / (10 ^ d.fracDigits : Nat))

/-- symbol.rs:16 `MathMLOperator`, a wrapper around a `SuperChar`. -/
structure MathMLOperator where
  sc : SuperChar
  deriving DecidableEq, Repr

/-- symbol.rs:24-26 -/
def MathMLOperator.fromChar (c : Char) : MathMLOperator := ⟨SuperChar.fromChar c⟩
/-- symbol.rs:34-36 -/
def MathMLOperator.withOverlay (m : MathMLOperator) (o : OverlayChar) : MathMLOperator :=
  ⟨m.sc.withOverlay o⟩
/-- symbol.rs:44-46 -/
def MathMLOperator.tryAsChar (m : MathMLOperator) : Option Char := m.sc.tryAsChar

/-- symbol.rs:97 `BMPOperator`. The 16-bit storage is modelled by the character itself (the
constructor rejects other characters at compile time). -/
structure BMPOperator where
  char : Char
  deriving DecidableEq, Repr

/-- symbol.rs:106-108 -/
def BMPOperator.asOp (b : BMPOperator) : MathMLOperator := .fromChar b.char

/-- symbol.rs:168-198 -/
inductive OrdCategory | D | E | DE | F | G | FG | FGandForceDefault | I | K | IK | KButUsedToBeB
  deriving DecidableEq, Repr
/-- symbol.rs:206-214 -/
inductive OpCategory | C | H | J
  deriving DecidableEq, Repr
/-- symbol.rs:222-227 -/
inductive BinCategory | B | BD
  deriving DecidableEq, Repr
/-- symbol.rs:235-243 -/
inductive RelCategory | default | A | DandForceDefault
  deriving DecidableEq, Repr

/-- symbol.rs:116-165, the struct generated by `make_character_class!` for a category type. -/
structure CharOf (Cat : Type) where
  char : Char
  cat : Cat
  hasVs1 : Bool := false
  deriving DecidableEq, Repr

/-- symbol.rs:145-152 `as_op` -/
def CharOf.asOp {Cat : Type} (x : CharOf Cat) : MathMLOperator :=
  ⟨if x.hasVs1 then SuperChar.fromCharWithVs x.char 0 else SuperChar.fromChar x.char⟩
/-- symbol.rs:155-157 `as_bmp_op` -/
def CharOf.asBmpOp {Cat : Type} (x : CharOf Cat) : BMPOperator := ⟨x.char⟩

/-- symbol.rs:200-203 -/
abbrev OrdLike := CharOf OrdCategory
/-- symbol.rs:216-219 -/
abbrev Op := CharOf OpCategory
/-- symbol.rs:229-232 -/
abbrev Bin := CharOf BinCategory
/-- symbol.rs:245-248 -/
abbrev Rel := CharOf RelCategory

/-- symbol.rs:253 -/
structure Punct where
  char : Char
  deriving DecidableEq, Repr
/-- symbol.rs:257-259 -/
def Punct.asOp (p : Punct) : MathMLOperator := .fromChar p.char

/-- table.rs:57-61 -/
inductive Alignment | centered | cases | alternating
  deriving DecidableEq, Repr

/-- table.rs:79-84 -/
structure EquationTag where
  text : Str
  parenthesized : Bool
  deriving DecidableEq, Repr

/-- table.rs:71-74 -/
structure RowLabelInfo where
  tag : EquationTag
  linkTarget : Option Str
  deriving DecidableEq, Repr

end Verif.Model

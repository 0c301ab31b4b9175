import Verif.Model.Token
import Verif.Model.Symbols
/-! Generated from crates/math-core/src/predefined.rs: the bodies of predefined commands. -/
namespace Verif.Model.Pre

/-- predefined.rs:9 -/
def DOTS : List Token :=
  [.inner Sym.FULL_STOP,
   .forcePunctuation Sym.FULL_STOP.asOp,
   .inner Sym.FULL_STOP]
/-- predefined.rs:15 -/
def CDOTS : List Token :=
  [.inner Sym.MIDDLE_DOT,
   .forcePunctuation Sym.MIDDLE_DOT.asOp,
   .inner Sym.MIDDLE_DOT]
/-- predefined.rs:21 -/
def IDOTSINT : List Token :=
  [.op Sym.INTEGRAL,
   .customCmd 0 Pre.CDOTS,
   .op Sym.INTEGRAL]
/-- predefined.rs:27 -/
def MATHSTRUT : List Token :=
  [.phantom .v,
   .opening Sym.LEFT_PARENTHESIS]
/-- predefined.rs:29 -/
def SURD : List Token :=
  [.sqrt,
   .phantom .v,
   .letter Sym.VERTICAL_LINE.asOp.sc .math]
/-- predefined.rs:35 -/
def AND : List Token :=
  [.space (LatexUnit.lengthWithUnit .mu 5),
   .forceRelation Sym.AMPERSAND.asOp,
   .space (LatexUnit.lengthWithUnit .mu 5)]
/-- predefined.rs:41 -/
def IFF : List Token :=
  [.space (LatexUnit.lengthWithUnit .mu 5),
   .relation Sym.LONG_LEFT_RIGHT_DOUBLE_ARROW,
   .space (LatexUnit.lengthWithUnit .mu 5)]
/-- predefined.rs:47 -/
def IMPLIEDBY : List Token :=
  [.space (LatexUnit.lengthWithUnit .mu 5),
   .relation Sym.LONG_LEFTWARDS_DOUBLE_ARROW,
   .space (LatexUnit.lengthWithUnit .mu 5)]
/-- predefined.rs:53 -/
def IMPLIES : List Token :=
  [.space (LatexUnit.lengthWithUnit .mu 5),
   .relation Sym.LONG_RIGHTWARDS_DOUBLE_ARROW,
   .space (LatexUnit.lengthWithUnit .mu 5)]
/-- predefined.rs:59 -/
def BMOD : List Token :=
  [.space (LatexUnit.lengthWithUnit .mu 4),
   .transform .normal,
   .internalStringLiteral c!"mod",
   .space (LatexUnit.lengthWithUnit .mu 4)]
/-- predefined.rs:83 -/
def MOD : List Token :=
  [.mathChoiceInternal none (.space (LatexUnit.lengthWithUnit .mu 18)) (.space (LatexUnit.lengthWithUnit .mu 12)) (.space (LatexUnit.lengthWithUnit .mu 12)) (.space (LatexUnit.lengthWithUnit .mu 12)),
   .transform .normal,
   .internalStringLiteral c!"mod",
   .space (LatexUnit.lengthWithUnit .mu 6)]
/-- predefined.rs:90 -/
def POD : List Token :=
  [.mathChoiceInternal none (.space (LatexUnit.lengthWithUnit .mu 18)) (.space (LatexUnit.lengthWithUnit .mu 8)) (.space (LatexUnit.lengthWithUnit .mu 8)) (.space (LatexUnit.lengthWithUnit .mu 8)),
   .opening Sym.LEFT_PARENTHESIS,
   .customCmdArg 0,
   .closing Sym.RIGHT_PARENTHESIS]
/-- predefined.rs:97 -/
def PMOD : List Token :=
  [.mathChoiceInternal none (.space (LatexUnit.lengthWithUnit .mu 18)) (.space (LatexUnit.lengthWithUnit .mu 8)) (.space (LatexUnit.lengthWithUnit .mu 8)) (.space (LatexUnit.lengthWithUnit .mu 8)),
   .opening Sym.LEFT_PARENTHESIS,
   .transform .normal,
   .internalStringLiteral c!"mod",
   .space (LatexUnit.lengthWithUnit .mu 6),
   .customCmdArg 0,
   .closing Sym.RIGHT_PARENTHESIS]
/-- predefined.rs:107 -/
def BRA : List Token :=
  [.opening Sym.MATHEMATICAL_LEFT_ANGLE_BRACKET,
   .customCmdArg 0,
   .closing Sym.VERTICAL_LINE]
/-- predefined.rs:113 -/
def KET : List Token :=
  [.opening Sym.VERTICAL_LINE,
   .customCmdArg 0,
   .closing Sym.MATHEMATICAL_RIGHT_ANGLE_BRACKET]
/-- predefined.rs:119 -/
def BRAKET : List Token :=
  [.opening Sym.MATHEMATICAL_LEFT_ANGLE_BRACKET,
   .customCmdArg 0,
   .closing Sym.MATHEMATICAL_RIGHT_ANGLE_BRACKET]
/-- predefined.rs:125 -/
def BIG_BRA : List Token :=
  [.left,
   .opening Sym.MATHEMATICAL_LEFT_ANGLE_BRACKET,
   .customCmdArg 0,
   .right,
   .closing Sym.VERTICAL_LINE]
/-- predefined.rs:133 -/
def BIG_KET : List Token :=
  [.left,
   .opening Sym.VERTICAL_LINE,
   .customCmdArg 0,
   .right,
   .closing Sym.MATHEMATICAL_RIGHT_ANGLE_BRACKET]
/-- predefined.rs:142 -/
def BIG_BRAKET : List Token :=
  [.left,
   .opening Sym.MATHEMATICAL_LEFT_ANGLE_BRACKET,
   .verticalLineDef (some .opSpacingStretchy),
   .customCmdArg 0,
   .verticalLineDef none,
   .right,
   .closing Sym.MATHEMATICAL_RIGHT_ANGLE_BRACKET]
/-- predefined.rs:153 -/
def SET : List Token :=
  [.opening Sym.LEFT_CURLY_BRACKET,
   .space (LatexUnit.lengthWithUnit .mu 3),
   .verticalLineDef (some .relSpacing),
   .customCmdArg 0,
   .verticalLineDef none,
   .space (LatexUnit.lengthWithUnit .mu 3),
   .closing Sym.RIGHT_CURLY_BRACKET]
/-- predefined.rs:164 -/
def BIG_SET : List Token :=
  [.left,
   .opening Sym.LEFT_CURLY_BRACKET,
   .space (LatexUnit.lengthWithUnit .mu 4),
   .verticalLineDef (some .relSpacingStretchy),
   .customCmdArg 0,
   .verticalLineDef none,
   .space (LatexUnit.lengthWithUnit .mu 4),
   .right,
   .closing Sym.RIGHT_CURLY_BRACKET]
/-- predefined.rs:181 -/
def FBOX : List Token :=
  [.enclose Notation.box,
   .text none,
   .groupBegin,
   .customCmdArg 0,
   .groupEnd]
/-- predefined.rs:193 -/
def TEXTCOLOR : List Token :=
  [.groupBegin,
   .color,
   .groupBegin,
   .customCmdArg 0,
   .groupEnd,
   .customCmdArg 1,
   .groupEnd]
/-- predefined.rs:203 -/
def COLON_EQUALS : List Token :=
  [.forceRelation Sym.RATIO.asOp,
   .relation Sym.EQUALS_SIGN]
/-- predefined.rs:208 -/
def DOUBLE_COLON_EQUAL : List Token :=
  [.forceRelation Sym.RATIO.asOp,
   .forceRelation Sym.RATIO.asOp,
   .relation Sym.EQUALS_SIGN]
/-- predefined.rs:214 -/
def EQUALS_COLON : List Token :=
  [.relation Sym.EQUALS_SIGN,
   .forceRelation Sym.RATIO.asOp]
/-- predefined.rs:219 -/
def DOUBLE_COLON : List Token :=
  [.forceRelation Sym.RATIO.asOp,
   .forceRelation Sym.RATIO.asOp]
/-- predefined.rs:224 -/
def COLON_APPROX : List Token :=
  [.forceRelation Sym.RATIO.asOp,
   .relation Sym.ALMOST_EQUAL_TO]
/-- predefined.rs:229 -/
def DOUBLE_COLON_APPROX : List Token :=
  [.forceRelation Sym.RATIO.asOp,
   .forceRelation Sym.RATIO.asOp,
   .relation Sym.ALMOST_EQUAL_TO]
/-- predefined.rs:235 -/
def COLON_MINUS : List Token :=
  [.forceRelation Sym.RATIO.asOp,
   .forceRelation Sym.MINUS_SIGN.asOp]
/-- predefined.rs:240 -/
def DOUBLE_COLON_MINUS : List Token :=
  [.forceRelation Sym.RATIO.asOp,
   .forceRelation Sym.RATIO.asOp,
   .forceRelation Sym.MINUS_SIGN.asOp]
/-- predefined.rs:246 -/
def COLON_SIM : List Token :=
  [.forceRelation Sym.RATIO.asOp,
   .relation Sym.TILDE_OPERATOR]
/-- predefined.rs:251 -/
def DOUBLE_COLON_SIM : List Token :=
  [.forceRelation Sym.RATIO.asOp,
   .forceRelation Sym.RATIO.asOp,
   .relation Sym.TILDE_OPERATOR]
/-- predefined.rs:257 -/
def EQUALS_DOUBLE_COLON : List Token :=
  [.relation Sym.EQUALS_SIGN,
   .forceRelation Sym.RATIO.asOp,
   .forceRelation Sym.RATIO.asOp]
/-- predefined.rs:263 -/
def MINUS_COLON : List Token :=
  [.forceRelation Sym.MINUS_SIGN.asOp,
   .forceRelation Sym.RATIO.asOp]
/-- predefined.rs:268 -/
def MINUS_DOUBLE_COLON : List Token :=
  [.forceRelation Sym.MINUS_SIGN.asOp,
   .forceRelation Sym.RATIO.asOp,
   .forceRelation Sym.RATIO.asOp]
/-- predefined.rs:274 -/
def SIM_COLON : List Token :=
  [.relation Sym.TILDE_OPERATOR,
   .forceRelation Sym.RATIO.asOp]
/-- predefined.rs:279 -/
def SIM_DOUBLE_COLON : List Token :=
  [.relation Sym.TILDE_OPERATOR,
   .forceRelation Sym.RATIO.asOp,
   .forceRelation Sym.RATIO.asOp]
/-- predefined.rs:285 -/
def ANGLN : List Token :=
  [.enclose Notation.actuarial,
   .letter (SuperChar.fromChar 'n') .math]
/-- predefined.rs:290 -/
def APPROX_COLON : List Token :=
  [.relation Sym.ALMOST_EQUAL_TO,
   .forceRelation Sym.RATIO.asOp]
/-- predefined.rs:295 -/
def APPROX_DOUBLE_COLON : List Token :=
  [.relation Sym.ALMOST_EQUAL_TO,
   .forceRelation Sym.RATIO.asOp,
   .forceRelation Sym.RATIO.asOp]

end Verif.Model.Pre

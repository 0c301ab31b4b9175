import Verif.Model.Attrs
/-!
Model of crates/math-core/src/token.rs, the enums of crates/math-core/src/character_class.rs and
crates/math-core/src/environments.rs, and `CmdSource` of crates/math-core/src/custom_cmds.rs.
-/
namespace Verif.Model

/-- character_class.rs:13-33 -/
inductive Class
  | default | operator | binaryOp | relation | opening | closing | punctuation | inner | ending
  deriving DecidableEq, Repr

/-- character_class.rs:36-40 -/
inductive ParenType | left | right | middle
  deriving DecidableEq, Repr

/-- character_class.rs:44-49 -/
inductive MathVariant | normal | transform (tf : TextTransform)
  deriving DecidableEq, Repr

/-- environments.rs:42-65 -/
inductive Env
  | array | dArray | subarray | align | alignStar | aligned | equation | equationStar
  | gather | gatherStar | gathered | multLine | cases | rCases | dCases | drCases
  | matrix | bMatrix | Bmatrix | pMatrix | vMatrix | Vmatrix
  deriving DecidableEq, Repr

/-- environments.rs:16-39 `ENVIRONMENTS` -/
def environments : List (Str × Env) :=
  [(c!"array", .array), (c!"subarray", .subarray), (c!"align", .align),
   (c!"align*", .alignStar), (c!"aligned", .aligned), (c!"darray", .dArray),
   (c!"equation", .equation), (c!"equation*", .equationStar), (c!"gather", .gather),
   (c!"gather*", .gatherStar), (c!"gathered", .gathered), (c!"multline", .multLine),
   (c!"bmatrix", .bMatrix), (c!"Bmatrix", .Bmatrix), (c!"cases", .cases),
   (c!"rcases", .rCases), (c!"dcases", .dCases), (c!"drcases", .drCases),
   (c!"matrix", .matrix), (c!"pmatrix", .pMatrix), (c!"vmatrix", .vMatrix),
   (c!"Vmatrix", .Vmatrix)]

/-- environments.rs:77-79 -/
def Env.fromStr (s : Str) : Option Env := environments.lookup s

/-- environments.rs:81-86 (the names are pairwise different, so the order of `entries()` does not
matter) -/
def Env.asStr (e : Env) : Str :=
  (environments.findSome? (fun (k, v) => if v = e then some k else none)).getD c!"unknown"

/-- custom_cmds.rs:32-41 -/
inductive CmdSource | config | document | loc
  deriving DecidableEq, Repr

/-- token.rs:295-304 -/
inductive DefineMode | new | provide | renew
  deriving DecidableEq, Repr
/-- token.rs:311-318 -/
inductive VerticalLineDef | relSpacing | relSpacingStretchy | opSpacingStretchy
  deriving DecidableEq, Repr
/-- token.rs:322-339 -/
inductive MathClassKind | ord | op | bin | rel | opening | closing | punct | inner
  deriving DecidableEq, Repr
/-- token.rs:342-347 -/
inductive TextToken
  | accent (c : Char) | letter (c : Char) | style (s : HtmlTextStyle) | size (s : HtmlTextSize)
  deriving DecidableEq, Repr
/-- token.rs:351-358 -/
inductive InfixDelim | paren | brace | brack
  deriving DecidableEq, Repr
/-- token.rs:364-374 -/
inductive ForceStretchy | no | pretend | yes
  deriving DecidableEq, Repr
/-- token.rs:379-384 -/
inductive UnitKind | textUnits | mathUnits
  deriving DecidableEq, Repr
/-- token.rs:388-395 -/
inductive PhantomKind | full | h | v
  deriving DecidableEq, Repr
/-- token.rs:399-406 -/
inductive LimitsKind | always | never | display
  deriving DecidableEq, Repr
/-- token.rs:409-417 -/
inductive PrimeKind
  | single | double | triple | quadruple | reversed | reversedDouble | reversedTriple
  deriving DecidableEq, Repr
/-- token.rs:420-423 -/
inductive PrimeDirection | forward | reversed
  deriving DecidableEq, Repr
/-- token.rs:679-683 -/
inductive Mode | math | mathOrText
  deriving DecidableEq, Repr

/-- token.rs:427-436 -/
def PrimeKind.direction : PrimeKind → PrimeDirection
  | .single | .double | .triple | .quadruple => .forward
  | .reversed | .reversedDouble | .reversedTriple => .reversed

/-- token.rs:438-445 -/
def PrimeKind.count : PrimeKind → Nat
  | .single | .reversed => 1
  | .double | .reversedDouble => 2
  | .triple | .reversedTriple => 3
  | .quadruple => 4

/-- token.rs:22-266 `Token`. Differences: an interned command name (`InternedStr`) is represented
by the name itself, and the four alternatives of a `MathChoice` are fields of the constructor. -/
inductive Token
  | eoi
  | beginEnv (e : Env)
  | endEnv (e : Env)
  | newColumn
  | newLine
  | hline (t : LineType)
  | noNumber
  | tag (parenthesized : Bool)
  | label
  | eqRef
  | left
  | right
  | middle
  | squareBracketOpen
  | squareBracketClose
  | groupBegin
  | groupEnd
  | dollar
  | frac (a : Option FracAttr)
  | infixGenFrac (withLine : Bool) (delim : Option InfixDelim)
  | genfrac
  | underscore
  | circumflex
  | prescript
  | sideset
  | binom (a : Option FracAttr)
  | overset
  | underset
  | overUnderBrace (o : OrdLike) (over : Bool)
  | sqrt
  | limits (k : LimitsKind)
  | space (l : Length)
  | customSpace (k : UnitKind)
  | kernOrSkip (k : UnitKind)
  | nonBreakingSpace
  | whitespace
  | transform (v : MathVariant)
  | transformSwitch (v : MathVariant)
  | big (s : Size) (p : Option ParenType)
  | accent (op : BMPOperator) (over : Bool) (attrs : OpAttrs)
  | ord (o : OrdLike)
  | op (o : Op)
  | binaryOp (b : Bin)
  | relation (r : Rel)
  | opening (o : OrdLike)
  | closing (o : OrdLike)
  | punctuation (p : Punct)
  | inner (o : Op)
  | prime (k : PrimeKind)
  | dots
  | forceOrd (m : MathMLOperator)
  | forceBinaryOp (m : MathMLOperator)
  | forceRelation (m : MathMLOperator)
  | forceOpen (m : MathMLOperator) (s : ForceStretchy)
  | forceClose (m : MathMLOperator) (s : ForceStretchy)
  | forcePunctuation (m : MathMLOperator)
  | forceMathInner (m : MathMLOperator)
  | forceLargeOp (m : MathMLOperator)
  | mathClass (k : MathClassKind)
  | xarrow (r : Rel)
  | letter (s : SuperChar) (m : Mode)
  | uprightLetter (s : SuperChar)
  | digit (c : Char)
  | pseudoOperator (s : Str)
  | pseudoOperatorLimits (s : Str)
  | enclose (n : Notation)
  | operatorName (withLimits : Bool)
  | overlay (o : OverlayChar)
  | text (s : Option HtmlTextStyle)
  | style (s : Style)
  | cramped
  | color
  | phantom (k : PhantomKind)
  | customCmdArg (n : Nat)
  | customCmd (numArgs : Nat) (body : List Token)
  | customCmdArgInput (n : Nat)
  | customCmdRef (src : CmdSource) (numArgs : Nat) (cls : Option Class) (start stop : Nat)
  | newCommand (m : DefineMode)
  | letCmd
  | defCmd (isGlobal : Bool)
  | globalPrefix
  | textMode (t : TextToken)
  | mathOrTextMode (t : Token) (c : Char)
  | verticalLineDef (d : Option VerticalLineDef)
  | unresolvedCommand (name : Str)
  | internalStringLiteral (s : Str)
  | relax
  | raiseBox
  | mathChoice
  | mathChoiceInternal (cls : Option Class) (display text script scriptscript : Token)
  deriving Repr, Inhabited

/-- token.rs:671-677 (and 661-667) `unwrap_math` -/
def Token.unwrapMath : Token → Token
  | .mathOrTextMode t _ => t
  | t => t

mutual
/-- token.rs:549-657 `class`, for a token which has been through `unwrap_math_ref`. The debug
assertions are not modelled here. -/
def Token.classU : Token → Option Class
  | .relation _ | .forceRelation _ | .xarrow _ => some .relation
  | .punctuation _ | .forcePunctuation _ => some .punctuation
  | .opening _ | .left | .squareBracketOpen | .forceOpen _ _ | .beginEnv _ | .groupBegin =>
    some .opening
  | .closing _ | .squareBracketClose | .forceClose _ _ | .right | .middle => some .closing
  | .binaryOp _ | .forceBinaryOp _ => some .binaryOp
  | .op _ | .forceLargeOp _ | .pseudoOperator _ | .pseudoOperatorLimits _ | .operatorName _ =>
    some .operator
  | .endEnv _ | .newLine | .newColumn | .groupEnd | .eoi => some .ending
  | .inner _ | .forceMathInner _ | .dots => some .inner
  | .big _ (some .left) => some .opening
  | .big _ (some .right) => some .closing
  | .big _ (some .middle) => some .relation
  | .mathClass .ord => some .default
  | .mathClass .op => some .operator
  | .mathClass .bin => some .binaryOp
  | .mathClass .opening => some .opening
  | .mathClass .closing => some .closing
  | .mathClass .rel => some .relation
  | .mathClass .punct => some .punctuation
  | .mathClass .inner => some .inner
  | .customCmd _ toks => Token.firstClass toks
  | .mathChoiceInternal cls _ _ _ _ => cls
  | .customCmdRef _ _ cls _ _ => cls
  | .mathChoice | .relax | .whitespace | .space _ | .overlay _ | .transformSwitch _ | .noNumber
  | .tag _ | .customSpace _ | .kernOrSkip _ | .limits _ | .nonBreakingSpace | .label | .eqRef
  | .hline _ | .newCommand _ | .letCmd | .defCmd _ | .globalPrefix | .verticalLineDef _
  | .customCmdArgInput _ => none
  | .customCmdArg _ => none
  | _ => some .default
/-- token.rs:583, `toks.iter().find_map(Token::class)` -/
def Token.firstClass : List Token → Option Class
  | [] => none
  | .mathOrTextMode t _ :: ts => (Token.classU t).or (Token.firstClass ts)
  | t :: ts => (Token.classU t).or (Token.firstClass ts)
end

/-- token.rs:549-657 `class` -/
def Token.cls (t : Token) : Option Class := t.unwrapMath.classU

/-- token.rs:686-721 `Span` -/
structure Span where
  start : Nat
  stop : Nat
  deriving DecidableEq, Repr, Inhabited

/-- token.rs:698-701 -/
def Span.zeroWidth (at' : Nat) : Span := ⟨at', at'⟩
/-- token.rs:715-721 -/
def Span.withLength (s : Span) (n : Nat) : Span := ⟨s.start, s.start + n⟩
/-- `Span::default()` (derived) -/
def Span.default : Span := ⟨0, 0⟩

/-- token.rs:731-733 `TokSpan` -/
structure TokSpan where
  tok : Token
  span : Span
  deriving Repr, Inhabited

/-- token.rs:777-788 `EndToken` -/
inductive EndToken | endEnv | groupClose | right | squareBracketClose | eoi
  deriving DecidableEq, Repr

/-- token.rs:791-800 `EndToken::matches` -/
def EndToken.isMatch : EndToken → Token → Bool
  | .endEnv, .endEnv _ => true
  | .groupClose, .groupEnd => true
  | .right, .right => true
  | .squareBracketClose, .squareBracketClose => true
  | .eoi, .eoi => true
  | _, _ => false

end Verif.Model

import Verif.Model.TextParser
import Verif.Model.Predefined
/-! Model of crates/math-core/src/parser.rs, first part: everything which does not call the parser
recursively. -/
namespace Verif.Model

/-- parser.rs:77-80 `SequenceEnd` -/
inductive SequenceEnd | endToken (e : EndToken) | anyEndToken
  deriving DecidableEq, Repr

/-- parser.rs:82-94 `matches` -/
def SequenceEnd.isMatch : SequenceEnd → Token → Bool
  | .endToken e, t => e.isMatch t
  | .anyEndToken, .eoi | .anyEndToken, .groupEnd | .anyEndToken, .endEnv _ | .anyEndToken, .right =>
    true
  | _, _ => false

/-- parser.rs:96-108 `ParseAs` -/
inductive ParseAs | sequence | continueSequence | arg | argWithSpace
  deriving DecidableEq, Repr

/-- parser.rs:111-115 `in_sequence` -/
def ParseAs.inSequence : ParseAs → Bool
  | .sequence | .continueSequence => true
  | _ => false

/-- parser.rs:124-129 `Parsed` -/
inductive Parsed
  | node (c : Class) (n : Node)
  | expansion

/-- parser.rs:131-139 `BoundStarterKind` -/
inductive BoundStarterKind | underscore | circumflex | prime (k : PrimeKind)
  deriving DecidableEq, Repr

/-- parser.rs:3404-3406 `Bounds` -/
structure Bounds where
  sub : Option Node := none
  sup : Option Node := none

namespace Bounds
/-- parser.rs:3409-3411 -/
def isTrivial (b : Bounds) : Bool := b.sub.isNone && b.sup.isNone
/-- parser.rs:3414-3431 -/
def tryWrapNodeUnderover (b : Bounds) (node : Node) : Option Node :=
  match b.sub, b.sup with
  | none, none => none
  | some under, some over => some (.underOver node under over)
  | some symbol, none => some (.under symbol node)
  | none, some symbol => some (.over symbol node)
/-- parser.rs:3434-3451 -/
def tryWrapNodeSubsup (b : Bounds) (node : Node) : Option Node :=
  match b.sub, b.sup with
  | none, none => none
  | some sub, some sup => some (.subSup node sub sup)
  | some symbol, none => some (.sub node symbol)
  | none, some symbol => some (.sup node symbol)
/-- parser.rs:3454-3461 -/
def toPair (b : Bounds) : Node × Node := (b.sub.getD .emptyRow, b.sup.getD .emptyRow)
/-- The repeated code after `use_underover`, e.g. parser.rs:1080-1090 -/
def wrap (b : Bounds) (useUnderover : Bool) (target : Node) : Node :=
  ((if useUnderover then b.tryWrapNodeUnderover target else b.tryWrapNodeSubsup target)).getD target
end Bounds

/-- parser.rs:3465-3471 `BoundsWithLimits` -/
structure BoundsWithLimits where
  bounds : Bounds := {}
  limitsSpan : Option (LimitsKind × Span) := none

namespace BoundsWithLimits
/-- parser.rs:3477-3489 -/
def ensureNoExplicitLimits (b : BoundsWithLimits) : P Bounds :=
  match b.limitsSpan with
  | some (kind, span) => P.fail span (.cannotBeUsedHere (.ofLimits kind) .afterBigOp)
  | none => return b.bounds
/-- parser.rs:3491-3493 -/
def limits (b : BoundsWithLimits) : Option LimitsKind := b.limitsSpan.map (·.1)
end BoundsWithLimits

/-- `matches!(self.style, Style::Script | Style::ScriptScript)` -/
def Style.isScript : Style → Bool
  | .script | .scriptScript => true
  | _ => false

/-- parser.rs:3213-3243 `relation_spacing` -/
def relationSpacing (style : Style) (prev next : Class) (force : Bool) :
    Option MathSpacing × Option MathSpacing :=
  let dflt := if force then some MathSpacing.fiveMu else none
  (if prev = .relation || prev = .opening || prev = .punctuation || style.isScript then some .zero
   else dflt,
   if next = .relation || next = .punctuation || next = .closing || next = .ending || style.isScript
   then some .zero else dflt)

/-- parser.rs:3245-3269 `bin_op_spacing` -/
def binOpSpacing (style : Style) (inSequence : Bool) (prev next : Class) (force : Bool) :
    Option MathSpacing :=
  if !inSequence then none
  else if prev = .relation || prev = .punctuation || prev = .binaryOp || prev = .operator ||
      prev = .opening || next = .relation || next = .punctuation || next = .closing ||
      next = .ending || style.isScript then some .zero
  else if force then some .fourMu else none

/-- parser.rs:3271-3289 `punctuation_spacing` -/
def punctuationSpacing (style : Style) (next : Class) (force : Bool) :
    Option MathSpacing × Option MathSpacing :=
  (if force then some .zero else none,
   if next = .ending || style.isScript then some .zero
   else if force then some .threeMu else none)

/-- parser.rs:3291-3321 `mathinner_spacing` -/
def mathinnerSpacing (style : Style) (prev next : Class) (force : Bool) :
    Option MathSpacing × Option MathSpacing :=
  let dflt := if force then some MathSpacing.threeMu else none
  (if prev = .relation || prev = .punctuation || prev = .operator || prev = .binaryOp ||
      prev = .opening || style.isScript then some .zero else dflt,
   if next = .relation || next = .binaryOp || next = .closing || next = .ending ||
      (style.isScript && next != .operator) then some .zero else dflt)

/-- parser.rs:2945-2973, the result of `mathop_spacing` once the next class is known -/
def opSpacing (style : Style) (prev next : Class) (explicit : Bool) :
    Option MathSpacing × Option MathSpacing :=
  let dflt := if explicit then some MathSpacing.threeMu else none
  (if prev = .relation || prev = .punctuation || prev = .operator || prev = .inner ||
      prev = .binaryOp || prev = .opening then some .zero else dflt,
   if next = .relation || next = .punctuation || next = .opening || next = .closing ||
      next = .ending || (style.isScript && next = .inner) then some .zero else dflt)

/-- parser.rs:3194-3197: the token `|` as it comes from the lexer -/
def Token.isVerticalLineChar : Token → Bool
  | .mathOrTextMode (.ord o) c => o = Sym.VERTICAL_LINE ∧ c = '|'
  | _ => false

/-- parser.rs:3184-3209 `peek_class_token` -/
def peekClassToken (inSequence : Bool) : P Class := do
  if !inSequence then return .default
  else
    let (idx, cls) ← liftQ TokenQueue.peekClassToken
    let s ← St.get
    match s.verticalLineDef with
    | some vld =>
      match s.q.queue[idx]? with
      | some t =>
        if t.tok.isVerticalLineChar then
          return match vld with
            | .relSpacing => .default
            | .opSpacingStretchy | .relSpacingStretchy => .closing
        else return cls
      | none => return cls
    | none => return cls

/-- parser.rs:2936-2974 `mathop_spacing` -/
def mathopSpacing (parseAs : ParseAs) (prev : Class) (explicit : Bool) :
    P (Option MathSpacing × Option MathSpacing) := do
  let next ← peekClassToken parseAs.inSequence
  let s ← St.get
  return opSpacing s.style prev next explicit

/-- parser.rs:3359-3365 `middle_stretch_attrs` -/
def middleStretchAttrs (op : StretchableOp) : OpAttrs :=
  match op.stretchy with
  | .prePostfix | .never => .stretchyTrue
  | .alwaysAsymmetric => .symmetricTrue
  | .always => .empty

/-- parser.rs:3373-3382: the delimiter a token stands for -/
def Token.delimiter : Token → Option StretchableOp
  | .ord o | .opening o | .closing o => StretchableOp.fromOrd o
  | .relation rel => StretchableOp.fromRel rel
  | .forceOpen o s | .forceClose o s => StretchableOp.fromForceStretchy o s
  | .squareBracketOpen => some openBracket
  | .squareBracketClose => some closeBracket
  | _ => none

/-- parser.rs:3367-3390 `extract_delimiter` -/
def extractDelimiter (t : TokSpan) (location : DelimiterModifier) : P StretchableOp :=
  match t.tok.delimiter with
  | some d => return d
  | none => P.fail t.span (.expectedDelimiter location)

/-- parser.rs:3392-3402 `relation_attrs` -/
def relationAttrs : RelCategory → OpAttrs
  | .A => .stretchyFalse
  | .default => .empty
  | .DandForceDefault => .formInfix

/-! ### Loops over tokens -/

/-- parser.rs:478-499: the digits of a number after the first one -/
def digitsLoop : Nat → Str → P Str
  | 0, _ => St.outOfFuel
  | fuel + 1, acc => do
    let t ← P.peek
    match t.tok with
    | .digit c =>
      let _ ← P.next
      digitsLoop fuel (acc ++ [c])
    | tok =>
      if tok.isFullStop then
        let second ← liftQ TokenQueue.peekSecond
        match second.tok with
        | .digit _ =>
          let _ ← P.next
          digitsLoop fuel (acc ++ ['.'])
        | _ => return acc
      else return acc

/-- parser.rs:2990-3018, the character of a token which is merged with its neighbours -/
def mergedChar (tf : MathVariant) : Token → Option SuperChar
  | .letter c _ =>
    some (match tf with | .transform tf => transform tf c false | .normal => c)
  | .uprightLetter c =>
    some (match tf with | .transform tf => transform tf c true | .normal => c)
  | .digit c =>
    match tf with
    | .transform tf => some (transform tf (SuperChar.fromChar c) false)
    | .normal => none
  | _ => none

/-- parser.rs:2990-3018, the loop -/
def mergeLoop (tf : MathVariant) : Nat → List SuperChar → P (List SuperChar)
  | 0, _ => St.outOfFuel
  | fuel + 1, acc => do
    let t ← P.peek
    match mergedChar tf t.tok with
    | some c =>
      let _ ← P.next
      mergeLoop tf fuel (acc ++ [c])
    | none => return acc

/-- parser.rs:2977-3035 `merge_and_transform_letters` -/
def mergeAndTransformLetters : P (Option (Class × Node)) := do
  let s ← St.get
  match s.transform with
  | none => return none
  | some tf =>
    let fuel ← P.loopFuel
    let chars ← mergeLoop tf fuel []
    match chars with
    | [] => return none
    | [c] =>
      return some (.default, .identifierChar c
        (match tf with | .normal => .forcedUpright | .transform _ => .default))
    | cs => return some (.default, .identifierStr (cs.flatMap SuperChar.text))

/-- parser.rs:3069-3073: the character of a token which is part of a number -/
def kernChar : Token → Option Char
  | .digit c => some c
  | .mathOrTextMode _ c => if c = ',' then some '.' else none
  | tok => if tok.isFullStop then some '.' else none

/-- parser.rs:3061-3079, the loop; the two numbers are the start and the end of the argument. -/
def kernLoop : Nat → Bool → Str → Option Nat → Nat → P (Str × Option Nat × Nat)
  | 0, _, _, _, _ => St.outOfFuel
  | fuel + 1, inNumber, buf, argStart, argEnd => do
    let t ← if inNumber then P.peekAny else P.peek
    match kernChar t.tok with
    | none => return (buf, argStart, argEnd)
    | some c =>
      let t ← P.next
      kernLoop fuel true (buf ++ [c]) (argStart.or (some t.span.start)) t.span.stop

/-- parser.rs:3100-3107: the character of a token which can be part of a unit -/
def unitChar : Token → Option Char
  | .letter c _ =>
    match c.tryAsChar with
    | some c => if isAsciiAlpha c then some c else none
    | none => none
  | _ => none

/-- parser.rs:3049-3059: an optional sign. Returns whether it is a minus sign, the start of the argument
and its end so far. -/
def kernSign (spanEnd : Nat) : P (Bool × Option Nat × Nat) := do
  let t ← P.peek
  match t.tok with
  | .mathOrTextMode _ c =>
    if c = '+' ∨ c = '-' then
      let t ← P.next
      return (c == '-', some t.span.start, t.span.stop)
    else return (false, none, spanEnd)
  | _ => return (false, none, spanEnd)

/-- parser.rs:3081-3152: what follows the number, a unit of exactly two letters -/
def kernUnit (kind : UnitKind) (isNegative : Bool) (spanEnd : Nat) (buf : Str) (argStart : Option Nat)
    (argEnd : Nat) : P Node := do
  if buf.isEmpty then
    P.fail ⟨argStart.getD spanEnd, argEnd⟩ (.expectedLength [])
  else
    let t ← P.peek
    match unitChar t.tok with
    | none => P.fail ⟨t.span.start, t.span.start⟩ (.invalidUnit [])
    | some u1 =>
      let t1 ← P.next
      let t ← P.peekAny
      match unitChar t.tok with
      | none => P.fail ⟨t1.span.start, t.span.start⟩ (.invalidUnit [u1])
      | some u2 =>
        let t2 ← P.next
        let unit := [u1, u2]
        let unitSpan : Span := ⟨t1.span.start, t2.span.stop⟩
        match LatexUnit.ofStr unit with
        | none => P.fail unitSpan (.invalidUnit unit)
        | some u =>
          let mathUnitExpected := kind == .mathUnits
          if u.isMathUnit != mathUnitExpected then
            P.fail unitSpan (.illegalUnit unit mathUnitExpected)
          else match limitedFloatParse buf with
            | none => P.fail ⟨argStart.getD spanEnd, t2.span.stop⟩ (.expectedLength (buf ++ unit))
            | some value =>
              let v := value.toRat
              return .space (u.lengthWithUnit (if isNegative then -v else v))

/-- parser.rs:3045-3152 `parse_kern_or_skip` -/
def parseKernOrSkip (kind : UnitKind) (spanEnd : Nat) : P Node := do
  let (isNegative, argStart, argEnd) ← kernSign spanEnd
  let (buf, argStart, argEnd) ← kernLoop (← P.loopFuel) false [] argStart argEnd
  kernUnit kind isNegative spanEnd buf argStart argEnd

/-! ### Definitions of commands -/

/-- parser.rs:2374-2416: the name to define (`none`: throw the definition away) and whether an
existing definition is replaced -/
def definitionTarget (mode : DefineMode) (t : QueuedTok) : Except LatexError (Option (Str × Bool)) :=
  match t.tok with
  | .unresolvedCommand name =>
    if mode = .renew then .error (t.span.err .commandNotDefined) else .ok (some (name, false))
  | _ =>
    match t.name with
    | none => .error (t.span.err .expectedCommandName)
    | some name =>
      match mode with
      | .new => .error (t.span.err .commandAlreadyDefined)
      | .provide => .ok none
      | .renew => .ok (some (name, true))

/-- parser.rs:2427-2450: the number of arguments in square brackets -/
def parseNumArgs : P Nat := do
  let t ← P.peek
  if t.tok.isSquareOpen then
    let _ ← P.next
    let t ← P.next
    match t.tok with
    | .digit c =>
      let t ← P.next
      if t.tok.isSquareClose then return if isAsciiDigit c then c.toNat - '0'.toNat else 0
      else P.fail t.span .invalidParameterNumber
    | _ => P.fail t.span .invalidParameterNumber
  else return 0

/-- parser.rs:2452-2470: the body of a definition -/
def parseDefinitionBody : P (List QueuedTok) := do
  let t ← P.peek
  if t.tok.isGroupBegin then
    let toks ← liftQ TokenQueue.recordMacroBody
    let _ ← P.next
    return toks
  else
    let t ← liftQ TokenQueue.nextKeepingName
    if t.tok.isEoi then P.fail t.span .expectedArgumentGotEOI else return [t]

/-- parser.rs:2366-2372: an opening brace around the name; returns whether there is one. -/
def nameBrace : P Bool := do
  let t ← P.peek
  if t.tok.isGroupBegin then
    let _ ← P.next
    return true
  else return false

/-- parser.rs:2418-2425: the closing brace after the name -/
def nameBraceEnd (braced : Bool) : P Unit := do
  if braced then
    let t ← P.next
    if t.tok.isGroupEnd then return () else P.fail t.span .expectedExactlyOneToken
  else return ()

/-- parser.rs:2365-2492 `define_command` -/
def defineCommand (mode : DefineMode) : P Unit := do
  let braced ← nameBrace
  let nameTok ← liftQ TokenQueue.nextAllowingUnresolved
  let target ← St.ofExcept (definitionTarget mode nameTok)
  nameBraceEnd braced
  let numArgs ← parseNumArgs
  let toks ← parseDefinitionBody
  let (body, cls) ← St.ofExcept (TokenQueue.mapRecordedTokens toks numArgs)
  match target with
  | none => return ()
  | some (name, replace) =>
    let ok ← liftQ (TokenQueue.define name numArgs body cls replace false)
    if ok then return () else P.fail nameTok.span .internal

/-- parser.rs:2512-2514: skip whitespace. -/
def skipWs : Nat → P Unit
  | 0 => St.outOfFuel
  | fuel + 1 => do
    let t ← P.peekAny
    if t.tok.isWs then
      let _ ← P.nextAny
      skipWs fuel
    else return ()

/-- parser.rs:2516-2551: the parameter text -/
def paramLoop : Nat → Nat → P Nat
  | 0, _ => St.outOfFuel
  | fuel + 1, numArgs => do
    let t ← P.peekAny
    match t.tok with
    | .groupBegin => return numArgs
    | .customCmdArgInput n =>
      if n ≠ numArgs then P.fail t.span (.unexpectedParameterNumber (numArgs + 1) (n + 1))
      else
        let _ ← P.nextAny
        paramLoop fuel (numArgs + 1)
    | .eoi => P.fail t.span .expectedArgumentGotEOI
    | _ => P.fail t.span .delimitedParameters

/-- parser.rs:2507-2564 `def_command` -/
def defCommand (isGlobal : Bool) : P Unit := do
  let name ← liftQ TokenQueue.readDefinitionName
  skipWs (← P.loopFuel)
  let numArgs ← paramLoop (← P.loopFuel) 0
  let toks ← liftQ TokenQueue.recordMacroBody
  let _ ← P.next
  let (body, cls) ← St.ofExcept (TokenQueue.mapRecordedTokens toks numArgs)
  let _ ← liftQ (TokenQueue.define name numArgs body cls true isGlobal)

/-- parser.rs:2614-2615: is this token an equals sign? -/
def Token.isEquals (t : Token) : Bool :=
  match t.unwrapMath with
  | .relation r => r = Sym.EQUALS_SIGN
  | _ => false

/-- parser.rs:2612-2618: an optional equals sign -/
def skipEquals : P Unit := do
  let t ← P.peek
  if t.tok.isEquals then
    let _ ← P.next
    return ()
  else return ()

/-- parser.rs:2607-2646 `let_command` -/
def letCommand (isGlobal : Bool) : P Unit := do
  let name ← liftQ TokenQueue.readDefinitionName
  skipEquals
  let src ← P.next
  match src.tok with
  | .eoi => P.fail src.span .expectedArgumentGotEOI
  | .unresolvedCommand name => P.fail src.span (.unknownCommand name)
  | tok =>
    let _ ← liftQ (TokenQueue.define name 0 [.token tok] tok.cls true isGlobal)

/-- parser.rs:2571-2597 `global_prefix` -/
def globalPrefix : Nat → P Unit
  | 0 => St.outOfFuel
  | fuel + 1 => do
    let t ← P.next
    match t.tok with
    | .letCmd => letCommand true
    | .defCmd _ => defCommand true
    | .globalPrefix => globalPrefix fuel
    | .eoi => P.fail t.span .expectedArgumentGotEOI
    | _ => P.fail t.span (.cannotBeUsedHere .globalPrefix .beforeDefinition)

/-! ### Expansion of commands -/

/-- parser.rs:2653-2662 `count_expansion` -/
def countExpansion (span : Span) : P Unit := do
  let s ← St.get
  match s.expansionsLeft with
  | 0 => P.fail span .tooManyExpansions
  | left + 1 => St.modify fun s => { s with expansionsLeft := left }

/-- parser.rs:2675-2686: the tokens of an argument which starts with the given token -/
def collectCmdArg (t : QueuedTok) : P Unit := do
  match t.tok with
  | .groupBegin =>
    let (toks, _) ← liftQ (TokenQueue.recordGroup true)
    St.modify fun s => { s with cmdArgs := ⟨s.cmdArgs.tokens ++ toks, s.cmdArgs.offsets⟩ }
  | .eoi => P.fail t.span .expectedArgumentGotEOI
  | _ => St.modify fun s => { s with cmdArgs := s.cmdArgs.push t }

/-- parser.rs:2674-2689: read one argument. -/
def readCmdArg (argNum : Nat) : P Unit := do
  let t ← liftQ TokenQueue.nextKeepingName
  collectCmdArg t
  St.modify fun s => { s with cmdArgs := s.cmdArgs.finishArg argNum }

/-- parser.rs:2671-2690: read the arguments from `argNum` on; `todo` is how many are missing. -/
def readCmdArgsFrom : Nat → Nat → P Unit
  | 0, _ => return ()
  | todo + 1, argNum => do
    readCmdArg argNum
    readCmdArgsFrom todo (argNum + 1)

/-- parser.rs:2669-2692 `read_cmd_args` -/
def readCmdArgs (numArgs : Nat) : P Unit := do
  St.modify fun s => { s with cmdArgs := s.cmdArgs.clear }
  readCmdArgsFrom numArgs 0

/-- parser.rs:2272-2278 -/
def expandCustomCmd (numArgs : Nat) (body : List Token) (span : Span) : P Parsed := do
  countExpansion span
  readCmdArgs numArgs
  St.modify fun s => { s with q := s.q.queueBodySubstituting body s.cmdArgs span }
  return .expansion

/-- parser.rs:2279-2292 -/
def expandCustomCmdRef (source : CmdSource) (numArgs start stop : Nat) (span : Span) : P Parsed := do
  countExpansion span
  readCmdArgs numArgs
  let cfg ← St.config
  let s ← St.get
  match s.q.queueStoredBodySubstituting cfg source start stop s.cmdArgs span with
  | some q =>
    St.modify fun s => { s with q }
    return .expansion
  | none => P.fail span .internal

/-! ### Colours -/

/-- `str::trim`, for ASCII text (string literals contain nothing else) -/
def trimAscii (s : Str) : Str :=
  trimAsciiEnd (s.dropWhile isAsciiWs)

/-- split_on_ascii.rs:1-7 -/
def splitOn (sep : Char) : Str → List Str
  | [] => [[]]
  | c :: cs =>
    if c = sep then [] :: splitOn sep cs
    else match splitOn sep cs with
      | [] => [[c]]
      | part :: parts => (c :: part) :: parts

/-- The conversion `as u8` of a floating-point number: rounded towards zero, and limited to the range
of a byte. The model uses the exact number, not the nearest `f32`. -/
def ratToU8 (r : Rat) : UInt8 := UInt8.ofNat (min 255 r.floor.toNat)

/-- parser.rs:1867-1889 and 1897-1919: three numbers -/
def threeNumbers (s : Str) : Option (Rat × Rat × Rat) :=
  match splitOn ',' s with
  | r :: g :: b :: _ =>
    match limitedFloatParse (trimAscii r), limitedFloatParse (trimAscii g),
        limitedFloatParse (trimAscii b) with
    | some r, some g, some b => some (r.toRat, g.toRat, b.toRat)
    | _, _, _ => none
  | _ => none

/-- parser.rs:1923-1930 `hex` -/
def hexValue (c : Char) : UInt8 :=
  if '0' ≤ c ∧ c ≤ '9' then UInt8.ofNat (c.toNat - '0'.toNat)
  else if 'a' ≤ c ∧ c ≤ 'f' then UInt8.ofNat (c.toNat - 'a'.toNat + 10)
  else if 'A' ≤ c ∧ c ≤ 'F' then UInt8.ofNat (c.toNat - 'A'.toNat + 10)
  else 0

/-- parser.rs:1865-1953: a colour given by a model and numbers; `none` for an unknown colour model,
`some none` for a wrong description -/
def colorOfModel (typeName s : Str) : Option (Option Rgb) :=
  if typeName = c!"rgb" then
    some ((threeNumbers s).map fun (r, g, b) =>
      (ratToU8 (r * 255 + 1/2), ratToU8 (g * 255 + 1/2), ratToU8 (b * 255 + 1/2)))
  else if typeName = c!"RGB" then
    some ((threeNumbers s).map fun (r, g, b) => (ratToU8 r, ratToU8 g, ratToU8 b))
  else if typeName = c!"HTML" then
    some (match s with
      | [r1, r2, g1, g2, b1, b2] =>
        some (hexValue r1 * 16 + hexValue r2, hexValue g1 * 16 + hexValue g2,
          hexValue b1 * 16 + hexValue b2)
      | _ => none)
  else none

/-- parser.rs:1841-1857: the name of the colour model, up to the closing bracket; the flag says
whether it was read without an error. -/
def colorTypeLoop : Nat → Str → P (Bool × Str)
  | 0, _ => St.outOfFuel
  | fuel + 1, acc => do
    match ← St.attempt P.next with
    | .error _ => return (false, acc)
    | .ok t =>
      match t.tok with
      | .letter c _ => colorTypeLoop fuel (acc ++ c.text)
      | .squareBracketClose => return (true, acc)
      | _ => return (false, acc)

/-- parser.rs:1837-1963: the arguments of `\color` -/
def parseColor (span : Span) : P Rgb := do
  let t ← P.peek
  if t.tok.isSquareOpen then
    let _ ← P.next
    let (ok, typeName) ← colorTypeLoop (← P.loopFuel) []
    if !ok then P.fail span (.unknownColor typeName)
    else match ← St.attempt parseStringLiteral with
      | .error _ => P.fail span .expectedArgumentGotEOI
      | .ok (s, span) =>
        match colorOfModel typeName s with
        | some (some c) => return c
        | some none => P.fail span (.unknownColor s)
        | none => P.fail span (.unknownColor typeName)
  else
    let (name, span) ← parseStringLiteral
    match getColor name with
    | some c => return c
    | none => P.fail span (.unknownColor name)

/-! ### Primes -/

/-- parser.rs:2833-2840: take one more prime into account; the list has the last one first. -/
def addPrime (primes : List (PrimeDirection × Nat)) (k : PrimeKind) : List (PrimeDirection × Nat) :=
  match primes with
  | (d, n) :: rest =>
    if d = k.direction then (d, n + k.count) :: rest else (k.direction, k.count) :: (d, n) :: rest
  | [] => [(k.direction, k.count)]

/-- parser.rs:2827-2846, the loop; returns the primes and whether `^` follows. -/
def primesLoop : Nat → List (PrimeDirection × Nat) → P (List (PrimeDirection × Nat) × Bool)
  | 0, _ => St.outOfFuel
  | fuel + 1, primes => do
    let t ← P.peekAny
    match t.tok.unwrapMath with
    | .prime k =>
      let _ ← P.nextAny
      primesLoop fuel (addPrime primes k)
    | .circumflex => return (primes, true)
    | _ => return (primes, false)

/-- parser.rs:2849-2861 -/
def PrimeDirection.ops : PrimeDirection → List OrdLike
  | .forward => [Sym.PRIME, Sym.DOUBLE_PRIME, Sym.TRIPLE_PRIME, Sym.QUADRUPLE_PRIME]
  | .reversed => [Sym.REVERSED_PRIME, Sym.REVERSED_DOUBLE_PRIME, Sym.REVERSED_TRIPLE_PRIME]

/-- An operator without attributes -/
def Node.plainOp (op : MathMLOperator) : Node := .operator op OpAttrs.empty none none none

/-- parser.rs:2881 -/
def primeSpace : Node := .space ⟨some (-833/10000), .em⟩

/-- parser.rs:2863-2890: the nodes for a number of primes -/
def primeNodes (dir : PrimeDirection) (count : Nat) : List Node :=
  let first := match dir with
    | .forward => Sym.PRIME
    | .reversed => Sym.REVERSED_PRIME
  match dir.ops[count - 1]? with
  | some op => [.plainOp op.asOp]
  | none =>
    .plainOp first.asOp ::
      (List.replicate (count - 1) [primeSpace, .plainOp first.asOp]).flatten

/-! ### Tokens without output, rows and numbers -/

/-- parser.rs:208: the numerator, whether there is a line, and the delimiters -/
abbrev InfixFrac := Option (List Node × Bool × Option InfixDelim)

/-- parser.rs:368-387 -/
def setTag (span : Span) (parenthesized : Bool) : P Unit := do
  let (text, _) ← parseStringLiteral
  let s ← St.get
  match s.env.numbered with
  | some n =>
    St.modify fun s =>
      { s with env := { s.env with numbered := some { n with customNextTag := some ⟨text, parenthesized⟩ } } }
  | none =>
    P.fail span (.cannotBeUsedHere (if parenthesized then .tag else .tagStar) .numberedEnv)

/-- parser.rs:390-406 -/
def setLabel (span : Span) : P Unit := do
  let (name, _) ← parseStringLiteral
  let s ← St.get
  match s.env.numbered with
  | some n =>
    if n.label.isSome then P.fail span .moreThanOneLabel
    else St.modify fun s =>
      { s with env := { s.env with numbered := some { n with label := some name } } }
  | none => P.fail span (.cannotBeUsedHere .label .numberedEnv)

/-- parser.rs:305-416 `handle_tokens_without_output`; `none` means that the token has to be processed,
otherwise the result is the new value of `collected_nodes` and `infix_frac`. -/
def handleTokensWithoutOutput (t : TokSpan) (seqEnd : SequenceEnd) (nodes : List Node)
    (infixFrac : InfixFrac) : P (Option (List Node × InfixFrac)) := do
  match t.tok with
  | .eoi =>
    match seqEnd with
    | .endToken e => P.fail t.span (.unclosedGroup e)
    | .anyEndToken => return none
  | .infixGenFrac withLine delim =>
    match infixFrac with
    | none =>
      St.modify fun s => { s with style := s.style.shrink }
      return some ([], some (nodes, withLine, delim))
    | some _ => P.fail t.span .moreThanOneInfixCmd
  | .relax => return some (nodes, infixFrac)
  | .transformSwitch tf =>
    St.modify fun s => { s with transform := some tf }
    return some (nodes, infixFrac)
  | .newCommand mode =>
    defineCommand mode
    return some (nodes, infixFrac)
  | .letCmd =>
    letCommand false
    return some (nodes, infixFrac)
  | .defCmd isGlobal =>
    defCommand isGlobal
    return some (nodes, infixFrac)
  | .globalPrefix =>
    globalPrefix (← P.loopFuel)
    return some (nodes, infixFrac)
  | .verticalLineDef d =>
    St.modify fun s => { s with verticalLineDef := d }
    return some (nodes, infixFrac)
  | .noNumber =>
    St.modify fun s =>
      { s with env := { s.env with numbered := s.env.numbered.map fun n =>
          { n with suppressNextNumber := true } } }
    return some (nodes, infixFrac)
  | .tag parenthesized =>
    setTag t.span parenthesized
    return some (nodes, infixFrac)
  | .label =>
    setLabel t.span
    return some (nodes, infixFrac)
  | _ => return none

/-- parser.rs:1516-1546 and 1752-1780: number a row. Returns the information for the row and the new
state of the environment; the number and the label are recorded in the global state. -/
def numberRow (n : NumberedEnvState) (isLast : Bool) (span : Span) :
    P (Option RowLabelInfo × NumberedEnvState) := do
  let s ← St.get
  match n.nextEquationTag s.q.equationCount isLast with
  | (none, _, _) => P.fail span .hardLimitExceeded
  | (some tag, n, count) =>
    let labelMap := match tag, n.label with
      | some tag, some label => s.q.labelMap.insert label tag.text
      | _, _ => s.q.labelMap
    St.modify fun s => { s with q := { s.q with equationCount := count, labelMap } }
    return (tag.map fun tag => ⟨tag, n.label⟩, { n with label := none })

/-- parser.rs:1727-1737 and 1468-1473: a line directly at the start of a row -/
def parseHline (allowed : Bool) : P (Option LineType) := do
  if allowed then
    let t ← P.peek
    match t.tok with
    | .hline l =>
      let _ ← P.next
      return some l
    | _ => return none
  else return none

/-- parser.rs:1717-1787, `\\` -/
def parseNewLine (span : Span) : P Parsed := do
  let s ← St.get
  if !s.env.meaningfulNewlines then return .node .opening .emptyRow
  else
    let borderTop ← parseHline s.env.allowHlines
    match s.env.numbered with
    | none => return .node .opening (.rowSeparator none borderTop)
    | some n =>
      if n.numRows = some 65535 then P.fail span .hardLimitExceeded
      else
        let (info, n) ← numberRow { n with numRows := n.numRows.map (· + 1) } false span
        St.modify fun s => { s with env := { s.env with numbered := some n } }
        return .node .opening (.rowSeparator info borderTop)

/-- parser.rs:830-853 -/
def parseCustomSpace (kind : UnitKind) : P Node := do
  let (s, span) ← parseStringLiteral
  match parseLengthSpecification (trimAscii s) with
  | some (value, u, unit, isMath) =>
    let mathUnitExpected := kind == .mathUnits
    if isMath == mathUnitExpected then return .space (specLength value u)
    else P.fail span (.illegalUnit unit mathUnitExpected)
  | none => P.fail span (.expectedLength s)

/-- parser.rs:1604-1633 and 1658-1687: the nodes for pieces of text -/
def textNodes (snippets : List TextSnippet) : List Node :=
  snippets.map fun sn =>
    let node := Node.text sn.style sn.size sn.text
    match sn.voffset with
    | some v => if v = LengthSet.zero then node else .padded node false false none none (some v)
    | none => node

/-- parser.rs:923-933 `get_delimiter` -/
def genfracDelimiter : P (Option StretchableOp) := do
  let arg ← liftQ (TokenQueue.readArgument false)
  match ← St.ofExcept arg.intoOneOrNone with
  | some t => return some (← extractDelimiter t .genfrac)
  | none => return none

/-- parser.rs:952-974 -/
def genfracStyle : P (Option Style) := do
  let arg ← liftQ (TokenQueue.readArgument false)
  match ← St.ofExcept arg.intoOneOrNone with
  | none => return none
  | some t =>
    match t.tok with
    | .digit c =>
      if c = '0' then return some .display
      else if c = '1' then return some .text
      else if c = '2' then return some .script
      else if c = '3' then return some .scriptScript
      else P.fail t.span .expectedArgumentGotEOI
    | _ => P.fail t.span .expectedArgumentGotEOI

/-- parser.rs:936-949 -/
def genfracLength : P Length := do
  let (s, span) ← parseStringLiteral
  let s := trimAscii s
  if s.isEmpty then return Length.none
  else match parseLengthSpecification s with
    | some (value, u, _, _) => return specLength value u
    | none => P.fail span (.expectedLength s)

/-- parser.rs:1143-1162 `after_first_char_and_vs`: the text up to there and the rest. (The code works
with byte offsets; a variation selector has three bytes.) -/
def afterFirstCharAndVs : Str → Str × Str
  | [] => ([], [])
  | [c] => ([c], [])
  | c :: d :: rest =>
    if 0xFE00 ≤ d.toNat ∧ d.toNat < 0xFE0F then ([c, d], rest) else ([c], d :: rest)

/-- parser.rs:1190-1195 and 1205-1210 -/
def overlayText (o : OverlayChar) (s : Str) : Str :=
  (afterFirstCharAndVs s).1 ++ o.toChar :: (afterFirstCharAndVs s).2

/-- parser.rs:1164-1215 -/
def overlayNode (o : OverlayChar) : Node → Option Node
  | .operator op attrs size left right => some (.operator (op.withOverlay o) attrs size left right)
  | .identifierChar c attr => some (.identifierChar (c.withOverlay o) attr)
  | .pseudoOp attrs left right name => some (.pseudoOp attrs left right (overlayText o name))
  | .identifierStr s => some (.identifierStr (overlayText o s))
  | _ => none

/-- parser.rs:759-797: give a node the spacing of a math class -/
def mathClassNode (node : Node) (left right : Option MathSpacing) : Node :=
  match node with
  | .operator op attrs size _ _ => .operator op (attrs ||| OpAttrs.stretchyFalse) size left right
  | .row [] { color := none, style := none, mathShiftCompact := false } =>
    .operator Sym.INVISIBLE_SEPARATOR.asOp OpAttrs.empty none left right
  | _ => .padded node false false left right none

/-- parser.rs:607-662, an ordinary symbol -/
def ordNode (vld : Option VerticalLineDef) (o : OrdLike) : Node :=
  let dflt : Node :=
    let attrs := if o.cat = .F ∨ o.cat = .G ∨ o.cat = .FG ∨ o.cat = .FGandForceDefault then
      OpAttrs.stretchyFalse else OpAttrs.empty
    let spacing := if o.cat = .KButUsedToBeB ∨ o.cat = .FGandForceDefault then some MathSpacing.zero
      else none
    .operator o.asOp attrs none spacing spacing
  match vld with
  | some vld =>
    if o = Sym.VERTICAL_LINE then
      let (stretchy, spacing) : Bool × Option MathSpacing := match vld with
        | .opSpacingStretchy => (true, some .threeMu)
        | .relSpacingStretchy => (true, none)
        | .relSpacing => (false, none)
      .operator o.asOp (if stretchy then OpAttrs.formInfix ||| OpAttrs.stretchyTrue else OpAttrs.formInfix)
        none spacing spacing
    else dflt
  | none => dflt

/-- parser.rs:1286-1324, a delimiter which does not stretch -/
def parenNode (isOpen : Bool) (o : OrdLike) : Node :=
  let attrs := if o.cat = .FG ∨ o.cat = .FGandForceDefault ∨ o.cat = .DE then
    (if isOpen then OpAttrs.formPrefix else OpAttrs.formPostfix) else OpAttrs.empty
  let attrs := if o.cat = .F ∨ o.cat = .G ∨ o.cat = .FG ∨ o.cat = .FGandForceDefault then
    attrs ||| OpAttrs.stretchyFalse else attrs
  .operator o.asOp attrs none none none

/-- parser.rs:503-529, a letter -/
def letterNode (tf : Option MathVariant) (c : SuperChar) (isUpright : Bool) : Node :=
  match tf with
  | some (.transform tf) => .identifierChar (transform tf c isUpright) .default
  | some .normal => .identifierChar c .forcedUpright
  | none => .identifierChar c (if isUpright then .forcedUpright else .default)

/-- parser.rs:1390-1396 -/
def bigAttrs (s : Stretchy) : OpAttrs :=
  match s with
  | .prePostfix | .never => OpAttrs.stretchyTrue ||| OpAttrs.symmetricTrue
  | .alwaysAsymmetric => .symmetricTrue
  | .always => .empty

/-- parser.rs:1379-1446, `\big` and its relatives -/
def parseBig (size : Size) (parenType : Option ParenType) (parseAs : ParseAs) (prev : Class) :
    P Parsed := do
  let t ← P.next
  let paren ← extractDelimiter t .big
  let attrs := bigAttrs paren.stretchy
  match parenType with
  | some .middle =>
    let next ← peekClassToken parseAs.inSequence
    let s ← St.get
    let attrs := if paren.spacing = .infixRelation then attrs ||| OpAttrs.formInfix else attrs
    let (left, right) := relationSpacing s.style prev next
      (!(paren.spacing = .infixRelation || paren.spacing = .relation))
    return .node .relation (.operator paren.op attrs (some size) left right)
  | some side =>
    let cls : Class := if side = .left then .opening else .closing
    if paren.spacing = .infixRelation then
      let form := if side = .left then OpAttrs.formPrefix else OpAttrs.formPostfix
      return .node cls (.operator paren.op (attrs ||| form) (some size) none none)
    else
      let spacing := if paren.spacing = .zero then none else some MathSpacing.zero
      return .node cls (.operator paren.op attrs (some size) spacing spacing)
  | none =>
    let spacing := if paren.spacing = .zero then none else some MathSpacing.zero
    return .node .default (.operator paren.op attrs (some size) spacing spacing)

/-- parser.rs:1362-1378, `\middle` -/
def parseMiddle : P Parsed := do
  let t ← P.next
  let op ← extractDelimiter t .middle
  let spacing := if op.spacing = .zero then none else some MathSpacing.zero
  return .node .opening (.operator op.op (middleStretchAttrs op) none spacing spacing)

/-- parser.rs:1343-1348 and 1354-1359: the delimiter after `\left` or `\right` -/
def parseFenceDelimiter (location : DelimiterModifier) : P (Option StretchableOp) := do
  let t ← P.next
  if t.tok.isFullStop then return none
  else return some (← extractDelimiter t location)

/-- parser.rs:1448-1463: the column specification of an array -/
def parseArraySpec (env : Env) : P (Option ArraySpec) := do
  if env = .array ∨ env = .dArray ∨ env = .subarray then
    let (options, span) ← parseStringLiteral
    match parseColumnSpecification options with
    | some spec => return some ⟨spec.borderLeft, none, env = .subarray, spec.columns⟩
    | none => P.fail span (.expectedColSpec options)
  else return none

/-- parser.rs:465-502, a digit -/
def parseDigit (c : Char) (parseAs : ParseAs) : P Node := do
  let s ← St.get
  match s.transform with
  | some (.transform tf) => return .identifierChar (transform tf (SuperChar.fromChar c) false) .default
  | _ =>
    if parseAs = .sequence then
      return .number (← digitsLoop (← P.loopFuel) [c])
    else return .number [c]

/-- parser.rs:1060-1070 -/
def opLimits (b : BoundsWithLimits) (movable : Bool) : Bool × OpAttrs :=
  if b.bounds.isTrivial then (false, .empty)
  else match b.limits, movable with
    | none, movable => (movable, .empty)
    | some .display, true => (true, .empty)
    | some .display, false => (true, .forceMovableLimits)
    | some .always, false => (true, .empty)
    | some .always, true => (true, .noMovableLimits)
    | some .never, _ => (false, .empty)

/-- parser.rs:1098-1105 and 1571-1578 -/
def pseudoOpLimits (b : BoundsWithLimits) (limitsByDefault : Bool) : Bool × OpAttrs :=
  if b.bounds.isTrivial then (false, .empty)
  else match b.limits, limitsByDefault with
    | none, true | some .display, _ => (true, .forceMovableLimits)
    | none, false | some .never, _ => (false, .empty)
    | some .always, _ => (true, .empty)

/-- parser.rs:570-586 -/
def largeOpLimits (b : BoundsWithLimits) : Bool × OpAttrs :=
  let sl := OpAttrs.symmetricTrue ||| OpAttrs.largeopTrue
  if b.bounds.isTrivial then (true, sl)
  else match b.limits with
    | none | some .display => (true, sl ||| OpAttrs.forceMovableLimits)
    | some .always => (true, sl)
    | some .never => (false, sl)

end Verif.Model

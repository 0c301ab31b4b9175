import Verif.Model.ParserBase
/-! Model of crates/math-core/src/parser.rs, second part: the recursive functions.

The functions of the parser call each other without a bound on the depth which could be read off the
program text. Every function below is therefore defined relative to a record `Rec` of the functions it
calls, and `parser` ties the knot with a fuel parameter; running out of fuel is the separate outcome
`Res.fuel`, and no theorem treats it as a result. -/
namespace Verif.Model

/-- The functions which are called recursively -/
structure Rec where
  /-- The loop of `parse_sequence` -/
  seqLoop : SequenceEnd → Class → List Node → InfixFrac → P (List Node × InfixFrac)
  /-- `parse_token`; the token has already been read. (The code passes a `Result`, and returns at once
  if it is an error.) -/
  parseToken : TokSpan → ParseAs → Class → P (Class × Node)
  /-- The loop of `get_bounds` -/
  getBounds : Option (Token × Span) → BoundsWithLimits → P BoundsWithLimits

namespace Rec
variable (r : Rec)

/-- parser.rs:263-294: the nodes of a sequence, once all tokens have been read -/
def finishInfix (nodes : List Node) : InfixFrac → List Node
  | none => nodes
  | some (numerator, withLine, delim) =>
    let lt := if withLine then Length.none else Length.zero
    let frac := Node.frac (nodeVecToNode numerator false) (nodeVecToNode nodes false) lt.value lt.unit
      none
    [match delim with
      | some .paren => fenced [frac] (some openParen) (some closeParen) none
      | some .brace => fenced [frac] (some openBrace) (some closeBrace) none
      | some .brack => fenced [frac] (some openBracket) (some closeBracket) none
      | none => frac]

/-- parser.rs:201-302 `parse_sequence` -/
def parseSequence (seqEnd : SequenceEnd) (prev : Class) (keepEnd : Bool) : P (List Node) := do
  let old ← St.get
  let (nodes, infixFrac) ← r.seqLoop seqEnd prev [] none
  P.skipIf (!keepEnd)
  St.modify fun s => { s with transform := old.transform, style := old.style }
  return finishInfix nodes infixFrac

/-- parser.rs:182-194 `parse_sequence_if_in_sequence` -/
def parseSequenceIfInSequence (parseAs : ParseAs) (span : Span) (seqEnd : SequenceEnd) (prev : Class)
    (keepEnd : Bool) : P (List Node) :=
  if parseAs.inSequence then r.parseSequence seqEnd prev keepEnd
  else P.fail span .cannotBeUsedAsArgument

/-- parser.rs:2696-2700 `parse_next` -/
def parseNext (parseAs : ParseAs) : P Node := do
  let t ← P.next
  let (_, node) ← r.parseToken t parseAs .default
  return node

/-- parser.rs:241-259: attach scripts to a node of a sequence. -/
def attachScripts (target : Node) (b : Bounds) : Node :=
  match target with
  | .multiscripts base pre [] =>
    if b.isTrivial then target else .multiscripts base pre [b.toPair]
  | _ => (b.tryWrapNodeSubsup target).getD target

/-- parser.rs:234-258: the rest of one round of `parse_sequence`, and the rounds after it -/
def seqTarget (seqEnd : SequenceEnd) (nodes : List Node) (infixFrac : InfixFrac) (cls : Class)
    (target : Node) : P (List Node × InfixFrac) := do
  let bounds ← r.getBounds none {}
  let bounds ← bounds.ensureNoExplicitLimits
  r.seqLoop seqEnd cls (nodes ++ [attachScripts target bounds]) infixFrac

/-- parser.rs:215-262: one round of the loop of `parse_sequence`, and the rounds after it -/
def seqLoopStep (seqEnd : SequenceEnd) (prev : Class) (nodes : List Node) (infixFrac : InfixFrac) :
    P (List Node × InfixFrac) := do
  let t ← P.peek
  if seqEnd.isMatch t.tok then return (nodes, infixFrac)
  else
    match ← mergeAndTransformLetters with
    | some (cls, target) => r.seqTarget seqEnd nodes infixFrac cls target
    | none =>
      let t ← P.next
      match ← handleTokensWithoutOutput t seqEnd nodes infixFrac with
      | some (nodes, infixFrac) => r.seqLoop seqEnd prev nodes infixFrac
      | none =>
        let (cls, target) ← r.parseToken t .sequence prev
        r.seqTarget seqEnd nodes infixFrac cls target

/-! ### Scripts -/

/-- parser.rs:2900-2922: the script after `_` or `^` -/
def parseScript : P Node := do
  let t ← P.next
  match t.tok with
  | .underscore | .circumflex | .prime _ => P.fail t.span .boundFollowedByBound
  | .eoi => P.fail t.span .expectedArgumentGotEOI
  | _ =>
    let old ← St.get
    St.modify fun s => { s with style := s.style.scriptify }
    let (_, node) ← r.parseToken t .arg .default
    St.modify fun s => { s with style := old.style }
    return node

/-- parser.rs:2924-2931 -/
def rowUnlessSingle : List Node → Node
  | [n] => n
  | nodes => .row nodes {}

/-- parser.rs:2820-2934 `get_sub_or_sup` -/
def getSubOrSup (kind : BoundStarterKind) : P Node := do
  match kind with
  | .prime k =>
    let (primes, followed) ← primesLoop (← P.loopFuel) [(k.direction, k.count)]
    let nodes := primes.reverse.flatMap fun (d, n) => primeNodes d n
    if followed then
      let _ ← P.nextAny
      let node ← r.parseScript
      return rowUnlessSingle (nodes ++ [node])
    else return rowUnlessSingle nodes
  | _ => r.parseScript

/-- parser.rs:2734-2755: read a script and put it into the bounds. `first` says that the token which
starts it has already been read. -/
def addBound (isFirst : Bool) (span : Span) (kind : BoundStarterKind) (ret : BoundsWithLimits) :
    P BoundsWithLimits := do
  P.skipIf (!isFirst)
  let node ← r.getSubOrSup kind
  match kind with
  | .underscore =>
    if ret.bounds.sub.isSome then P.fail span .duplicateSubOrSup
    else r.getBounds none { ret with bounds := { ret.bounds with sub := some node } }
  | _ =>
    if ret.bounds.sup.isSome then P.fail span .duplicateSubOrSup
    else r.getBounds none { ret with bounds := { ret.bounds with sup := some node } }

/-- parser.rs:2718-2760: one round of the loop of `get_bounds`, and the rounds after it -/
def getBoundsStep (first : Option (Token × Span)) (ret : BoundsWithLimits) : P BoundsWithLimits := do
  let t ← P.peek
  let (tok, span) := first.getD (t.tok, t.span)
  match tok.unwrapMath with
  | .underscore => r.addBound first.isSome span .underscore ret
  | .circumflex => r.addBound first.isSome span .circumflex ret
  | .prime k => r.addBound first.isSome span (.prime k) ret
  | .limits k =>
    P.skipIf first.isNone
    r.getBounds none { ret with limitsSpan := some (k, span) }
  | _ => return ret

/-- parser.rs:2768-2816 `get_bounds_arg` -/
def getBoundsArg : P (BoundsWithLimits × List Node) := do
  let first ← P.peek
  match first.tok.unwrapMath with
  | .prime k =>
    let _ ← P.next
    return ({ bounds := ⟨none, some (.plainOp k.toOrd.asOp)⟩ }, [])
  | .groupBegin =>
    let _ ← P.next
    let bounds ← r.getBounds none {}
    let after ← r.parseSequence (.endToken .groupClose) .opening false
    return (bounds, after)
  | .limits k =>
    let _ ← P.next
    return ({ limitsSpan := some (k, first.span) }, [])
  | _ =>
    let node ← r.parseNext .arg
    return ({}, [node])

/-! ### The longer arms of `parse_one_token` -/

/-- parser.rs:564-606 -/
def parseForceLargeOp (op : MathMLOperator) (parseAs : ParseAs) (prev : Class) : P Parsed := do
  let bl ← r.getBounds none {}
  let (left, right) ← mathopSpacing parseAs prev true
  let (useUnderover, attrs) := largeOpLimits bl
  return .node .operator (bl.bounds.wrap useUnderover (.operator op attrs none left right))

/-- parser.rs:714-798 -/
def parseMathClass (kind : MathClassKind) (parseAs : ParseAs) (prev : Class) : P Parsed := do
  let t ← P.next
  let (_, node) ← r.parseToken t parseAs prev
  let next ← peekClassToken parseAs.inSequence
  let s ← St.get
  match kind with
  | .ord => return .node .default (mathClassNode node (some .zero) (some .zero))
  | .op =>
    let (left, right) ← mathopSpacing parseAs prev true
    return .node .operator (mathClassNode node left right)
  | .bin =>
    let sp := binOpSpacing s.style parseAs.inSequence prev next true
    return .node .binaryOp (mathClassNode node sp sp)
  | .rel =>
    let sp := relationSpacing s.style prev next true
    return .node .relation (mathClassNode node sp.1 sp.2)
  | .opening => return .node .opening (mathClassNode node (some .zero) (some .zero))
  | .closing => return .node .closing (mathClassNode node (some .zero) (some .zero))
  | .punct =>
    let sp := punctuationSpacing s.style next true
    return .node .punctuation (mathClassNode node sp.1 sp.2)
  | .inner =>
    let sp := mathinnerSpacing s.style prev next true
    return .node .inner (mathClassNode node sp.1 sp.2)

/-- parser.rs:864-885 -/
def parseSqrt : P Parsed := do
  let t ← P.next
  if t.tok.isSquareOpen then
    let degree ← r.parseSequence (.endToken .squareBracketClose) .opening false
    let content ← r.parseNext .arg
    return .node .default (.root (nodeVecToNode degree true) content)
  else
    let (_, content) ← r.parseToken t .arg .default
    return .node .default (.sqrt content)

/-- parser.rs:887-891 -/
def fracStyle (style : Style) : Option FracAttr → Style
  | none => style.shrink
  | some .cfracStyle | some .displayStyleTrue => .text
  | some .displayStyleFalse => .script

/-- parser.rs:886-921 -/
def parseFrac (attr : Option FracAttr) (isBinom : Bool) : P Parsed := do
  let old ← St.get
  St.modify fun s => { s with style := fracStyle s.style attr }
  let num ← r.parseNext .arg
  let denom ← r.parseNext .arg
  St.modify fun s => { s with style := old.style }
  if isBinom then
    return .node .default (fenced [.frac num denom Length.zero.value Length.zero.unit attr]
      (some openParen) (some closeParen) none)
  else return .node .default (.frac num denom Length.none.value Length.none.unit attr)

/-- parser.rs:922-992 -/
def parseGenfrac : P Parsed := do
  let opening ← genfracDelimiter
  let closing ← genfracDelimiter
  let lt ← genfracLength
  let style ← genfracStyle
  let num ← r.parseNext .arg
  let denom ← r.parseNext .arg
  return .node .default (fenced [.frac num denom lt.value lt.unit none] opening closing style)

/-- parser.rs:1001-1016 -/
def parseOverset (isOver : Bool) (prev : Class) : P Parsed := do
  let old ← St.get
  St.modify fun s => { s with style := .script }
  let symbol ← r.parseNext .arg
  St.modify fun s => { s with style := old.style }
  let t ← P.next
  let old ← St.get
  St.modify fun s => { s with rightBoundaryHack := true }
  let (cls, target) ← r.parseToken t .continueSequence prev
  St.modify fun s => { s with rightBoundaryHack := old.rightBoundaryHack }
  return .node cls (if isOver then .over symbol target else .under symbol target)

/-- parser.rs:1024-1025: does an explanation follow a brace? -/
def braceLabelStart (isOver : Bool) : Token → Bool
  | .circumflex => isOver
  | .underscore => !isOver
  | _ => false

/-- parser.rs:1017-1044 -/
def parseOverUnderBrace (x : OrdLike) (isOver : Bool) : P Parsed := do
  let target ← r.parseNext .argWithSpace
  let base := if isOver then Node.overAccent x.asOp .empty target
    else Node.underAccent x.asOp .empty target
  let t ← P.peek
  if braceLabelStart isOver t.tok then
    let _ ← P.next
    let label ← r.parseNext .arg
    return .node .default (if isOver then .over label base else .under label base)
  else return .node .default base

/-- parser.rs:1050-1056: only some operators can have limits. -/
def opBounds (op : Op) : P BoundsWithLimits :=
  if op.cat = .C then return {} else r.getBounds none {}

/-- parser.rs:1045-1091 -/
def parseOp (op : Op) (parseAs : ParseAs) (prev : Class) : P Parsed := do
  let bl ← r.opBounds op
  let (left, right) ← mathopSpacing parseAs prev false
  let (useUnderover, attrs) := opLimits bl (op.cat = .J)
  return .node .operator (bl.bounds.wrap useUnderover (.operator op.asOp attrs none left right))

/-- parser.rs:1092-1128 and, from `get_bounds` on, 1568-1600 -/
def parsePseudoOp (name : Str) (limitsByDefault : Bool) (parseAs : ParseAs) (prev : Class) :
    P Parsed := do
  let bl ← r.getBounds none {}
  let (useUnderover, attrs) := pseudoOpLimits bl limitsByDefault
  let (left, right) ← mathopSpacing parseAs prev true
  return .node .operator (bl.bounds.wrap useUnderover (.pseudoOp attrs left right name))

/-- parser.rs:1129-1216 -/
def parseOverlay (o : OverlayChar) (parseAs : ParseAs) (prev : Class) : P Parsed := do
  let t ← P.next
  let (cls, node) ← r.parseToken t parseAs prev
  match overlayNode o node with
  | some node => return .node cls node
  | none => P.fail t.span .expectedRelation

/-- parser.rs:1217-1222 -/
def parseTransform (tf : MathVariant) : P Parsed := do
  let old ← St.get
  St.modify fun s => { s with transform := some tf }
  let content ← r.parseNext .arg
  St.modify fun s => { s with transform := old.transform }
  return .node .closing content

/-- parser.rs:1271-1285 -/
def parseGroup (parseAs : ParseAs) (prev : Class) : P Parsed := do
  let content ← r.parseSequence (.endToken .groupClose)
    (if parseAs = .continueSequence then prev else .opening) false
  return .node .default (nodeVecToNode content (parseAs = .arg))

/-- parser.rs:1342-1361 -/
def parseLeft : P Parsed := do
  let opening ← parseFenceDelimiter .left
  let content ← r.parseSequence (.endToken .right) .opening false
  let closing ← parseFenceDelimiter .right
  return .node .default (fenced content opening closing none)

/-- parser.rs:1516-1551: number the last row of an environment; also returns the number of rows. -/
def numberLastRow (numbered : Option NumberedEnvState) (span : Span) :
    P (Option RowLabelInfo × Option Nat) := do
  match numbered with
  | some n =>
    let (info, n) ← numberRow n true span
    return (info, n.numRows)
  | none => return (none, none)

/-- parser.rs:1496-1558: what follows the content of an environment -/
def finishEnv (env : Env) (span : Span) (spec : Option ArraySpec) (borderTop : Option LineType)
    (content : List Node) (numbered : Option NumberedEnvState) : P Parsed := do
  let t ← P.next
  match t.tok with
  | .endEnv endEnv =>
    if endEnv ≠ env then P.fail t.span (.mismatchedEnvironment env endEnv)
    else
      let (info, numRows) ← numberLastRow numbered span
      match env.constructNode content spec info numRows borderTop with
      | some node => return .node .closing node
      | none => St.panic
  | _ => P.fail t.span .internal

/-- parser.rs:1447-1559 -/
def parseBegin (env : Env) (span : Span) (parseAs : ParseAs) : P Parsed := do
  let spec ← parseArraySpec env
  let borderTop ← parseHline env.allowsHlines
  let spec := spec.map fun spec => { spec with borderTop }
  let old ← St.get
  St.modify fun s => { s with style := env.style, env := env.newState }
  let content ← r.parseSequenceIfInSequence parseAs span (.endToken .endEnv) .opening true
  let s ← St.get
  St.modify fun s => { s with style := old.style, env := old.env }
  finishEnv env span spec borderTop content s.env.numbered

/-- parser.rs:1560-1601 -/
def parseOperatorName (withLimits : Bool) (parseAs : ParseAs) (prev : Class) : P Parsed := do
  let snippets ← extractText none none false
  r.parsePseudoOp (snippets.flatMap TextSnippet.text) withLimits parseAs prev

/-- parser.rs:1799-1818: the optional argument of `\cramped`, after the bracket -/
def crampedStyle : P (Option Style) := do
  let t ← P.next
  match t.tok with
  | .style style =>
    let c ← P.next
    if c.tok.isSquareClose then return some style
    else P.fail c.span .expectedAtMostOneToken
  | .squareBracketClose => return none
  | _ => P.fail t.span .expectedStyle

/-- parser.rs:1792-1835 -/
def parseCramped (prev : Class) : P Parsed := do
  let t ← P.next
  if t.tok.isSquareOpen then
    let style ← crampedStyle
    let inner ← r.parseNext .arg
    return .node .default (.row [inner] { style, mathShiftCompact := true })
  else
    let (_, inner) ← r.parseToken t .arg prev
    return .node .default (.row [inner] { mathShiftCompact := true })

/-- parser.rs:1836-1978 -/
def parseColorSwitch (span : Span) (parseAs : ParseAs) (prev : Class) : P Parsed := do
  let color ← parseColor span
  let content ← r.parseSequenceIfInSequence parseAs span .anyEndToken prev true
  return .node .default (.row content { color := some color })

/-- parser.rs:1979-2000 -/
def parsePhantom (kind : PhantomKind) : P Parsed := do
  let inner ← r.parseNext .arg
  return .node .default (match kind with
    | .full => .phantom inner
    | .h => .padded (.phantom inner) false true none none none
    | .v => .padded (.phantom inner) true false none none none)

/-- parser.rs:2001-2018 -/
def parseStyle (style : Style) (span : Span) (parseAs : ParseAs) (prev : Class) : P Parsed := do
  let old ← St.get
  St.modify fun s => { s with style }
  let content ← r.parseSequenceIfInSequence parseAs span .anyEndToken prev true
  St.modify fun s => { s with style := old.style }
  return .node .default (.row content { style := some style })

/-- parser.rs:2019-2031 -/
def parseScriptWithoutBase (tok : Token) (span : Span) : P Parsed := do
  let bl ← r.getBounds (some (tok, span)) {}
  let bounds ← bl.ensureNoExplicitLimits
  match bounds.tryWrapNodeSubsup .emptyRow with
  | some node => return .node .default node
  | none => St.panic

/-- parser.rs:2043-2055 -/
def parsePrescript : P Parsed := do
  let sup ← r.parseNext .arg
  let sub ← r.parseNext .arg
  let base ← r.parseNext .arg
  return .node .default (.multiscripts base [(sub, sup)] [])

/-- parser.rs:2066-2067 -/
def Token.sidesetOp : Token → Option Op
  | .op o => if o.cat = .H ∨ o.cat = .J then some o else none
  | _ => none

/-- parser.rs:2090-2122: the operator with what stands at its sides -/
def sidesetNode (opNode : Node) (pre post : Bounds) (afterPre afterPost : List Node) : Node :=
  let base := if afterPre.isEmpty then opNode else Node.row (afterPre ++ [opNode]) {}
  let node := Node.multiscripts base [pre.toPair] [post.toPair]
  if afterPost.isEmpty then node else .row (node :: afterPost) {}

/-- parser.rs:2128-2130 -/
def sidesetUnderover (limits : Option LimitsKind) (style : Style) : Bool :=
  limits = some .always || (style = .display && (limits = none || limits = some .display))

/-- parser.rs:2056-2152 -/
def parseSideset (parseAs : ParseAs) (prev : Class) : P Parsed := do
  let (preLimits, afterPre) ← r.getBoundsArg
  let pre ← preLimits.ensureNoExplicitLimits
  let (postLimits, afterPost) ← r.getBoundsArg
  let post ← postLimits.ensureNoExplicitLimits
  let arg ← liftQ (TokenQueue.readArgument false)
  let base ← St.ofExcept arg.intoOne
  match Token.sidesetOp base.tok with
  | none => P.fail base.span .expectedLargeOp
  | some op =>
    let (left, right) ← mathopSpacing parseAs prev false
    let attrs := if op.cat = .J then OpAttrs.noMovableLimits else OpAttrs.empty
    let node := sidesetNode (.operator op.asOp attrs none left right) pre post afterPre afterPost
    let trailing ← r.getBounds none {}
    let s ← St.get
    if trailing.bounds.isTrivial then return .node .default node
    else
      let wrapped := if sidesetUnderover trailing.limits s.style
        then trailing.bounds.tryWrapNodeUnderover node
        else trailing.bounds.tryWrapNodeSubsup node
      match wrapped with
      | some node => return .node .default node
      | none => St.panic

/-- parser.rs:2202-2217: the arguments of an extensible arrow -/
def parseXArrowArgs : P (Option Node × Node) := do
  let t ← P.next
  if t.tok.isSquareOpen then
    let nodes ← r.parseSequence (.endToken .squareBracketClose) .opening false
    let over ← r.parseNext .arg
    return (some (nodeVecToNode nodes false), over)
  else
    let (_, over) ← r.parseToken t .arg .default
    return (none, over)

/-- parser.rs:2224-2270: the node of an extensible arrow -/
def xarrowNode (rel : Rel) (left right : Option MathSpacing) (under : Option Node) (over : Node) : Node :=
  let pad := Node.space (LatexUnit.lengthWithUnit .em (4286/10000))
  let labelSpace := Node.space (LatexUnit.lengthWithUnit .em (35/10))
  let outer := Node.space (LatexUnit.lengthWithUnit .mu 5)
  let overLabel := Node.over labelSpace (nodeVecToNode [pad, over, pad] false)
  let attrs := if rel.cat = .A then OpAttrs.empty else OpAttrs.stretchyTrue
  let arrow := Node.operator rel.asOp attrs none left right
  let center := match under with
    | some under =>
      .underOver arrow (.under labelSpace (nodeVecToNode [pad, under, pad] false)) overLabel
    | none => .over overLabel arrow
  .row [outer, center, outer] {}

/-- parser.rs:2189-2271 -/
def parseXArrow (rel : Rel) (parseAs : ParseAs) (prev : Class) : P Parsed := do
  let old ← St.get
  St.modify fun s => { s with style := .script, rightBoundaryHack := true }
  let (under, over) ← r.parseXArrowArgs
  St.modify fun s => { s with style := old.style, rightBoundaryHack := old.rightBoundaryHack }
  let next ← peekClassToken parseAs.inSequence
  let s ← St.get
  let (left, right) := relationSpacing s.style prev next false
  return .node .relation (xarrowNode rel left right under over)

/-- parser.rs:2314-2319 -/
def styleIndex : Style → Nat
  | .display => 0
  | .text => 1
  | .script => 2
  | .scriptScript => 3

/-- token.rs, `MathChoice::select` -/
def selectChoice (style : Style) (d t s ss : Token) : Token :=
  match style with
  | .display => d
  | .text => t
  | .script => s
  | .scriptScript => ss

/-- parser.rs:2313-2326 -/
def parseMathChoice (span : Span) : P Parsed := do
  let s ← St.get
  readCmdArgs 4
  St.modify fun s' => { s' with q := s'.q.queueArgInFront (s'.cmdArgs.get (styleIndex s.style)) span }
  return .expansion

/-- parser.rs:2332-2342 -/
def literalNode (tf : Option MathVariant) (content : Str) : Node :=
  match tf with
  | some (.transform tf) => .identifierStr (content.flatMap fun c => (transformChar tf c false).text)
  | _ => .identifierStr content

/-- parser.rs:2166-2171 -/
def unmatchedClose (parseAs : ParseAs) (e : EndToken) : LatexErrKind :=
  if parseAs.inSequence then .unmatchedClose e else .expectedArgumentGotClose

/-- parser.rs:464-2343: the `match` of `parse_one_token`; `next` is the class of the next token. -/
def parseArm (t : TokSpan) (parseAs : ParseAs) (prev next : Class) : P Parsed := do
  let s ← St.get
  let span := t.span
  match t.tok with
  | .digit c => return .node .default (← parseDigit c parseAs)
  | .letter c _ => return .node .default (letterNode s.transform c false)
  | .uprightLetter c => return .node .default (letterNode s.transform c true)
  | .relation rel =>
    let (left, right) := relationSpacing s.style prev next false
    return .node .relation (.operator rel.asOp (relationAttrs rel.cat) none left right)
  | .punctuation p =>
    let (left, right) := punctuationSpacing s.style next false
    return .node .punctuation (.operator p.asOp .empty none left right)
  | .forcePunctuation op =>
    let (left, right) := punctuationSpacing s.style next true
    return .node .punctuation (.operator op .empty none left right)
  | .forceLargeOp op => r.parseForceLargeOp op parseAs prev
  | .ord o => return .node .default (ordNode s.verticalLineDef o)
  | .forceOrd op => return .node .default (.operator op .empty none (some .zero) (some .zero))
  | .binaryOp b =>
    let sp := binOpSpacing s.style parseAs.inSequence prev next false
    return .node (if sp = some .zero then .default else .binaryOp) (.operator b.asOp .empty none sp sp)
  | .forceBinaryOp op =>
    let sp := binOpSpacing s.style parseAs.inSequence prev next true
    return .node (if sp = some .zero then .default else .binaryOp) (.operator op .empty none sp sp)
  | .mathClass kind => r.parseMathClass kind parseAs prev
  | .inner op =>
    let (left, right) := mathinnerSpacing s.style prev next false
    return .node .inner (.operator op.asOp .empty none left right)
  | .forceMathInner op =>
    let (left, right) := mathinnerSpacing s.style prev next true
    return .node .inner (.operator op .empty none left right)
  | .enclose n => return .node .default (.enclose (← r.parseNext .argWithSpace) n)
  | .space l => return .node prev (.space l)
  | .customSpace kind => return .node .default (← parseCustomSpace kind)
  | .kernOrSkip kind => return .node prev (← parseKernOrSkip kind span.stop)
  | .nonBreakingSpace => return .node .default (.text none none ['\u00a0'])
  | .sqrt => r.parseSqrt
  | .frac attr => r.parseFrac attr false
  | .binom attr => r.parseFrac attr true
  | .genfrac => r.parseGenfrac
  | .accent op isOver attrs =>
    let target ← r.parseNext .argWithSpace
    return .node .default
      (if isOver then .overAccent op.asOp attrs target else .underAccent op.asOp attrs target)
  | .overset => r.parseOverset true prev
  | .underset => r.parseOverset false prev
  | .overUnderBrace x isOver => r.parseOverUnderBrace x isOver
  | .op op => r.parseOp op parseAs prev
  | .pseudoOperator name => r.parsePseudoOp name false parseAs prev
  | .pseudoOperatorLimits name => r.parsePseudoOp name true parseAs prev
  | .overlay o => r.parseOverlay o parseAs prev
  | .transform tf => r.parseTransform tf
  | .transformSwitch _ | .noNumber | .tag _ | .label | .newCommand _ | .letCmd | .defCmd _
  | .globalPrefix | .infixGenFrac _ _ => P.fail span .cannotBeUsedAsArgument
  | .forceRelation op =>
    let (left, right) := if parseAs.inSequence then relationSpacing s.style prev next true
      else (none, none)
    return .node .relation (.operator op .empty none left right)
  | .forceOpen op _ =>
    return .node .opening (.operator op .formPrefix none (some .zero) (some .zero))
  | .forceClose op _ =>
    return .node .closing (.operator op .formPostfix none (some .zero) (some .zero))
  | .groupBegin => r.parseGroup parseAs prev
  | .opening o => return .node .opening (parenNode true o)
  | .closing o => return .node .default (parenNode false o)
  | .squareBracketOpen =>
    return .node .opening (.operator Sym.LEFT_SQUARE_BRACKET.asOp .stretchyFalse none none none)
  | .squareBracketClose =>
    return .node .default (.operator Sym.RIGHT_SQUARE_BRACKET.asOp .stretchyFalse none none none)
  | .left => r.parseLeft
  | .middle => parseMiddle
  | .big size parenType => parseBig size parenType parseAs prev
  | .beginEnv env => r.parseBegin env span parseAs
  | .operatorName withLimits => r.parseOperatorName withLimits parseAs prev
  | .text style =>
    return .node .closing (nodeVecToNode (textNodes (← extractText style none true)) false)
  | .raiseBox =>
    let voffset ← parseRaise
    return .node .closing (nodeVecToNode (textNodes (← extractText none (some voffset) true)) false)
  | .newColumn =>
    if s.env.allowColumns then return .node .closing .columnSeparator
    else P.fail span (.cannotBeUsedHere .ampersand .tableEnv)
  | .hline l =>
    P.fail span (.cannotBeUsedHere (match l with | .solid => .hLine | .dashed => .hDashLine)
      .arrayRowStart)
  | .newLine => parseNewLine span
  | .eqRef =>
    let (name, _) ← parseStringLiteral
    return .node .default (.eqRef name)
  | .cramped => r.parseCramped prev
  | .color => r.parseColorSwitch span parseAs prev
  | .phantom kind => r.parsePhantom kind
  | .style style => r.parseStyle style span parseAs prev
  | .underscore => r.parseScriptWithoutBase .underscore span
  | .circumflex => r.parseScriptWithoutBase .circumflex span
  | .prime k => r.parseScriptWithoutBase (.prime k) span
  | .dots =>
    let toks := if next = .binaryOp ∨ next = .relation then Pre.CDOTS else Pre.DOTS
    St.modify fun s => { s with q := s.q.queueInFront (toks.map Token.queued) }
    return .expansion
  | .prescript => r.parsePrescript
  | .sideset => r.parseSideset parseAs prev
  | .limits kind => P.fail span (.cannotBeUsedHere (.ofLimits kind) .afterBigOp)
  | .eoi => P.fail span .expectedArgumentGotEOI
  | .endEnv _ => P.fail span (unmatchedClose parseAs .endEnv)
  | .right => P.fail span (unmatchedClose parseAs .right)
  | .groupEnd => P.fail span (unmatchedClose parseAs .groupClose)
  | .whitespace | .mathOrTextMode _ _ | .verticalLineDef _ | .customCmdArg _ =>
    P.fail span .internal
  | .textMode _ => P.fail span .notValidInMathMode
  | .xarrow rel => r.parseXArrow rel parseAs prev
  | .customCmd numArgs body => expandCustomCmd numArgs body span
  | .customCmdRef source numArgs _ start stop => expandCustomCmdRef source numArgs start stop span
  | .customCmdArgInput _ => P.fail span .macroParameterOutsideCustomCommand
  | .dollar => P.fail span .unexpectedDollar
  | .relax => return .node .default .emptyRow
  | .unresolvedCommand name => return .node .default (.unknownCommand name)
  | .mathChoice => parseMathChoice span
  | .mathChoiceInternal _ d t s' ss =>
    let tok := selectChoice s.style d t s' ss
    St.modify fun s => { s with q := s.q.queueInFront [⟨tok, span, none⟩] }
    return .expansion
  | .internalStringLiteral content => return .node .default (literalNode s.transform content)

/-- parser.rs:450-463: `parse_one_token` up to the `match` -/
def parseOneToken (t : TokSpan) (parseAs : ParseAs) (prev : Class) : P Parsed := do
  let next ← peekClassToken parseAs.inSequence
  let s ← St.get
  r.parseArm t parseAs prev (if s.rightBoundaryHack && next = .ending then .default else next)

/-- parser.rs:434-447 `parse_token` -/
def parseTokenStep (t : TokSpan) (parseAs : ParseAs) (prev : Class) : P (Class × Node) := do
  match ← r.parseOneToken t parseAs prev with
  | .node c n => return (c, n)
  | .expansion =>
    let t ← P.next
    r.parseToken t parseAs prev

end Rec

/-- The functions of the parser, with a bound on the depth of the calls -/
def parser : Nat → Rec
  | 0 => ⟨fun _ _ _ _ => St.outOfFuel, fun _ _ _ => St.outOfFuel, fun _ _ => St.outOfFuel⟩
  | n + 1 => ⟨(parser n).seqLoopStep, (parser n).parseTokenStep, (parser n).getBoundsStep⟩

/-- parser.rs:174-176 `parse` -/
def parse (fuel : Nat) : P (List Node) :=
  (parser fuel).parseSequence (.endToken .eoi) .opening true

/-- parser.rs:143-166 `Parser::new`, once the token queue has been created -/
def initialState (maxExpansions : Nat) (q : TokenQueue) (style : Style) : PState :=
  { q, style, expansionsLeft := maxExpansions }

end Verif.Model

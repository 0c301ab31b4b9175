import Verif.Model.PState
/-! Model of crates/math-core/src/text_parser.rs. -/
namespace Verif.Model

/-- text_parser.rs:22-27 `TextSnippet` -/
structure TextSnippet where
  style : Option HtmlTextStyle
  size : Option HtmlTextSize
  voffset : Option LengthSet
  text : Str
  deriving DecidableEq, Repr

/-- token.rs:448-457 `to_ord` -/
def PrimeKind.toOrd : PrimeKind → OrdLike
  | .single => Sym.PRIME
  | .double => Sym.DOUBLE_PRIME
  | .triple => Sym.TRIPLE_PRIME
  | .quadruple => Sym.QUADRUPLE_PRIME
  | .reversed => Sym.REVERSED_PRIME
  | .reversedDouble => Sym.REVERSED_DOUBLE_PRIME
  | .reversedTriple => Sym.REVERSED_TRIPLE_PRIME

/-- text_parser.rs:36-45, the local variables of `extract_text`. Stacks have their top first, so
`styles` is empty when the loop ends. The snippets are in reading order. -/
structure TextState where
  styles : List (Nat × Option HtmlTextStyle × Option LengthSet)
  builder : Option Str := none
  snippets : List TextSnippet := []
  accent : Option Char := none
  nesting : Nat := 0
  sizes : List (Nat × Nat × HtmlTextSize) := []

/-- text_parser.rs:426-438 `discard_dead_sizes` -/
def discardDeadSizes (sizes : List (Nat × Nat × HtmlTextSize)) (depth nesting : Nat) :
    List (Nat × Nat × HtmlTextSize) :=
  sizes.dropWhile fun (d, n, _) => d > depth || (d == depth && n > nesting)

namespace TextState

/-- The style and offset in force (text_parser.rs:47-49) -/
def top (t : TextState) : Nat × Option HtmlTextStyle × Option LengthSet :=
  t.styles.head?.getD (0, none, none)

/-- text_parser.rs:50 -/
def size (t : TextState) : Option HtmlTextSize := t.sizes.head?.map (·.2.2)

/-- The repeated `snippets.push(TextSnippet(current_style, ..., text))` -/
def push (t : TextState) (text : Str) : TextState :=
  { t with snippets := t.snippets ++ [⟨t.top.2.1, t.size, t.top.2.2, text⟩] }

/-- `if let Some(builder) = str_builder.take() && !builder.is_empty() { ... }`, e.g.
text_parser.rs:78-88 -/
def flush (t : TextState) : TextState :=
  match t.builder with
  | some (c :: cs) => { t.push (c :: cs) with builder := none }
  | _ => { t with builder := none }

/-- The repeated code for leaving a style, e.g. text_parser.rs:411-417 -/
def pop (t : TextState) : TextState :=
  let styles := t.styles.tail
  { t with
    styles, nesting := t.top.1,
    sizes := discardDeadSizes t.sizes styles.length t.top.1,
    builder := if styles.isEmpty then t.builder else some [] }

/-- Enter a style, e.g. text_parser.rs:269-270. -/
def enter (t : TextState) (style : Option HtmlTextStyle) (voffset : Option LengthSet) : TextState :=
  { t with styles := (t.nesting, style, voffset) :: t.styles, nesting := 0 }

/-- text_parser.rs:397-418 -/
def char (t : TextState) (c : SuperChar) : TextState :=
  match t.builder with
  | some b => { t with builder := some (b ++ c.text ++ t.accent.toList), accent := none }
  | none => (t.push c.text).pop

/-- A whole string, e.g. text_parser.rs:161-181 -/
def string (t : TextState) (s : Str) : TextState :=
  match t.builder with
  | some b => { t with builder := some (b ++ s) }
  | none => (t.push s).pop

/-- text_parser.rs:93-125, a size command -/
def setSize (t : TextState) (size : HtmlTextSize) : TextState :=
  match t.builder with
  | some [] => { t with sizes := (t.styles.length, t.nesting, size) :: t.sizes }
  | some _ => { t.flush with builder := some [], sizes := (t.styles.length, t.nesting, size) :: t.sizes }
  | none => t.pop

/-- text_parser.rs:190-243, a closing brace while text is being collected -/
def close (t : TextState) (b : Str) : TextState :=
  match t.nesting with
  | n + 1 =>
    let hadSizes := match t.sizes with
      | (depth, nesting, _) :: _ => depth == t.styles.length && nesting > n
      | [] => false
    if hadSizes then
      { t.flush with
        nesting := n, sizes := discardDeadSizes t.sizes t.styles.length n, builder := some [] }
    else { t with nesting := n, builder := some b }
  | 0 => t.flush.pop

/-- text_parser.rs:261-268: how a text style changes the one in force -/
def combine : Option HtmlTextStyle → Option HtmlTextStyle → Option HtmlTextStyle
  | some .emphasis, some .emphasis => none
  | some .bold, some .italic | some .italic, some .bold => some .boldItalic
  | _, s => s

end TextState

/-- What one iteration of the loop of `extract_text` does: go on, fail, or (for `\raisebox`) read a
length before going on. -/
inductive TextOutcome
  | next (t : TextState)
  | fail (k : LatexErrKind)
  | raise (t : TextState)

/-- text_parser.rs:360-388, a space outside of text mode -/
def textSpace (t : TextState) (l : Length) : TextState :=
  if l = ⟨some 1, .em⟩ then t.char (SuperChar.fromChar '\u2003')
  else if l = LatexUnit.lengthWithUnit .mu 5 then t.char (SuperChar.fromChar '\u2004')
  else if l = LatexUnit.lengthWithUnit .mu 4 then t.char (SuperChar.fromChar '\u205f')
  else if l = LatexUnit.lengthWithUnit .mu 3 then t.char (SuperChar.fromChar '\u2009')
  else if t.builder.isNone then t.pop else t

/-- text_parser.rs:328-392, the tokens which only exist in math mode -/
def textStepMath (tok : Token) (t : TextState) : TextOutcome :=
  match tok with
  | .letter c _ | .uprightLetter c => .next (t.char c)
  | .opening op | .closing op | .ord op => .next (t.char op.asOp.sc)
  | .binaryOp op => .next (t.char op.asOp.sc)
  | .relation op => .next (t.char op.asOp.sc)
  | .forceRelation op => .next (t.char op.sc)
  | .punctuation op => .next (t.char op.asOp.sc)
  | .pseudoOperator s | .pseudoOperatorLimits s => .next (t.string s)
  | .space l => .next (textSpace t l)
  | .prime k => .next (t.char k.toOrd.asOp.sc)
  | _ => .fail .couldNotExtractText

/-- text_parser.rs:57-418, one iteration. The two `match`es of text_parser.rs:130-147 and 149-327 are
one in the model, so the `unreachable!` between them has no counterpart. -/
def textStep (textMode : Bool) (tok : Token) (t : TextState) : TextOutcome :=
  match tok with
  | .dollar => .fail (if textMode then .nestedMathModeUnimplemented else .unexpectedDollar)
  | .textMode tt =>
    if textMode then
      match tt with
      | .accent a =>
        if t.builder.isSome then .next { t with accent := some a } else .fail .expectedArgumentGotEOI
      | .letter c => .next (t.char (SuperChar.fromChar c))
      | .style s => .next (t.flush.enter (some s) t.top.2.2)
      | .size s => .next (t.setSize s)
    else .fail .notValidInMathMode
  | .letter c .mathOrText => .next (t.char c)
  | .squareBracketOpen => .next (t.char Sym.LEFT_SQUARE_BRACKET.asOp.sc)
  | .squareBracketClose => .next (t.char Sym.RIGHT_SQUARE_BRACKET.asOp.sc)
  | .digit c => .next (t.char (SuperChar.fromChar c))
  | .whitespace | .nonBreakingSpace => .next (t.char (SuperChar.fromChar Sym.NO_BREAK_SPACE))
  | .internalStringLiteral s => .next (t.string s)
  | .groupBegin =>
    match t.builder with
    | none => .next { t with builder := some [] }
    | some _ => .next { t with nesting := t.nesting + 1 }
  | .groupEnd =>
    match t.builder with
    | some b => .next (t.close b)
    | none => .fail .expectedArgumentGotClose
  | .mathOrTextMode _ c => .next (t.char (SuperChar.fromChar c))
  | .text s => .next (t.flush.enter (TextState.combine t.top.2.1 s) t.top.2.2)
  | .raiseBox => .raise t.flush
  | .eoi =>
    .fail (if t.builder.isSome then .unclosedGroup .groupClose else .expectedArgumentGotEOI)
  | .right | .endEnv _ => .fail .expectedArgumentGotClose
  | _ => if textMode then .fail .notValidInTextMode else textStepMath tok t

/-- text_parser.rs:47-419, the loop -/
def extractTextLoop (textMode : Bool) : Nat → TextState → P (List TextSnippet)
  | 0, _ => St.outOfFuel
  | fuel + 1, t =>
    if t.styles.isEmpty then return t.snippets
    else do
      let tok ← if textMode then P.nextAny else P.next
      match textStep textMode tok.tok t with
      | .next t => extractTextLoop textMode fuel t
      | .fail k => P.fail tok.span k
      | .raise t =>
        let new ← parseRaise
        let voffset := match t.top.2.2 with
          | some current => current.add new
          | none => new
        extractTextLoop textMode fuel (t.enter t.top.2.1 (some voffset))

/-- text_parser.rs:30-421 `extract_text` -/
def extractText (style : Option HtmlTextStyle) (voffset : Option LengthSet) (textMode : Bool) :
    P (List TextSnippet) := do
  let fuel ← P.loopFuel
  extractTextLoop textMode (fuel + 1) { styles := [(0, style, voffset)] }

end Verif.Model

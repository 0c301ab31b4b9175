import Verif.Model.Token
import Verif.Model.ErrorHtml
/-! Model of the error values of crates/math-core/src/error.rs. -/
namespace Verif.Model

/-- error.rs:88-99 -/
inductive DelimiterModifier | left | right | middle | big | genfrac
  deriving DecidableEq, Repr
/-- error.rs:103-114 -/
inductive Place | afterBigOp | tableEnv | numberedEnv | arrayRowStart | beforeDefinition
  deriving DecidableEq, Repr
/-- error.rs:117-138 -/
inductive LimitedUsabilityToken
  | ampersand | tag | tagStar | label | limits | noLimits | displayLimits | hLine | hDashLine
  | globalPrefix
  deriving DecidableEq, Repr

/-- error.rs:140-148 -/
def LimitedUsabilityToken.ofLimits : LimitsKind → LimitedUsabilityToken
  | .always => .limits
  | .never => .noLimits
  | .display => .displayLimits

/-- error.rs:18-85 -/
inductive LatexErrKind
  | unclosedGroup (e : EndToken)
  | unmatchedClose (e : EndToken)
  | expectedArgumentGotClose
  | expectedArgumentGotEOI
  | expectedDelimiter (m : DelimiterModifier)
  | disallowedChar (c : Char)
  | unknownEnvironment (s : Str)
  | unknownCommand (s : Str)
  | unknownColor (s : Str)
  | mismatchedEnvironment (expected got : Env)
  | cannotBeUsedHere (got : LimitedUsabilityToken) (correctPlace : Place)
  | expectedRelation
  | expectedLargeOp
  | expectedAtMostOneToken
  | expectedExactlyOneToken
  | boundFollowedByBound
  | duplicateSubOrSup
  | cannotBeUsedAsArgument
  | expectedAscii
  | expectedLength (s : Str)
  | illegalUnit (unit : Str) (mathUnitExpected : Bool)
  | invalidUnit (s : Str)
  | expectedColSpec (s : Str)
  | expectedStyle
  | notValidInTextMode
  | notValidInMathMode
  | nestedMathModeUnimplemented
  | unexpectedDollar
  | couldNotExtractText
  | moreThanOneLabel
  | moreThanOneInfixCmd
  | invalidMacroName (s : Str)
  | expectedCommandName
  | commandAlreadyDefined
  | commandNotDefined
  | invalidParameterNumber
  | parameterNumberOutOfRange (n actual : Nat)
  | delimitedParameters
  | unexpectedParameterNumber (expected actual : Nat)
  | macroParameterOutsideCustomCommand
  | expectedParamNumberGotEOI
  | hardLimitExceeded
  | tooManyExpansions
  | internal
  deriving DecidableEq, Repr

/-- error.rs:15 -/
structure LatexError where
  start : Nat
  stop : Nat
  kind : LatexErrKind
  deriving DecidableEq, Repr

/-- `LatexError(span.into(), kind)` -/
def Span.err (s : Span) (k : LatexErrKind) : LatexError := ⟨s.start, s.stop, k⟩

/-- token.rs:777-788, the strum strings -/
def EndToken.asStr : EndToken → Str
  | .endEnv => c!"\\end{...}"
  | .groupClose => c!"}"
  | .right => c!"\\right"
  | .squareBracketClose => c!"]"
  | .eoi => c!"end of input"

/-- error.rs:88-99 -/
def DelimiterModifier.asStr : DelimiterModifier → Str
  | .left => c!"\\left" | .right => c!"\\right" | .middle => c!"\\middle"
  | .big => c!"\\big, \\Big, ..." | .genfrac => c!"\\genfrac"

/-- error.rs:103-114 -/
def Place.asStr : Place → Str
  | .afterBigOp => c!"after \\int, \\sum, ..."
  | .tableEnv => c!"in a table-like environment"
  | .numberedEnv => c!"in a numbered equation environment"
  | .arrayRowStart => c!"directly after a `\\\\` or at the beginning of an array or matrix"
  | .beforeDefinition => c!"directly before \\let or \\def"

/-- error.rs:117-138 -/
def LimitedUsabilityToken.asStr : LimitedUsabilityToken → Str
  | .ampersand => c!"&" | .tag => c!"\\tag" | .tagStar => c!"\\tag*" | .label => c!"\\label"
  | .limits => c!"\\limits" | .noLimits => c!"\\nolimits" | .displayLimits => c!"\\displaylimits"
  | .hLine => c!"\\hline" | .hDashLine => c!"\\hdashline" | .globalPrefix => c!"\\global"

/-- error.rs:152-349 `write_msg` -/
def LatexErrKind.msg : LatexErrKind → Str
  | .unclosedGroup e =>
    c!"Expected closing token \"" ++ e.asStr ++ c!"\", but reached end of input."
  | .unmatchedClose e => c!"Unmatched closing token: \"" ++ e.asStr ++ c!"\"."
  | .expectedArgumentGotClose =>
    c!"Expected argument but got closing token (`}`, `\\end`, `\\right`)."
  | .expectedArgumentGotEOI => c!"Expected argument but reached end of input."
  | .expectedDelimiter m =>
    c!"There must be a parenthesis after \"" ++ m.asStr ++ c!"\", but not found."
  | .expectedStyle =>
    c!"Expected one of `\\displaystyle`, `\\textstyle`, `\\scriptstyle`, or `\\scriptscriptstyle`"
  | .disallowedChar c => c!"Disallowed character in text group: '" ++ [c] ++ c!"'."
  | .unknownEnvironment s => c!"Unknown environment \"" ++ s ++ c!"\"."
  | .unknownCommand s => c!"Unknown command \"\\" ++ s ++ c!"\"."
  | .unknownColor s => c!"Unknown color \"" ++ s ++ c!"\"."
  | .mismatchedEnvironment expected got =>
    c!"Expected \"\\end{" ++ expected.asStr ++ c!"}\", but found \"\\end{" ++ got.asStr ++ c!"}\"."
  | .cannotBeUsedHere got place =>
    c!"Found \"" ++ got.asStr ++ c!"\", which may only appear " ++ place.asStr ++ c!"."
  | .expectedRelation => c!"Expected a relation after \\not."
  | .expectedLargeOp => c!"Expected a large operator."
  | .expectedAtMostOneToken => c!"Expected at most one token as argument."
  | .expectedExactlyOneToken => c!"Expected exactly one token as argument."
  | .boundFollowedByBound => c!"'^' or '_' directly followed by '^', '_' or prime."
  | .duplicateSubOrSup => c!"Duplicate subscript or superscript."
  | .cannotBeUsedAsArgument => c!"Switch-like commands cannot be used as arguments."
  | .expectedAscii => c!"Expected non-special ASCII characters in string literal."
  | .expectedLength s => c!"Expected length with units, found \"" ++ s ++ c!"\"."
  | .illegalUnit u true =>
    c!"Text unit \"" ++ u ++ c!"\" cannot be used with \\mkern/\\mskip/\\mspace."
  | .illegalUnit u false =>
    c!"Math unit \"" ++ u ++ c!"\" cannot be used with \\kern/\\hskip/\\hspace."
  | .invalidUnit u => c!"Found invalid unit \"" ++ u ++ c!"\"."
  | .expectedColSpec s => c!"Expected column specification, found \"" ++ s ++ c!"\"."
  | .notValidInTextMode => c!"Not valid in text mode."
  | .notValidInMathMode => c!"Not valid in math mode."
  | .nestedMathModeUnimplemented => c!"Math mode within text mode is not implemented yet."
  | .unexpectedDollar => c!"Unexpected \"$\"."
  | .couldNotExtractText => c!"Could not extract text from the given macro."
  | .moreThanOneLabel => c!"Found more than one label in a row."
  | .moreThanOneInfixCmd => c!"Found more than one infix fraction in a group."
  | .invalidMacroName n => c!"Invalid macro name: \"\\" ++ n ++ c!"\"."
  | .expectedCommandName => c!"Expected the name of a command."
  | .commandAlreadyDefined => c!"This command is already defined."
  | .commandNotDefined => c!"This command is not defined."
  | .invalidParameterNumber => c!"Invalid parameter number. Must be 1-9."
  | .parameterNumberOutOfRange n actual =>
    c!"Parameter number " ++ decimal actual ++
      c!" is out of range. Expected a number of at most " ++ decimal n ++ c!"."
  | .delimitedParameters =>
    c!"Delimited parameters are not supported. Expected \"#n\" or \"{\" here."
  | .unexpectedParameterNumber expected actual =>
    c!"Expected parameter #" ++ decimal expected ++ c!", found #" ++ decimal actual ++
      c!". Parameters must be numbered consecutively, starting at 1."
  | .macroParameterOutsideCustomCommand =>
    c!"Macro parameter found outside of custom command definition."
  | .expectedParamNumberGotEOI =>
    c!"Expected parameter number after '#', but reached end of input."
  | .hardLimitExceeded => c!"Hard limit exceeded. Please simplify your equation."
  | .tooManyExpansions =>
    c!"Too many expansions of custom commands. A command may be expanding to itself."
  | .internal =>
    c!"Internal parser error. Please report this bug at https://github.com/tmke8/math-core/issues"

/-- error.rs:379-383 `error_message` -/
def LatexError.errorMessage (e : LatexError) : Str := e.kind.msg
/-- error.rs:391-396 `to_message` -/
def LatexError.message (e : LatexError) (input : Str) : Str := toMessage e.start e.kind.msg input
/-- error.rs:360-376 `to_html` -/
def LatexError.html (e : LatexError) (latex : Str) (display : MathDisplay) (cls : Option Str) : Str :=
  toHtml e.start e.kind.msg latex display cls

end Verif.Model

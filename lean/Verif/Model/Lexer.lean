import Verif.Model.Error
import Verif.Model.Builtins
/-! Model of crates/math-core/src/lexer.rs. -/
namespace Verif.Model

/-- lexer.rs:20-25 `Lexer`. `rest` is what has not been consumed, beginning with the peeked
character, and `pos` is the byte offset at which it starts, so that `peek` is
`(pos, rest.head?)`. (At the end of the input, `peek.0` is `input_length`, which is then also the
value of `pos`.) The text slices taken out of `input_string` are represented by the characters
which were consumed. -/
structure Lexer where
  pos : Nat
  rest : Str
  deriving DecidableEq, Repr

/-- lexer.rs:315-318 -/
inductive LexerOutput
  | token (t : TokSpan)
  | commandName (name : Str) (span : Span)
  deriving Repr

namespace Lexer

/-- lexer.rs:29-38 `new` -/
def new (input : Str) : Lexer := ⟨0, input⟩

/-- lexer.rs:46-53 `read_char`: the peeked character and its position; the lexer moves on. -/
def readChar (l : Lexer) : (Nat × Option Char) × Lexer :=
  match l.rest with
  | [] => ((l.pos, none), l)
  | c :: cs => ((l.pos, some c), ⟨l.pos + c.utf8Size, cs⟩)

/-- The characters at the front which satisfy the predicate, and the lexer behind them; the common
part of the loops in lexer.rs:61-68, 78-80, 121-125 and 156-158. -/
def readWhile (p : Char → Bool) (pos : Nat) : Str → Str × Lexer
  | [] => ([], ⟨pos, []⟩)
  | c :: cs =>
    if p c then
      let (a, l) := readWhile p (pos + c.utf8Size) cs
      (c :: a, l)
    else ([], ⟨pos, c :: cs⟩)

/-- lexer.rs:59-70 `skip_whitespace` -/
def skipWhitespace (l : Lexer) : Option Span × Lexer :=
  match readWhile isAsciiWs l.pos l.rest with
  | ([], l') => (none, l')
  | (c :: _, l') => (some ⟨l.pos, l.pos + c.utf8Size⟩, l')

/-- lexer.rs:82-85, the optional star after the letters of a command name -/
def readStar (name : Str) (l : Lexer) : Str × Lexer :=
  match l.rest with
  | [] => (name, l)
  | c :: _ => if c = '*' then (name ++ c!"*", l.readChar.2) else (name, l)

/-- lexer.rs:74-96 `read_command`: the name, the end of the command, and the lexer. -/
def readCommand (l : Lexer) : Str × Nat × Lexer :=
  let (name, l1) := readWhile isAsciiAlpha l.pos l.rest
  let (name, l2) := readStar name l1
  if l2.pos = l.pos then
    match l2.readChar with
    | ((_, some c), l3) => ([c], l3.pos, l3)
    | ((_, none), l3) => ([], l3.pos, l3)
  else (name, l2.pos, l2)

/-- lexer.rs:122, the characters of an environment name -/
def isEnvChar (c : Char) : Bool := isAsciiAlpha c || isAsciiWs c || c == '*'

/-- lexer.rs:108-136 `read_env_name`: the name and the end of the group, or the offending
character (if any) and its span. -/
def readEnvName (l : Lexer) : Except (Option Char × Span) (Str × Nat × Lexer) :=
  match l.readChar with
  | ((_, some '{'), l1) =>
    let (name, l2) := readWhile isEnvChar l1.pos l1.rest
    match l2.readChar with
    | ((loc, some '}'), l3) => .ok (name, loc + 1, l3)
    | ((loc, some c), _) => .error (some c, ⟨loc, loc + c.utf8Size⟩)
    | ((loc, none), _) => .error (none, ⟨loc, loc⟩)
  | ((loc, some c), l1) =>
    if isAsciiAlpha c || c == '*' then .ok ([c], l1.pos, l1)
    else .error (some c, ⟨loc, loc + c.utf8Size⟩)
  | ((loc, none), _) => .error (none, ⟨loc, loc⟩)

/-- lexer.rs:270-304, the body of `parse_env_marker` for `\begin` and `\end` -/
def envMarker (l : Lexer) (span : Span) (mk : Env → Token) :
    Except LatexError (LexerOutput × Lexer) :=
  let l := l.skipWhitespace.2
  let groupLoc := l.pos
  match l.readEnvName with
  | .error (none, s) => .error (s.err (.unclosedGroup .groupClose))
  | .error (some c, s) => .error (s.err (.disallowedChar c))
  | .ok (name, stop, l') =>
    match Env.fromStr name with
    | none => .error ⟨groupLoc, stop, .unknownEnvironment name⟩
    | some env => .ok (.token ⟨mk env, ⟨span.start, stop⟩⟩, l')

/-- lexer.rs:258-309 `parse_env_marker` -/
def parseEnvMarker (l : Lexer) (span : Span) (cmd : Str) :
    Except LatexError (LexerOutput × Lexer) :=
  if cmd = c!"begin" then l.envMarker span .beginEnv
  else if cmd = c!"end" then l.envMarker span .endEnv
  else .ok (.commandName cmd span, l)

/-- The letter token for a character which is its own letter. -/
def letterTok (c : Char) : Token := .letter (SuperChar.fromChar c) .mathOrText

/-- lexer.rs:175, 212-241 and 249-253: the tokens made of a single character, apart from `#` and
`\`. (The arm in line 174 is for the ASCII space, which has been skipped by then.) -/
def charToken (c : Char) : Token :=
  match c with
  | '"' => letterTok Sym.RIGHT_DOUBLE_QUOTATION_MARK
  | '$' => .dollar
  | '&' => .newColumn
  | '\'' => .mathOrTextMode (.prime .single) '’'
  | '<' => .mathOrTextMode (.relation Sym.LESS_THAN_SIGN) '<'
  | '>' => .mathOrTextMode (.relation Sym.GREATER_THAN_SIGN) '>'
  | '[' => .squareBracketOpen
  | ']' => .squareBracketClose
  | '^' => .circumflex
  | '_' => .underscore
  | '`' => letterTok Sym.LEFT_SINGLE_QUOTATION_MARK
  | '{' => .groupBegin
  | '}' => .groupEnd
  | '~' => .nonBreakingSpace
  | '!' => .mathOrTextMode (.closing Sym.EXCLAMATION_MARK) '!'
  | '(' => .mathOrTextMode (.opening Sym.LEFT_PARENTHESIS) '('
  | ')' => .mathOrTextMode (.closing Sym.RIGHT_PARENTHESIS) ')'
  | '*' => .mathOrTextMode (.forceBinaryOp Sym.ASTERISK_OPERATOR.asOp) '*'
  | '+' => .mathOrTextMode (.binaryOp Sym.PLUS_SIGN) '+'
  | ',' => .mathOrTextMode (.punctuation Sym.COMMA) ','
  | '-' => .mathOrTextMode (.binaryOp Sym.MINUS_SIGN) '-'
  | '/' => .mathOrTextMode (.ord Sym.SOLIDUS) '/'
  | ':' => .mathOrTextMode (.forceRelation Sym.COLON.asOp) ':'
  | ';' => .mathOrTextMode (.punctuation Sym.SEMICOLON) ';'
  | '=' => .mathOrTextMode (.relation Sym.EQUALS_SIGN) '='
  | '|' => .mathOrTextMode (.ord Sym.VERTICAL_LINE) '|'
  | c =>
    if isAsciiDigit c then .digit c
    else if isAsciiAlpha c then letterTok c
    else match getOperatorFromUnicode c with
      | some tok => tok
      | none => letterTok c

/-- lexer.rs:179-211, the parameter after a `#` at `loc` -/
def paramToken (l : Lexer) (loc : Nat) : Except LatexError (LexerOutput × Lexer) :=
  match l.rest with
  | [] => .error ⟨l.pos, l.pos, .expectedParamNumberGotEOI⟩
  | d :: _ =>
    if isAsciiDigit d then
      if '1' ≤ d then
        .ok (.token ⟨.customCmdArgInput (d.toNat - '1'.toNat), ⟨loc, loc + 2⟩⟩, l.readChar.2)
      else .error ⟨loc + 1, loc + 2, .invalidParameterNumber⟩
    else .error ⟨l.pos, l.pos + d.utf8Size, .invalidParameterNumber⟩

/-- lexer.rs:166-255, the token which begins with the character `ch` at `loc` (not whitespace, not
a `%`); the lexer is behind the character. -/
def tokenAt (l : Lexer) (loc : Nat) (ch : Char) : Except LatexError (LexerOutput × Lexer) :=
  if ch = '\x00' then .error ⟨loc, loc + 1, .disallowedChar ch⟩
  else if ch = '#' then l.paramToken loc
  else if ch = '\\' then
    let (cmd, stop, l1) := l.readCommand
    l1.skipWhitespace.2.parseEnvMarker ⟨loc, stop⟩ cmd
  else .ok (.token ⟨charToken ch, ⟨loc, loc + ch.utf8Size⟩⟩, l)

/-- lexer.rs:155-162, the lexer behind a comment whose `%` has been read -/
def skipComment (l : Lexer) : Lexer :=
  ((readWhile (· != '\n') l.pos l.rest).2).readChar.2.skipWhitespace.2

/-- lexer.rs:142-256 `next_token`, with fuel for the recursion after comments -/
def nextTokenFuel : Nat → Lexer → Except LatexError (LexerOutput × Lexer)
  | 0, l => .ok (.token ⟨.eoi, .zeroWidth l.pos⟩, l)
  | fuel + 1, l =>
    match l.skipWhitespace with
    | (some span, l) => .ok (.token ⟨.whitespace, span⟩, l)
    | (none, l) =>
      match l.readChar with
      | ((loc, none), l) => .ok (.token ⟨.eoi, .zeroWidth loc⟩, l)
      | ((loc, some ch), l) =>
        if ch = '%' then nextTokenFuel fuel l.skipComment
        else l.tokenAt loc ch

/-- lexer.rs:142-256 `next_token`. Every comment is at least one character long, so the fuel is
enough (`nextTokenFuel_enough`). -/
def nextToken (l : Lexer) : Except LatexError (LexerOutput × Lexer) :=
  nextTokenFuel (l.rest.length + 1) l

end Lexer

/-- lexer.rs:326-342 `recover_limited_ascii` -/
def recoverLimitedAscii : Token → Option Char
  | .letter s _ =>
    match s.tryAsChar with
    | some c => if isAsciiAlpha c || c == '.' || c == '?' || c == '@' then some c else none
    | none => none
  | .digit c => if isAscii c && !(c == '&' || c == '{' || c == '}') then some c else none
  | .mathOrTextMode _ c => if isAscii c && !(c == '&' || c == '{' || c == '}') then some c else none
  | .whitespace => some ' '
  | _ => none

end Verif.Model

import Verif.Spec.Expansion
import Verif.Spec.Preamble
import Verif.Model.Predefined
import Verif.Spec.Lexing
import Verif.Spec.Session
/-! Proper nesting of groups, `\left … \right` and environments. -/
namespace Verif.Spec
open Model

/-! ### Nesting -/

/-- What can be open -/
inductive Opener
  /-- a group in braces -/
  | group
  /-- `\left` -/
  | left
  /-- `\begin` -/
  | env (e : Env)
  deriving DecidableEq

/-- The environments with columns -/
def hasColumns : Env → Bool
  | .array | .dArray | .subarray | .align | .alignStar | .aligned | .cases | .rCases | .dCases | .drCases
  | .matrix | .bMatrix | .Bmatrix | .pMatrix | .vMatrix | .Vmatrix => true
  | .equation | .equationStar | .gather | .gatherStar | .gathered | .multLine => false

/-- Does the innermost open environment have columns? -/
def inColumns : List Opener → Bool
  | [] => false
  | .env e :: _ => hasColumns e
  | _ :: st => inColumns st

/-- What is open after a token, the innermost first; `none` if the token may not stand there: it closes something else
than what was opened last, or it is an `&` which is not in an environment with columns. -/
def nestStep : List Opener → Token → Option (List Opener)
  | st, .groupBegin => some (.group :: st)
  | st, .left => some (.left :: st)
  | st, .beginEnv e => some (.env e :: st)
  | .group :: st, .groupEnd => some st
  | .left :: st, .right => some st
  | .env e :: st, .endEnv e' => if e' = e then some st else none
  | _, .groupEnd | _, .right | _, .endEnv _ => none
  | st, .newColumn => if inColumns st then some st else none
  | st, _ => some st

/-- What is open after some tokens -/
def nest : List Opener → List Token → Option (List Opener)
  | st, [] => some st
  | st, t :: ts => (nestStep st t).bind fun st => nest st ts

/-- Everything is properly nested. -/
def Nested (w : List Token) : Prop := nest [] w = some []

/-! ### Commands for text -/

/-- A command which makes text of its argument -/
def isTextCmd : Token → Bool
  | .text _ | .textMode (.style _) | .operatorName _ => true
  | _ => false

/-- A command for text, with everything which comes before its text; for `\raisebox`, this includes a length. -/
inductive TextHead : List Token → Prop
  | cmd {t} : isTextCmd t = true → TextHead [t]
  | raise {t} : t ≠ .groupBegin → TextHead [.raiseBox, t]
  | raiseGroup {l} : (∀ t ∈ l, t ≠ .groupBegin ∧ t ≠ .groupEnd) → TextHead (.raiseBox :: .groupBegin :: (l ++ [.groupEnd]))

/-- Apart from whitespace, the text of a command for text never begins with another such command without a brace before
it, as in `\text\textbf{a}`. -/
def TextArgs (w : List Token) : Prop :=
  ∀ pre hd t post, w.filter (fun t => !t.isWs) = pre ++ (hd ++ t :: post) → TextHead hd →
    isTextCmd t = false ∧ t ≠ .raiseBox

/-! ### Macros and definitions -/

/-- The commands which make definitions -/
def isDefinition : Token → Bool
  | .newCommand _ | .letCmd | .defCmd _ | .globalPrefix => true
  | _ => false

/-- The tokens which stand for other tokens -/
def isMacro : Token → Bool
  | .customCmd .. | .customCmdRef .. | .dots | .mathChoice | .mathChoiceInternal .. => true
  | _ => false

/-- What a token stands for, with some tokens after it and the position of the call: these tokens, before the rest of
the stream -/
inductive Replaced (cfg : ParserConfig) (st : CmdStores) (u : Stream) (span : Span) :
    Token → List QueuedTok → Stream → Prop
  /-- a macro, with its arguments -/
  | macro {src n cls start stop body args rest} : st.getBody src start stop = some body → ArgsAt n u args rest →
      Replaced cfg st u span (.customCmdRef src n cls start stop) (expansion (known cfg st) args span body) rest
  /-- a macro which is built in -/
  | builtin {n body args rest} : ArgsAt n u args rest →
      Replaced cfg st u span (.customCmd n body) (expansion (known cfg st) args span (body.map .token)) rest
  /-- `\mathchoice`: one of its four arguments -/
  | choice {args rest i} : ArgsAt 4 u args rest → i < 4 → Replaced cfg st u span .mathChoice (argument args span i) rest
  /-- `\dots`: three dots -/
  | dots {toks} : toks = Pre.DOTS ∨ toks = Pre.CDOTS → Replaced cfg st u span .dots (toks.map Token.queued) u
  /-- one of four tokens -/
  | choiceInternal {cls d t s ss x} : x = d ∨ x = t ∨ x = s ∨ x = ss →
      Replaced cfg st u span (.mathChoiceInternal cls d t s ss) [⟨x, span, none⟩] u

/-- What can be recorded for the body of a macro with this number of parameters, if it is made of these tokens -/
def Recorded (l : List QueuedTok) (arity : Nat) : RecordedToken → Prop
  | .commandName _ => True
  | .token (.customCmdArg i) => i < arity ∨ ∃ t ∈ l, ∃ keep, (asRead keep t).tok = .customCmdArg i
  | .token tok => ∃ t ∈ l, ∃ keep, (asRead keep t).tok = tok

/-- A definition which is made of these tokens: `st'` are the commands known after it. -/
def Defined (st : CmdStores) (l : List QueuedTok) (st' : CmdStores) : Prop :=
  st' = st ∨ ∃ name arity body cls replace isGlobal, arity ≤ 9 ∧ (∀ r ∈ body, Recorded l arity r) ∧
    st.define name arity body cls replace isGlobal = some st'

/-- A stream after a definition: only tokens from command names can have changed, and they have a meaning which the name
of a command has now. -/
def Renamed (cfg : ParserConfig) (st : CmdStores) (u u' : Stream) : Prop :=
  ∀ i, u' i = u i ∨ ∃ t tok name, u i = .ok t ∧ u' i = .ok (t.withToken tok) ∧
    (t.name = some name ∨ t.tok = .unresolvedCommand name) ∧
    (known cfg st name = some tok ∨ tok = .unresolvedCommand name)

/-- From the definitions `st` and the stream `u`, one gets to `st'` and `u'` by reading the tokens `w`, replacing macros
by what they stand for and making definitions. -/
inductive Unfolds (cfg : ParserConfig) : CmdStores → Stream → List Token → CmdStores → Stream → Prop
  | nil {st u} : Unfolds cfg st u [] st u
  /-- Read a token, in math mode or in text mode. -/
  | read {st u t w st' u'} (keep : Bool) : u 0 = .ok t → isMacro (asRead keep t).tok = false →
      isDefinition (asRead keep t).tok = false → (asRead keep t).tok ≠ .eoi → Unfolds cfg st (u.drop 1) w st' u' →
      Unfolds cfg st u ((asRead keep t).tok :: w) st' u'
  /-- Replace a macro. -/
  | expand {st u p t ts rest w st' u'} : FirstAt u NonWs p t →
      Replaced cfg st (u.drop (p + 1)) t.span t.tok.unwrapMath ts rest → Unfolds cfg st (rest.push ts) w st' u' →
      Unfolds cfg st u w st' u'
  /-- Make a definition. -/
  | define {st u p t l st1 u1 w st' u'} : FirstAt u NonWs p t → isDefinition t.tok.unwrapMath = true →
      StartsWith (u.drop (p + 1)) l → Defined st l st1 → Renamed cfg st1 (u.drop (p + 1 + l.length)) u1 →
      Unfolds cfg st1 u1 w st' u' → Unfolds cfg st u w st' u'

/-! ### Sources -/

/-- The tokens of a source, where these commands are known -/
def sourceStream (cfg : ParserConfig) (st : CmdStores) (src : Str) : Stream := fun i =>
  (nthLexed i (Lexer.new src)).map (resolveLexed cfg st)

/-- There is nothing left but whitespace. -/
def AtEnd (u : Stream) : Prop := ∃ p t, FirstAt u NonWs p t ∧ t.tok = .eoi

/-- The tokens which a list of tokens read from a source stands for, in math mode -/
def mathTokens (cfg : ParserConfig) (st : CmdStores) (l : List LexerOutput) : List Token :=
  l.map fun o => (resolveLexed cfg st o).tok.unwrapMath

/-- A call which converts one source, with the definitions known to it at the beginning -/
inductive ConvertsOne (c : Converter) : Call → Str → CmdStores → Prop
  | withGlobalState {src display} :
      ConvertsOne c (.withGlobalState src display) src ⟨c.parserCfg.customCmds, c.state.customCmds, {}⟩
  | withLocalState {src display} : ConvertsOne c (.withLocalState src display) src ⟨c.parserCfg.customCmds, {}, {}⟩

end Verif.Spec

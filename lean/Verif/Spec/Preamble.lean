import Verif.Spec.Source
/-! Definitions in the source of a snippet: how they are written and what they do to the commands which are known. -/
namespace Verif.Spec
open Model

/-- The token of something which was read, with these definitions in force -/
def tokOf (cfg : ParserConfig) (st : CmdStores) (o : LexerOutput) : Token := (resolveLexed cfg st o).tok

/-- Whitespace -/
def Blanks (l : List LexerOutput) : Prop := ∀ o ∈ l, isWs o = true

/-- What a command name means, if anything -/
abbrev known (cfg : ParserConfig) (st : CmdStores) (name : Str) : Option Token := st.resolveCommand cfg.builtin name

/-- The name which is defined by `\newcommand` and its relatives: `\name` or `{\name}` -/
inductive NamePart (cfg : ParserConfig) (st : CmdStores) : Str → List LexerOutput → Prop
  | plain {w name sp} : Blanks w → tokOf cfg st (.commandName name sp) ≠ .groupBegin →
      NamePart cfg st name (w ++ [.commandName name sp])
  | braced {w lb w' name sp w'' rb} : Blanks w → tokOf cfg st lb = .groupBegin → Blanks w' → Blanks w'' →
      tokOf cfg st rb = .groupEnd →
      NamePart cfg st name (w ++ lb :: (w' ++ .commandName name sp :: (w'' ++ [rb])))

/-- The number of arguments: nothing, or one digit in square brackets -/
inductive ArityPart (cfg : ParserConfig) (st : CmdStores) : Nat → List LexerOutput → Prop
  | none : ArityPart cfg st 0 []
  | some {w lb w' d c w'' rb} : Blanks w → tokOf cfg st lb = .squareBracketOpen → Blanks w' →
      tokOf cfg st d = .digit c → isAsciiDigit c = true → Blanks w'' → tokOf cfg st rb = .squareBracketClose →
      ArityPart cfg st (c.toNat - '0'.toNat) (w ++ lb :: (w' ++ d :: (w'' ++ [rb])))

/-- A group in braces, with what is in it -/
inductive GroupPart (cfg : ParserConfig) (st : CmdStores) : List LexerOutput → List LexerOutput → Prop
  | mk {lb body rb} : tokOf cfg st lb = .groupBegin → tokOf cfg st rb = .groupEnd →
      braceDepth 0 (body.map (tokOf cfg st)) = some 0 → (∀ o ∈ body, tokOf cfg st o ≠ .eoi) →
      GroupPart cfg st body (lb :: (body ++ [rb]))

/-- The same in math mode -/
def inMathMode : LexerOutput → LexerOutput
  | .token t => .token ⟨t.tok.unwrapMath, t.span⟩
  | o => o

/-- The body of a definition by `\newcommand`: a group in braces, or one token -/
inductive BodyPart (cfg : ParserConfig) (st : CmdStores) : List LexerOutput → List LexerOutput → Prop
  | group {w body l} : Blanks w → GroupPart cfg st body l → BodyPart cfg st body (w ++ l)
  | single {w o} : Blanks w → isWs o = false → tokOf cfg st o ≠ .groupBegin → tokOf cfg st o ≠ .squareBracketOpen →
      tokOf cfg st o ≠ .eoi → Named (tokOf cfg st o) = true → BodyPart cfg st [inMathMode o] (w ++ [o])

/-- The parameters `#1#2…` of a definition by `\def` -/
def ParamsPart (cfg : ParserConfig) (st : CmdStores) (n : Nat) (l : List LexerOutput) : Prop :=
  l.map (tokOf cfg st) = (List.range n).map .customCmdArgInput

/-- An optional equals sign -/
inductive EqualsPart (cfg : ParserConfig) (st : CmdStores) : List LexerOutput → Prop
  | none : EqualsPart cfg st []
  | some {w o} : Blanks w → (tokOf cfg st o).unwrapMath = .relation Sym.EQUALS_SIGN → EqualsPart cfg st (w ++ [o])

/-- Any number of `\global` -/
inductive GlobalPart (cfg : ParserConfig) (st : CmdStores) : List LexerOutput → Prop
  | nil : GlobalPart cfg st []
  | cons {w o l} : Blanks w → tokOf cfg st o = .globalPrefix → GlobalPart cfg st l → GlobalPart cfg st (w ++ o :: l)

/-- What is recorded for one thing in the body of a definition with this number of parameters: commands are recorded by
their name, so that they are looked up when the macro is used, and definitions may not be nested. -/
def recordOne (cfg : ParserConfig) (st : CmdStores) (n : Nat) : LexerOutput → Except LatexErrKind RecordedToken
  | .commandName name _ =>
    match known cfg st name with
    | some (.newCommand _) | some .letCmd | some (.defCmd _) | some .globalPrefix => .error .cannotBeUsedAsArgument
    | _ => .ok (.commandName name)
  | .token ⟨.customCmdArgInput i, _⟩ =>
    if i < n then .ok (.token (.customCmdArg i)) else .error (.parameterNumberOutOfRange n (i + 1))
  | .token t => .ok (.token t.tok)

/-- What is recorded for a body -/
def recordAll (cfg : ParserConfig) (st : CmdStores) (n : Nat) (body : List LexerOutput) :
    Except LatexErrKind (List RecordedToken) := body.mapM (recordOne cfg st n)

/-- The class of a body: that of the first thing in it which has one -/
def bodyClass (cfg : ParserConfig) (st : CmdStores) (body : List LexerOutput) : Option Class :=
  body.findSome? fun o => (tokOf cfg st o).cls

/-- A definition -/
structure Defn where
  /-- how an existing definition of the same name is treated; `none`: it is replaced -/
  mode : Option DefineMode
  name : Str
  arity : Nat
  /-- the body, or what is wrong with it -/
  body : Except LatexErrKind (List RecordedToken)
  cls : Option Class
  /-- is it for the whole session? -/
  isGlobal : Bool

/-- Not a macro of this snippet -/
def NotLocalRef : Token → Prop
  | .customCmdRef .loc .. => False
  | _ => True

/-- The things which were read are a definition. -/
inductive Defines (cfg : ParserConfig) (st : CmdStores) : List LexerOutput → Defn → Prop
  /-- `\newcommand`, `\renewcommand`, `\providecommand` -/
  | command {w c mode name p n a body b} : Blanks w → tokOf cfg st c = .newCommand mode → NamePart cfg st name p →
      ArityPart cfg st n a → BodyPart cfg st body b →
      Defines cfg st (w ++ c :: (p ++ (a ++ b)))
        ⟨some mode, name, n, recordAll cfg st n body, bodyClass cfg st body, cfg.globalGroup⟩
  /-- `\def`, `\gdef`, with any number of `\global` in front -/
  | definition {gl w c g w' name sp w'' n ps body b} : GlobalPart cfg st gl → Blanks w → tokOf cfg st c = .defCmd g →
      Blanks w' → Blanks w'' → ParamsPart cfg st n ps → GroupPart cfg st body b →
      Defines cfg st (gl ++ (w ++ c :: (w' ++ .commandName name sp :: (w'' ++ (ps ++ b)))))
        ⟨none, name, n, recordAll cfg st n body, bodyClass cfg st body, g || !gl.isEmpty || cfg.globalGroup⟩
  /-- `\let`, with any number of `\global` in front -/
  | letTok {gl w c w' name sp e w'' o} : GlobalPart cfg st gl → Blanks w → tokOf cfg st c = .letCmd →
      Blanks w' → EqualsPart cfg st e → Blanks w'' → isWs o = false → tokOf cfg st o ≠ .eoi →
      Named (tokOf cfg st o) = true → (e = [] → (tokOf cfg st o).unwrapMath ≠ .relation Sym.EQUALS_SIGN) →
      (!gl.isEmpty || cfg.globalGroup → NotLocalRef (tokOf cfg st o).unwrapMath) →
      Defines cfg st (gl ++ (w ++ c :: (w' ++ .commandName name sp :: (e ++ (w'' ++ [o])))))
        ⟨none, name, 0, .ok [.token (tokOf cfg st o).unwrapMath], (tokOf cfg st o).cls, !gl.isEmpty || cfg.globalGroup⟩

/-- The commands which are known after a definition -/
def withDefinition (st : CmdStores) (name : Str) (arity : Nat) (body : List RecordedToken) (cls : Option Class)
    (isGlobal : Bool) : CmdStores :=
  if isGlobal then
    { st with
      document := ⟨st.document.tokens ++ body, st.document.map.insert name
        ⟨arity, cls, st.document.tokens.length, st.document.tokens.length + body.length⟩⟩
      loc := { st.loc with map := st.loc.map.remove name } }
  else
    { st with
      loc := ⟨st.loc.tokens ++ body, st.loc.map.insert name
        ⟨arity, cls, st.loc.tokens.length, st.loc.tokens.length + body.length⟩⟩ }

/-- The effect of a definition: the commands which are known afterwards, or an error -/
def Defn.effect (d : Defn) (cfg : ParserConfig) (st : CmdStores) : Except LatexErrKind CmdStores :=
  match d.mode, known cfg st d.name with
  | some .new, some _ => .error .commandAlreadyDefined
  | some .renew, none => .error .commandNotDefined
  | some .provide, some _ => d.body.map fun _ => st
  | _, _ => d.body.map fun body => withDefinition st d.name d.arity body d.cls d.isGlobal

/-- Definitions at the beginning of a snippet, and the commands which are known after them; or an error, in which case
it does not matter what follows. -/
inductive Preamble (cfg : ParserConfig) : CmdStores → List LexerOutput → Except LatexErrKind CmdStores → Prop
  | nil {st} : Preamble cfg st [] (.ok st)
  | cons {st l d st' rest r} : Defines cfg st l d → d.effect cfg st = .ok st' → Preamble cfg st' rest r →
      Preamble cfg st (l ++ rest) r
  | fail {st l d e rest} : Defines cfg st l d → d.effect cfg st = .error e → Preamble cfg st (l ++ rest) (.error e)

/-- The source can be tokenised and begins with definitions; `r` are the commands which are known after them (or the
error they lead to), `rest` is what was read after them. -/
def BeginsWith (cfg : ParserConfig) (g : GlobalState) (src : Str) (r : Except LatexErrKind CmdStores)
    (rest : List LexerOutput) : Prop :=
  ∃ pre, tokensOf src = (pre ++ rest, none) ∧ Preamble cfg ⟨cfg.customCmds, g.customCmds, {}⟩ pre r

end Verif.Spec

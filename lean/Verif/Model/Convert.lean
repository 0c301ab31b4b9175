import Verif.Model.Parser
/-! Model of the public interface in crates/math-core/src/lib.rs. -/
namespace Verif.Model

/-- lib.rs:191-232 `MathCoreConfig`. `fmt` is not part of the Rust type: it is how `dtoa`, an external
crate, writes a number. Of the CSS classes, only the one for unknown commands is used. -/
structure MathCoreConfig where
  prettyPrint : PrettyPrint := .never
  macros : List (Str × Str) := []
  xmlNamespace : Bool := false
  ignoreUnknownCommands : Bool := false
  annotation : Bool := false
  allowUnreliableRendering : Bool := false
  globalGroup : Bool := false
  unicodeSubstitution : UnicodeSubstitution := .conventional
  unknownClass : Str
  indentation : Indentation
  maxExpansions : Nat := 1000
  idPrefix : Str := []
  fmt : Rat → Str

/-- lib.rs:247-254 `EmitterConfig`, without the label map, which is an argument of `emit` -/
structure EmitFlags where
  prettyPrint : PrettyPrint
  xmlNamespace : Bool
  annotation : Bool
  unknownClass : Str
  indentation : Indentation
  idPrefix : Str
  fmt : Rat → Str

/-- lib.rs:442-448 and 466-472: the configuration of the emitter for a given label map -/
def EmitFlags.withLabels (f : EmitFlags) (labels : StrMap Str) : EmitterConfig where
  prettyPrint := f.prettyPrint
  xmlNamespace := f.xmlNamespace
  annotation := f.annotation
  emitter := ⟨labels.get, f.unknownClass, f.indentation, f.idPrefix, f.fmt⟩

/-- lib.rs:236-243 `ParserConfig`, all fields -/
structure SnippetConfig extends ParserConfig where
  maxExpansions : Nat := 1000

/-- lib.rs:278-282 `LatexToMathML` -/
structure Converter where
  emitterCfg : EmitFlags
  state : GlobalState
  parserCfg : SnippetConfig

/-! ### The macros of the configuration -/

/-- What `parse_custom_commands` has collected while it reads the definition of one macro -/
structure MacroBody where
  body : List RecordedToken := []
  numArgs : Nat := 0
  firstClass : Option Class := none
  unresolved : List (Str × Span) := []

/-- lib.rs:563-597: the tokens of one definition -/
def macroBodyLoop (builtin : Str → Option Token) : Nat → Lexer → MacroBody → Except LatexError MacroBody
  | 0, _, acc => .ok acc
  | fuel + 1, lexer, acc =>
    match lexer.nextToken with
    | .error e => .error e
    | .ok (.commandName name span, lexer) =>
      let acc : MacroBody := { acc with body := acc.body ++ [RecordedToken.commandName name] }
      match builtin name with
      | some tok => macroBodyLoop builtin fuel lexer { acc with firstClass := acc.firstClass.or tok.cls }
      | none => macroBodyLoop builtin fuel lexer { acc with unresolved := acc.unresolved ++ [(name, span)] }
    | .ok (.token t, lexer) =>
      match t.tok with
      | .eoi => .ok acc
      | .customCmdArgInput n =>
        macroBodyLoop builtin fuel lexer
          { acc with body := acc.body ++ [.token (.customCmdArg n)], numArgs := max acc.numArgs (n + 1) }
      | tok =>
        macroBodyLoop builtin fuel lexer
          { acc with body := acc.body ++ [.token tok], firstClass := acc.firstClass.or tok.cls }

/-- lib.rs:561-601: read one definition. Every token but the last consumes input, so the fuel is
enough. -/
def macroBody (builtin : Str → Option Token) (definition : Str) : Except LatexError MacroBody :=
  macroBodyLoop builtin (definition.length + 1) (Lexer.new definition) {}

/-- lib.rs `MacroParseError`: the error, the index of the macro, and its definition -/
abbrev MacroParseError := LatexError × Nat × Str

/-- lib.rs:547-610: read the macros from index `idx` on. -/
def readMacros (builtin : Str → Option Token) :
    Nat → List (Str × Str) → CustomCmds → List (Nat × Str × Span) →
    Except MacroParseError (CustomCmds × List (Nat × Str × Span))
  | _, [], cmds, unresolved => .ok (cmds, unresolved)
  | idx, (name, definition) :: rest, cmds, unresolved =>
    if !isValidMacroName name then
      .error (Span.err ⟨0, 0⟩ (.invalidMacroName name), idx, definition)
    else match macroBody builtin definition with
      | .error e => .error (e, idx, definition)
      | .ok m =>
        readMacros builtin (idx + 1) rest (cmds.insert name m.numArgs m.body m.firstClass).2
          (unresolved ++ m.unresolved.map fun (n, s) => (idx, n, s))

/-- lib.rs:612-621: the first name which is not defined by any macro -/
def firstUndefined (cmds : CustomCmds) : List (Nat × Str × Span) → Option (Nat × Str × Span)
  | [] => none
  | (idx, name, span) :: rest =>
    if (cmds.get name .config).isNone then some (idx, name, span) else firstUndefined cmds rest

/-- lib.rs:528-623 `parse_custom_commands` -/
def parseCustomCommands (macros : List (Str × Str)) (unicode : UnicodeSubstitution) (unreliable : Bool) :
    Except MacroParseError CustomCmds :=
  match readMacros (resolveBuiltinCmd unreliable unicode) 0 macros {} [] with
  | .error e => .error e
  | .ok (cmds, unresolved) =>
    match firstUndefined cmds unresolved with
    | some (idx, name, span) =>
      .error (span.err (.unknownCommand name), idx, (macros[idx]?.map (·.2)).getD [])
    | none => .ok cmds

/-- lib.rs:290-309 `LatexToMathML::new` -/
def Converter.new (config : MathCoreConfig) : Except MacroParseError Converter :=
  match parseCustomCommands config.macros config.unicodeSubstitution config.allowUnreliableRendering with
  | .error e => .error e
  | .ok cmds => .ok
    { emitterCfg :=
        { prettyPrint := config.prettyPrint, xmlNamespace := config.xmlNamespace,
          annotation := config.annotation, unknownClass := config.unknownClass,
          indentation := config.indentation, idPrefix := config.idPrefix, fmt := config.fmt }
      state := {}
      parserCfg :=
        { customCmds := cmds, ignoreUnknownCommands := config.ignoreUnknownCommands,
          allowUnreliableRendering := config.allowUnreliableRendering,
          globalGroup := config.globalGroup, unicodeSubstitution := config.unicodeSubstitution,
          maxExpansions := config.maxExpansions } }

/-! ### Conversion -/

/-- lib.rs:509-512 -/
def MathDisplay.style : MathDisplay → Style
  | .inline => .text
  | .block => .display

/-- lib.rs:502-517 `parse`; the state afterwards is the global state, which is also kept if there is
an error. -/
def parseSnippet (fuel : Nat) (cfg : SnippetConfig) (g : GlobalState) (latex : Str)
    (display : MathDisplay) : Res GlobalState (List Node) :=
  match TokenQueue.new cfg.toParserConfig latex g with
  | .ok _ q =>
    match parse fuel cfg.toParserConfig (initialState cfg.maxExpansions q display.style) with
    | .ok nodes s => .ok nodes s.q.globalState
    | .err e s => .err e s.q.globalState
    | .panic => .panic
    | .fuel => .fuel
  | .err e q => .err e q.globalState
  | .panic => .panic
  | .fuel => .fuel

/-- lib.rs:425-494 `emit`: the document, and the warnings -/
def emitSnippet (flags : EmitFlags) (labels : StrMap Str) (latex : Str) (display : MathDisplay)
    (ast : List Node) : Out :=
  emitDocument (flags.withLabels labels) ast latex display

/-- lib.rs:413-423 `convert` -/
def convert (fuel : Nat) (cfg : SnippetConfig) (flags : EmitFlags) (g : GlobalState) (latex : Str)
    (display : MathDisplay) : Res GlobalState Out :=
  match parseSnippet fuel cfg g latex display with
  | .ok ast g => .ok (emitSnippet flags g.labelMap latex display ast) g
  | .err e g => .err e g
  | .panic => .panic
  | .fuel => .fuel

/-- What the caller of a conversion sees -/
inductive Outcome (α : Type)
  | ok (a : α)
  | err (e : LatexError)
  | panic
  | fuel

/-- Forget the state. -/
def Res.outcome {σ α : Type} : Res σ α → Outcome α
  | .ok a _ => .ok a
  | .err e _ => .err e
  | .panic => .panic
  | .fuel => .fuel

/-- The state afterwards, if the call returns -/
def Res.stateOr {σ α : Type} (s : σ) : Res σ α → σ
  | .ok _ s | .err _ s => s
  | .panic | .fuel => s

namespace Converter

/-- lib.rs:319-331 `convert_with_global_state` -/
def convertWithGlobalState (fuel : Nat) (c : Converter) (latex : Str) (display : MathDisplay) :
    Outcome Out × Converter :=
  let r := convert fuel c.parserCfg c.emitterCfg c.state latex display
  (r.outcome, { c with state := r.stateOr c.state })

/-- lib.rs:351-364 `convert_with_local_state` -/
def convertWithLocalState (fuel : Nat) (c : Converter) (latex : Str) (display : MathDisplay) :
    Outcome Out :=
  (convert fuel c.parserCfg c.emitterCfg {} latex display).outcome

/-- lib.rs:369-373 `reset_global_state` -/
def resetGlobalState (c : Converter) : Converter :=
  { c with state := { equationCount := 0, labelMap := [], customCmds := c.state.customCmds.clear } }

/-- lib.rs:386-395: parse all snippets, one after the other. -/
def parseAll (fuel : Nat) (cfg : SnippetConfig) :
    GlobalState → List (Str × MathDisplay) → List (Outcome (List Node)) × GlobalState
  | g, [] => ([], g)
  | g, (latex, display) :: rest =>
    let r := parseSnippet fuel cfg g latex display
    let (outs, g') := parseAll fuel cfg (r.stateOr g) rest
    (r.outcome :: outs, g')

/-- lib.rs:396-409: emit one of them. -/
def emitResult (flags : EmitFlags) (labels : StrMap Str) (latex : Str) (display : MathDisplay) :
    Outcome (List Node) → Outcome Out
  | .ok ast => .ok (emitSnippet flags labels latex display ast)
  | .err e => .err e
  | .panic => .panic
  | .fuel => .fuel

/-- lib.rs:382-410 `convert_all` -/
def convertAll (fuel : Nat) (c : Converter) (snippets : List (Str × MathDisplay)) :
    List (Outcome Out) :=
  let (asts, g) := parseAll fuel c.parserCfg {} snippets
  List.zipWith (fun (latex, display) ast => emitResult c.emitterCfg g.labelMap latex display ast)
    snippets asts

end Converter
end Verif.Model

import Verif.Spec.Answers
/-! Which commands are mentioned in a source, and in the stored bodies of macros. -/
namespace Verif.Spec
open Verif.Model

/-- The text begins with this name, and neither a letter nor a star follows. -/
def namedAt (name text : Str) : Bool :=
  name.isPrefixOf text &&
    match text.drop name.length with
    | [] => true
    | c :: _ => !isAsciiAlpha c && c != '*'

/-- The command is mentioned in the source: somewhere there is a backslash and then its name, and neither a letter nor a
star follows. (This need not be a use of the command, for example if it is in a comment.) -/
def mentions (name : Str) : Str → Bool
  | [] => false
  | c :: cs => (c == '\\' && namedAt name cs) || mentions name cs

/-- None of these commands is mentioned in the source. -/
def Avoids (names : List Str) (source : Str) : Prop := ∀ name ∈ names, mentions name source = false

/-- The sources with which a converter deals: the definitions of the macros in the configuration, and what it converts -/
def allSources (config : MathCoreConfig) (calls : List Call) : List Str :=
  config.macros.map (·.2) ++ calls.flatMap Call.sources

/-- The commands for global definitions -/
def globalCommands : List Str := [c!"global", c!"gdef"]

mutual
/-- The token is a command for global definitions, or there is one inside of it. -/
def globalIn : Token → Bool
  | .globalPrefix => true
  | .defCmd isGlobal => isGlobal
  | .unresolvedCommand name => globalCommands.contains name
  | .mathOrTextMode t _ => globalIn t
  | .mathChoiceInternal _ d t s ss => globalIn d || globalIn t || globalIn s || globalIn ss
  | .customCmd _ body => globalInAny body
  | _ => false
/-- See `globalIn`. -/
def globalInAny : List Token → Bool
  | [] => false
  | t :: ts => globalIn t || globalInAny ts
end

/-- There is a command for global definitions in the stored body of a macro. -/
def storesGlobal (c : CustomCmds) : Bool :=
  c.tokens.any fun
    | .token t => globalIn t
    | .commandName name => globalCommands.contains name

end Verif.Spec

import Verif.Model.Convert
import Verif.Spec.Lexing
/-! What the macros of a configuration mean. -/
namespace Verif.Spec
open Verif.Model

/-- A name for a macro: a single character, or letters -/
def ValidName (s : Str) : Prop := s ≠ [] ∧ (s.length = 1 ∨ ∀ c ∈ s, isAsciiAlpha c = true)

/-- The macro can be used: its name is allowed, its definition can be tokenised, and every command in it is
built in or the name of a macro of the configuration. -/
structure MacroOk (builtin : Str → Option Token) (names : List Str) (name text : Str) : Prop where
  name : ValidName name
  tokens : (tokensOf text).2 = none
  known : ∀ n span, LexerOutput.commandName n span ∈ (tokensOf text).1 → (builtin n).isSome ∨ n ∈ names

/-- What is wrong with a macro -/
inductive MacroBad (builtin : Str → Option Token) (names : List Str) (name text : Str) : LatexError → Prop
  | name : ¬ ValidName name → MacroBad builtin names name text ⟨0, 0, .invalidMacroName name⟩
  | tokens {e} : (tokensOf text).2 = some e → MacroBad builtin names name text e
  | unknown {n span} : LexerOutput.commandName n span ∈ (tokensOf text).1 → builtin n = none → n ∉ names →
      MacroBad builtin names name text ⟨span.start, span.stop, .unknownCommand n⟩

/-- The body of a macro as it is stored: a parameter refers to an argument, a command is kept as a name. -/
def bodyItem : LexerOutput → Option RecordedToken
  | .commandName n _ => some (.commandName n)
  | .token ⟨.eoi, _⟩ => none
  | .token ⟨.customCmdArgInput n, _⟩ => some (.token (.customCmdArg n))
  | .token t => some (.token t.tok)

/-- The number of arguments which a token needs -/
def paramsNeeded : LexerOutput → Nat
  | .token ⟨.customCmdArgInput n, _⟩ => n + 1
  | _ => 0

/-- The class of a token in a macro, as far as it is known when the macro is read -/
def classOf (builtin : Str → Option Token) : LexerOutput → Option Class
  | .commandName n _ => (builtin n).bind Token.cls
  | .token ⟨.eoi, _⟩ | .token ⟨.customCmdArgInput _, _⟩ => none
  | .token t => t.tok.cls

/-- What a macro means: the number of its arguments, the class of its first atom, and its body -/
structure MacroMeaning where
  numArgs : Nat
  cls : Option Class
  body : List RecordedToken

/-- The meaning of a definition -/
def macroMeaning (builtin : Str → Option Token) (text : Str) : MacroMeaning where
  numArgs := ((tokensOf text).1.map paramsNeeded).foldl max 0
  cls := (tokensOf text).1.findSome? (classOf builtin)
  body := (tokensOf text).1.filterMap bodyItem

/-- What a name means in a store; `none` if it has no meaning (or a body which does not exist) -/
def storedMeaning (c : CustomCmds) (name : Str) : Option MacroMeaning :=
  (c.map.get name).bind fun d => (c.body d.start d.stop).map fun body => ⟨d.numArgs, d.cls, body⟩

end Verif.Spec

import Verif.Model.Options
/-!
What a user of the bindings asks for, independent of the language, how it is written in Python and in JavaScript, and
when two replies are the same.
-/
namespace Verif.Spec
open Model

/-- Settings. Those which are `none` are not mentioned by the user. -/
structure Settings where
  prettyPrint : Option PrettyPrint := none
  macros : Option (List (Str × Str)) := none
  xmlNamespace : Option Bool := none
  /-- Are errors shown as HTML? -/
  showErrors : Option Bool := none
  ignoreUnknownCommands : Option Bool := none
  annotation : Option Bool := none
  allowUnreliableRendering : Option Bool := none
  globalGroup : Option Bool := none
  unicodeSubstitution : Option UnicodeSubstitution := none
  maxExpansions : Option Nat := none
  idPrefix : Option Str := none

/-- The documented names -/
def prettyName : PrettyPrint → Str
  | .never => c!"never"
  | .always => c!"always"
  | .auto => c!"auto"

/-- The documented names -/
def unicodeName : UnicodeSubstitution → Str
  | .never => c!"never"
  | .conventional => c!"conventional"

/-- The configuration of the library which is asked for: settings which are not mentioned have the value which the
library gives them. -/
def Settings.asked (s : Settings) (fmt : Rat → Str) : MathCoreConfig :=
  let d := MathCoreConfig.default fmt
  { d with
    prettyPrint := s.prettyPrint.getD d.prettyPrint
    macros := s.macros.getD d.macros
    xmlNamespace := s.xmlNamespace.getD d.xmlNamespace
    ignoreUnknownCommands := s.ignoreUnknownCommands.getD d.ignoreUnknownCommands
    annotation := s.annotation.getD d.annotation
    allowUnreliableRendering := s.allowUnreliableRendering.getD d.allowUnreliableRendering
    globalGroup := s.globalGroup.getD d.globalGroup
    unicodeSubstitution := s.unicodeSubstitution.getD d.unicodeSubstitution
    maxExpansions := s.maxExpansions.getD d.maxExpansions
    idPrefix := s.idPrefix.getD d.idPrefix }

/-- The settings in Python: what is not mentioned is not passed, so it has the default of the signature. -/
def Settings.python (s : Settings) : PyOptions :=
  let d : PyOptions := {}
  { d with
    prettyPrint := (s.prettyPrint.map prettyName).getD d.prettyPrint
    macros := (s.macros.map fun m => some (m.map fun kv => (.str kv.1, .str kv.2))).getD d.macros
    xmlNamespace := s.xmlNamespace.getD d.xmlNamespace
    continueOnError := s.showErrors.getD d.continueOnError
    ignoreUnknownCommands := s.ignoreUnknownCommands.getD d.ignoreUnknownCommands
    annotation := s.annotation.getD d.annotation
    allowUnreliableRendering := s.allowUnreliableRendering.getD d.allowUnreliableRendering
    globalGroup := s.globalGroup.getD d.globalGroup
    unicodeSubstitution := (s.unicodeSubstitution.map unicodeName).getD d.unicodeSubstitution
    maxExpansions := s.maxExpansions.getD d.maxExpansions
    idPrefix := s.idPrefix.getD d.idPrefix }

/-- The settings in JavaScript. The option for errors has the opposite meaning. -/
def Settings.js (s : Settings) : JsOptions where
  prettyPrint := s.prettyPrint.map prettyName
  macros := s.macros.map fun m => m.map fun kv => .entry (some kv.1) (some kv.2)
  xmlNamespace := s.xmlNamespace
  throwOnError := s.showErrors.map not
  ignoreUnknownCommands := s.ignoreUnknownCommands
  annotation := s.annotation
  allowUnreliableRendering := s.allowUnreliableRendering
  globalGroup := s.globalGroup
  unicodeSubstitution := s.unicodeSubstitution.map unicodeName
  maxExpansions := s.maxExpansions
  idPrefix := s.idPrefix

/-- Nothing in these Python options is invalid: the words are documented, and names and definitions of macros are
strings. -/
def PyOptions.Valid (o : PyOptions) : Prop :=
  (o.prettyPrint = c!"never" ∨ o.prettyPrint = c!"always" ∨ o.prettyPrint = c!"auto") ∧
  (o.unicodeSubstitution = c!"never" ∨ o.unicodeSubstitution = c!"conventional") ∧
  ∀ dict, o.macros = some dict → ∀ kv ∈ dict, ∃ k v, kv = (.str k, .str v)

/-- Nothing in these JavaScript options is invalid. -/
def JsOptions.Valid (o : JsOptions) : Prop :=
  (∀ s, o.prettyPrint = some s → s = c!"never" ∨ s = c!"always" ∨ s = c!"auto") ∧
  (∀ s, o.unicodeSubstitution = some s → s = c!"never" ∨ s = c!"conventional") ∧
  ∀ entries, o.macros = some entries → ∀ x ∈ entries, ∃ k v, x = .entry (some k) (some v)

/-- The same reply in both languages: the same texts, or an error in both. -/
inductive SameReply : PyReply → JsReply → Prop
  | str (s : Str) : SameReply (.str s) (.str s)
  | list (l : List Str) : SameReply (.list l) (.array l)
  | nothing : SameReply .none .undefined
  | error (message : Str) (e : JsError) : SameReply (.latexError message) (.throws e)
  | panic : SameReply .panic .panic
  | fuel : SameReply .fuel .fuel

/-- The replies to some calls of a Python object which is used by a single thread -/
def pyCalls (f : PyFlags) (fuel : Nat) : Converter → List Method → List PyReply
  | _, [] => []
  | c, m :: ms => (f.run fuel c m).1 :: pyCalls f fuel (f.run fuel c m).2 ms

/-- The replies to some calls of a JavaScript object -/
def jsCalls (f : JsFlags) (fuel : Nat) : Converter → List Method → List JsReply
  | _, [] => []
  | c, m :: ms => (f.run fuel c m).1 :: jsCalls f fuel (f.run fuel c m).2 ms

/-- The same replies, one by one -/
inductive SameReplies : List PyReply → List JsReply → Prop
  | nil : SameReplies [] []
  | cons {p j ps js} : SameReply p j → SameReplies ps js → SameReplies (p :: ps) (j :: js)

end Verif.Spec

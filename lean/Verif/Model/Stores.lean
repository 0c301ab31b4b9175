import Verif.Model.Builtins
import Verif.Model.CustomCmds
/-! Model of `Stores` and the store part of `TokenQueue::define`
(crates/math-core/src/token_queue.rs). -/
namespace Verif.Model

/-- lib.rs:236-243 `ParserConfig`, without the field `max_expansions`, which only `Parser::new` reads: see
`SnippetConfig` in Convert.lean. -/
structure ParserConfig where
  customCmds : CustomCmds := {}
  ignoreUnknownCommands : Bool := false
  allowUnreliableRendering : Bool := false
  globalGroup : Bool := false
  unicodeSubstitution : UnicodeSubstitution := .conventional

/-- token_queue.rs:133-140 `Stores`, as far as commands are concerned: the three stores. -/
structure CmdStores where
  config : CustomCmds := {}
  document : CustomCmds := {}
  loc : CustomCmds := {}

/-- commands.rs:952-995 `resolve_builtin_cmd`, with the configuration -/
def ParserConfig.builtin (cfg : ParserConfig) (name : Str) : Option Token :=
  resolveBuiltinCmd cfg.allowUnreliableRendering cfg.unicodeSubstitution name

namespace CmdStores

/-- token_queue.rs:149-163 `resolve_command`; `builtin` is `resolve_builtin_cmd` for the
configuration at hand. -/
def resolveCommand (builtin : Str → Option Token) (s : CmdStores) (name : Str) : Option Token :=
  match ((s.loc.get name .loc).or (s.document.get name .document)).or
      (s.config.get name .config) with
  | some tok => some tok
  | none => builtin name

/-- The store with the given lifetime. -/
def store (s : CmdStores) : CmdSource → CustomCmds
  | .config => s.config
  | .document => s.document
  | .loc => s.loc

/-- token_queue.rs:166-172 `get_body` -/
def getBody (s : CmdStores) (source : CmdSource) (start stop : Nat) :
    Option (List RecordedToken) :=
  (s.store source).body start stop

/-- token_queue.rs:655-688, the part of `define` which writes to the stores. `none` means that the
name is taken (`return false`); `isGlobal` is the flag after taking `global_group` into account. -/
def define (s : CmdStores) (name : Str) (numArgs : Nat) (body : List RecordedToken)
    (firstClass : Option Class) (replace isGlobal : Bool) : Option CmdStores :=
  if isGlobal then
    let r := if replace then
        (true, s.document.insertOrReplaceAndCopyLocal s.loc name numArgs body firstClass)
      else s.document.insertAndCopyLocal s.loc name numArgs body firstClass
    if r.1 then some { s with document := r.2, loc := s.loc.remove name } else none
  else
    let r := if replace then (true, s.loc.insertOrReplace name numArgs body firstClass)
      else s.loc.insert name numArgs body firstClass
    if r.1 then some { s with loc := r.2 } else none

end CmdStores
end Verif.Model

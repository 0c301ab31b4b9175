import Verif.Model.Stores
/-!
What the tokens in a command body mean, independently of where bodies are stored.

A reference to a stored body unfolds to the body it refers to, so a token means a tree. The tree
is cut off at a given depth; two tokens mean the same if their trees agree at every depth.
-/
namespace Verif.Spec
open Verif.Model

/-- The meaning of a recorded token. -/
inductive Meaning
  /-- cut off here -/
  | cut
  /-- a command name, looked up only when the body is expanded -/
  | name (n : Str)
  /-- a token which is not a reference to a stored body -/
  | tok (t : Token)
  /-- a macro with a body -/
  | macro (numArgs : Nat) (cls : Option Class) (body : List Meaning)
  /-- a reference to a body which does not exist -/
  | dangling (numArgs : Nat) (cls : Option Class)

/-- The meaning of a recorded token to a given depth, when the stores hold these bodies. -/
def meaning (st : CmdSource → List RecordedToken) : Nat → RecordedToken → Meaning
  | _, .commandName n => .name n
  | 0, .token _ => .cut
  | k + 1, .token (.customCmdRef src n c s e) =>
    if s ≤ e ∧ e ≤ (st src).length then
      .macro n c ((((st src).drop s).take (e - s)).map (meaning st k))
    else .dangling n c
  | _ + 1, .token t => .tok t

/-- The bodies in the stores. -/
def bodies (s : CmdStores) : CmdSource → List RecordedToken
  | .config => s.config.tokens
  | .document => s.document.tokens
  | .loc => s.loc.tokens

/-- What a name means to a given depth. -/
def nameMeaning (builtin : Str → Option Token) (s : CmdStores) (k : Nat) (name : Str) :
    Option Meaning :=
  (s.resolveCommand builtin name).map (fun t => meaning (bodies s) k (.token t))

/-- A token which is not a reference to a stored body. -/
def NotRef : RecordedToken → Prop
  | .token (.customCmdRef ..) => False
  | _ => True

instance : DecidablePred NotRef := fun t => by
  unfold NotRef; split <;> infer_instance

/-- A reference to a body which is forgotten at the end of the snippet. -/
def RefersToLocal : RecordedToken → Prop
  | .token (.customCmdRef .loc ..) => True
  | _ => False

/-- The state between the operations of a session: the stores, and the tokens which the converter
has looked up in this snippet and may still hold (in its queue). -/
structure DefState where
  stores : CmdStores
  held : List Token

/-- One item of a body which is being recorded. -/
inductive BodyItem
  /-- a command name -/
  | name (n : Str)
  /-- a token which is not a reference -/
  | plain (t : Token)
  /-- a token which was looked up earlier in the snippet (counted from the latest lookup) -/
  | lookedUp (i : Nat)

/-- What can happen to definitions. -/
inductive DefOp
  /-- look up a name and hold on to the result -/
  | lookup (name : Str)
  /-- any definition command; `replace` says that an existing definition is overwritten -/
  | define (name : Str) (numArgs : Nat) (body : List BodyItem) (cls : Option Class)
      (replace isGlobal : Bool)
  /-- expand a macro: hold on to the tokens of the body which a held token (counted from the latest
  lookup) refers to -/
  | unfold (i : Nat)
  /-- the snippet ends -/
  | endSnippet
  /-- the global state is reset (between snippets) -/
  | reset

/-- The recorded token for an item, if there is one. -/
def BodyItem.recorded (held : List Token) : BodyItem → Option RecordedToken
  | .name n => some (.commandName n)
  | .plain t => if NotRef (.token t) then some (.token t) else none
  | .lookedUp i => (held[i]?).map .token

/-- The recorded tokens for a body. -/
def recordedBody (held : List Token) (body : List BodyItem) : Option (List RecordedToken) :=
  body.mapM (BodyItem.recorded held)

/-- The tokens in a body which are not command names -/
def bodyTokens (body : List RecordedToken) : List Token :=
  body.filterMap fun
    | .token t => some t
    | .commandName _ => none

/-- The body a token refers to -/
def heldBody (s : CmdStores) : Token → Option (List RecordedToken)
  | .customCmdRef src _ _ start stop => s.getBody src start stop
  | _ => none

/-- Perform an operation; `none` if it fails or is impossible. -/
def DefState.apply (builtin : Str → Option Token) (s : DefState) : DefOp → Option DefState
  | .lookup name => (s.stores.resolveCommand builtin name).map fun t =>
      { s with held := t :: s.held }
  | .define name numArgs body cls replace isGlobal =>
      (recordedBody s.held body).bind fun b =>
        (s.stores.define name numArgs b cls replace isGlobal).map fun st => { s with stores := st }
  | .unfold i =>
      (s.held[i]?).bind fun t => (heldBody s.stores t).map fun body =>
        { s with held := bodyTokens body ++ s.held }
  | .endSnippet => some { stores := { s.stores with loc := {} }, held := [] }
  | .reset =>
      some { stores := { s.stores with document := s.stores.document.clear, loc := {} }, held := [] }

/-- Perform operations one after the other. -/
def DefState.run (builtin : Str → Option Token) (s : DefState) : List DefOp → Option DefState
  | [] => some s
  | op :: ops => (s.apply builtin op).bind (fun s' => s'.run builtin ops)

/-- The states of a session with a given configuration. -/
def DefReachable (builtin : Str → Option Token) (config : CustomCmds) (s : DefState) : Prop :=
  ∃ ops, DefState.run builtin { stores := { config }, held := [] } ops = some s

/-- The operations of a single snippet. -/
def DefOp.withinSnippet : DefOp → Prop
  | .endSnippet | .reset => False
  | _ => True

/-- The operation defines this name. -/
def DefOp.defines (name : Str) : DefOp → Prop
  | .define n .. => n = name
  | _ => False

/-- The operation defines this name globally. -/
def DefOp.definesGlobally (name : Str) : DefOp → Prop
  | .define n _ _ _ _ isGlobal => n = name ∧ isGlobal = true
  | _ => False

/-- What the configuration guarantees: its bodies contain no references, and its definitions lie
within it. -/
structure ConfigOk (c : CustomCmds) : Prop where
  noRefs : ∀ t ∈ c.tokens, NotRef t
  inside : ∀ n d, c.map.get n = some d → d.start ≤ d.stop ∧ d.stop ≤ c.tokens.length

/-- Built-in commands are not references to stored bodies. -/
def BuiltinOk (builtin : Str → Option Token) : Prop :=
  ∀ n t, builtin n = some t → NotRef (.token t)

end Verif.Spec

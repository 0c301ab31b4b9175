import Verif.Model.Token
/-! Model of crates/math-core/src/custom_cmds.rs. -/
namespace Verif.Model

/-- A map with text keys (`FxHashMap<KString, V>`), as an association list in which the first
entry for a key counts. -/
abbrev StrMap (V : Type) := List (Str × V)

namespace StrMap
variable {V : Type}
/-- `HashMap::get` -/
def get (m : StrMap V) (k : Str) : Option V := m.lookup k
/-- `HashMap::insert` (a new value replaces the old one) -/
def insert (m : StrMap V) (k : Str) (v : V) : StrMap V := (k, v) :: m
/-- `HashMap::remove` -/
def remove (m : StrMap V) (k : Str) : StrMap V := m.filter (fun e => e.1 != k)
/-- `HashMap::contains_key` -/
def contains (m : StrMap V) (k : Str) : Bool := (m.get k).isSome
end StrMap

/-- custom_cmds.rs:17-20 -/
inductive RecordedToken
  | token (t : Token)
  | commandName (name : Str)
  deriving Repr, Inhabited

/-- custom_cmds.rs:48-61 -/
structure CmdDef where
  numArgs : Nat
  cls : Option Class
  start : Nat
  stop : Nat
  deriving DecidableEq, Repr

/-- custom_cmds.rs:69-72 -/
structure CustomCmds where
  tokens : List RecordedToken := []
  map : StrMap CmdDef := []
  deriving Repr, Inhabited

/-- `slice.get(start..end)`: `none` if the range is decreasing or ends beyond the slice. -/
def sliceGet {α : Type} (l : List α) (start stop : Nat) : Option (List α) :=
  if start ≤ stop ∧ stop ≤ l.length then some ((l.drop start).take (stop - start)) else none

namespace CustomCmds

/-- custom_cmds.rs:83-92 `get` -/
def get (c : CustomCmds) (name : Str) (source : CmdSource) : Option Token :=
  match c.map.get name with
  | none => none
  | some d => some (.customCmdRef source d.numArgs d.cls d.start d.stop)

/-- custom_cmds.rs:95-97 `body` -/
def body (c : CustomCmds) (start stop : Nat) : Option (List RecordedToken) :=
  sliceGet c.tokens start stop

/-- custom_cmds.rs:162-179 `register` -/
def register (c : CustomCmds) (name : Str) (numArgs : Nat) (firstClass : Option Class)
    (start stop : Nat) : CustomCmds :=
  { c with map := c.map.insert name ⟨numArgs, firstClass, start, stop⟩ }

/-- custom_cmds.rs:118-129 `insert_or_replace` -/
def insertOrReplace (c : CustomCmds) (name : Str) (numArgs : Nat) (body : List RecordedToken)
    (firstClass : Option Class) : CustomCmds :=
  let start := c.tokens.length
  let tokens := c.tokens ++ body
  let stop := tokens.length
  { c with tokens }.register name numArgs firstClass start stop

/-- custom_cmds.rs:100-112 `insert`; returns the success flag and the new store. -/
def insert (c : CustomCmds) (name : Str) (numArgs : Nat) (body : List RecordedToken)
    (firstClass : Option Class) : Bool × CustomCmds :=
  if c.map.contains name then (false, c)
  else (true, c.insertOrReplace name numArgs body firstClass)

/-- One iteration of the loop in custom_cmds.rs:200-226: rewrite the token at index `i`,
possibly appending a copy of a local body. -/
def absorbStep (loc : CustomCmds) (tokens : List RecordedToken) (i : Nat) : List RecordedToken :=
  match tokens[i]? with
  | some (.token (.customCmdRef .loc numArgs cls bodyStart bodyStop)) =>
    let newStart := tokens.length
    let tokens := match loc.body bodyStart bodyStop with
      | some body => tokens ++ body
      | none => tokens
    let newStop := tokens.length
    tokens.set i (.token (.customCmdRef .document numArgs cls newStart newStop))
  | _ => tokens

/-- The loop in custom_cmds.rs:197-226. `none` means that the fuel ran out; the fuel given by
`absorbFuel` is always enough for a store made by this module (`absorb_terminates`). -/
def absorbLoop (loc : CustomCmds) : Nat → List RecordedToken → Nat → Option (List RecordedToken)
  | 0, tokens, i => if i < tokens.length then none else some tokens
  | fuel + 1, tokens, i =>
    if i < tokens.length then absorbLoop loc fuel (absorbStep loc tokens i) (i + 1)
    else some tokens

/-- How often the loop of `absorb` visits a token and what it brings along, for the tokens of a
local store, in order: `acc` holds the numbers for the tokens before. Not in the Rust code; only
used to give the loop enough fuel. -/
def absorbWeight (acc : List Nat) : RecordedToken → Nat
  | .token (.customCmdRef .loc _ _ s e) => 1 + ((sliceGet acc s e).getD []).sum
  | _ => 1

/-- See `absorbWeight`. -/
def absorbWeights (acc : List Nat) : List RecordedToken → List Nat
  | [] => acc
  | t :: ts => absorbWeights (acc ++ [absorbWeight acc t]) ts

/-- See `absorbWeight`. -/
def absorbFuel (loc : CustomCmds) (body : List RecordedToken) : Nat :=
  (body.map (absorbWeight (absorbWeights [] loc.tokens))).sum

/-- custom_cmds.rs:193-228 `absorb`: the new store, and the range of the copied body. If the loop
did not end (which cannot happen), the model keeps the untranslated tokens. -/
def absorb (c : CustomCmds) (loc : CustomCmds) (body : List RecordedToken) :
    CustomCmds × Nat × Nat :=
  let start := c.tokens.length
  let tokens := c.tokens ++ body
  let stop := tokens.length
  ({ c with tokens := (absorbLoop loc (absorbFuel loc body) tokens start).getD tokens },
   start, stop)

/-- custom_cmds.rs:149-159 `insert_or_replace_and_copy_local` -/
def insertOrReplaceAndCopyLocal (c : CustomCmds) (loc : CustomCmds) (name : Str) (numArgs : Nat)
    (body : List RecordedToken) (firstClass : Option Class) : CustomCmds :=
  let (c, start, stop) := c.absorb loc body
  c.register name numArgs firstClass start stop

/-- custom_cmds.rs:132-145 `insert_and_copy_local` -/
def insertAndCopyLocal (c : CustomCmds) (loc : CustomCmds) (name : Str) (numArgs : Nat)
    (body : List RecordedToken) (firstClass : Option Class) : Bool × CustomCmds :=
  if c.map.contains name then (false, c)
  else (true, c.insertOrReplaceAndCopyLocal loc name numArgs body firstClass)

/-- custom_cmds.rs:234-236 `remove` -/
def remove (c : CustomCmds) (name : Str) : CustomCmds := { c with map := c.map.remove name }

/-- custom_cmds.rs:238-241 `clear` -/
def clear (_ : CustomCmds) : CustomCmds := {}

end CustomCmds

/-- custom_cmds.rs:248-256 `is_valid_macro_name` (`bytes().all(is_ascii_alphabetic)` is the same
as all characters being ASCII letters) -/
def isValidMacroName (s : Str) : Bool :=
  if s.isEmpty then false else s.length == 1 || s.all isAsciiAlpha

end Verif.Model

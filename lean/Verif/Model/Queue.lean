import Verif.Model.Monad
import Verif.Model.Lexer
import Verif.Model.Envs
/-! Model of crates/math-core/src/token_queue.rs. -/
namespace Verif.Model

/-- token_queue.rs:57 `QueuedTok`: a token, where it is in the source, and the name of the command
it came from. -/
structure QueuedTok where
  tok : Token
  span : Span
  name : Option Str := none
  deriving Repr, Inhabited

namespace QueuedTok
/-- token_queue.rs:75-82 `tokspan`, `into_tokspan` -/
def ts (q : QueuedTok) : TokSpan := ⟨q.tok, q.span⟩
/-- token_queue.rs:97-99 -/
def withToken (q : QueuedTok) (t : Token) : QueuedTok := { q with tok := t }
/-- token_queue.rs:103-106 -/
def unwrapMath (q : QueuedTok) : QueuedTok := { q with tok := q.tok.unwrapMath }
end QueuedTok

/-- token_queue.rs:109-114 `From<Token>`: `TokSpan::from` uses the default span (token.rs:757-765) -/
def Token.queued (t : Token) : QueuedTok := ⟨t, Span.default, none⟩
/-- token_queue.rs:116-121 `From<TokSpan>` -/
def TokSpan.queued (t : TokSpan) : QueuedTok := ⟨t.tok, t.span, none⟩

/-- token_queue.rs:174-175 -/
def eoiTok : QueuedTok := ⟨.eoi, .zeroWidth 0, none⟩

/-- token_queue.rs:24-48 `TokenQueue`. The commands of the three stores are in `stores`, the rest of
the global state in `equationCount` and `labelMap`. The pool of command names is not needed, because
the model's tokens contain the names themselves. -/
structure TokenQueue where
  lexer : Lexer
  stores : CmdStores
  equationCount : Nat
  labelMap : StrMap Str
  queue : List QueuedTok
  lexerIsEoi : Bool
  nextNonWs : Nat

/-- Computations on the token queue -/
abbrev Q := St TokenQueue

/-- `matches!(tok, Token::Whitespace)` -/
def Token.isWs : Token → Bool
  | .whitespace => true
  | _ => false
/-- `matches!(tok, Token::Eoi)` -/
def Token.isEoi : Token → Bool
  | .eoi => true
  | _ => false
/-- `matches!(tok, Token::GroupBegin)` -/
def Token.isGroupBegin : Token → Bool
  | .groupBegin => true
  | _ => false

/-- token_queue.rs:963-965 -/
def isNotWhitespace (idx : Nat) (t : Token) : Option Nat := if t.isWs then none else some idx
/-- token_queue.rs:967-969 -/
def hasClass (idx : Nat) (t : Token) : Option (Nat × Class) := t.cls.map fun c => (idx, c)

/-- token_queue.rs:207-218 `resolve_lexed` -/
def resolveLexed (cfg : ParserConfig) (stores : CmdStores) : LexerOutput → QueuedTok
  | .token t => t.queued
  | .commandName name span =>
    ⟨(stores.resolveCommand cfg.builtin name).getD (.unresolvedCommand name), span, some name⟩

namespace TokenQueue
variable {T : Type}

/-- token_queue.rs:244-260, the loop. The fuel given to it in `loadToken` is always enough. -/
def loadLoop (pred : Nat → Token → Option T) : Nat → Nat → Q (Option T)
  | 0, _ => St.outOfFuel
  | fuel + 1, idx => fun cfg q =>
    match q.lexer.nextToken with
    | .error e => .err e q
    | .ok (lexed, lexer) =>
      let tok := resolveLexed cfg q.stores lexed
      let result := pred idx tok.tok
      let q := { q with lexer, queue := q.queue ++ [tok] }
      match result with
      | some r => .ok (some r) q
      | none =>
        if tok.tok.isEoi then .ok none { q with lexerIsEoi := true }
        else loadLoop pred fuel (idx + 1) cfg q

/-- token_queue.rs:235-261 `load_token` -/
def loadToken (pred : Nat → Token → Option T) : Q (Option T) := fun cfg q =>
  if q.lexerIsEoi then .ok none q
  else loadLoop pred (q.lexer.rest.length + 1) q.queue.length cfg q

/-- token_queue.rs:227-231 `load_token_skip_whitespace` -/
def loadTokenSkipWhitespace : Q Nat := do
  let r ← loadToken isNotWhitespace
  let q ← St.get
  return r.getD q.queue.length

/-- token_queue.rs:264-268 `find_next_non_whitespace` (`Iterator::position`) -/
def findNonWs (queue : List QueuedTok) : Option Nat :=
  match queue with
  | [] => none
  | t :: ts => if t.tok.isWs then (findNonWs ts).map (· + 1) else some 0

/-- token_queue.rs:272-285 `ensure_next_non_whitespace` -/
def ensure : Q Unit := do
  let q ← St.get
  let pos ← match findNonWs q.queue with
    | some pos => St.pure pos
    | none => loadTokenSkipWhitespace
  St.modify fun q => { q with nextNonWs := pos }

/-- token_queue.rs:185-198: the queue before anything has been read. In the model, the configured
macros are in `stores.config`. -/
def initial (cfg : ParserConfig) (input : Str) (g : GlobalState) : TokenQueue where
  lexer := Lexer.new input
  stores := ⟨cfg.customCmds, g.customCmds, {}⟩
  equationCount := g.equationCount
  labelMap := g.labelMap
  queue := []
  lexerIsEoi := false
  nextNonWs := 0

/-- token_queue.rs:179-201 `new` -/
def new (cfg : ParserConfig) (input : Str) (g : GlobalState) : Res TokenQueue Unit :=
  ensure cfg (initial cfg input g)

/-- The global state, which the Rust code changes in place -/
def globalState (q : TokenQueue) : GlobalState := ⟨q.equationCount, q.labelMap, q.stores.document⟩

/-- token_queue.rs:298-307 `peek` -/
def peek (q : TokenQueue) : TokSpan := (q.queue[q.nextNonWs]?.getD eoiTok).ts
/-- token_queue.rs:318-325 `peek_any_keeping_name` -/
def peekAnyKeepingName (q : TokenQueue) : QueuedTok := q.queue.head?.getD eoiTok
/-- token_queue.rs:312-315 `peek_any_token` -/
def peekAny (q : TokenQueue) : TokSpan := q.peekAnyKeepingName.ts

/-- The first index from `idx` on at which the predicate holds (`enumerate().find_map`) -/
def findMapFrom (pred : Nat → Token → Option T) : Nat → List QueuedTok → Option T
  | _, [] => none
  | idx, t :: ts => (pred idx t.tok).or (findMapFrom pred (idx + 1) ts)

/-- token_queue.rs:332-363 `find_or_load_after_next` -/
def findOrLoadAfterNext (pred : Nat → Token → Option T) : Q (Option T) := fun cfg q =>
  if q.nextNonWs < q.queue.length then
    match findMapFrom pred (q.nextNonWs + 1) (q.queue.drop (q.nextNonWs + 1)) with
    | some r => .ok (some r) q
    | none => loadToken pred cfg q
  else .ok none q

/-- token_queue.rs:366-376 `peek_second` -/
def peekSecond : Q TokSpan := do
  let idx ← findOrLoadAfterNext isNotWhitespace
  let q ← St.get
  return ((idx.bind fun i => q.queue[i]?).getD eoiTok).ts

/-- token_queue.rs:381-391 `peek_class_token` -/
def peekClassToken : Q (Nat × Class) := do
  let q ← St.get
  match q.peek.tok.cls with
  | some c => return (q.nextNonWs, c)
  | none =>
    let r ← findOrLoadAfterNext hasClass
    let q ← St.get
    return r.getD (q.queue.length, .ending)

/-- token_queue.rs:400-411 `reject_unknown_command` -/
def rejectUnknownCommand (t : QueuedTok) : Q Unit := do
  let cfg ← St.config
  match t.tok with
  | .unresolvedCommand name =>
    if cfg.ignoreUnknownCommands then St.pure () else St.throw (t.span.err (.unknownCommand name))
  | _ => St.pure ()

/-- token_queue.rs:434-456 `next_allowing_unresolved_command` -/
def nextAllowingUnresolved : Q QueuedTok := fun cfg q =>
  match q.queue.drop q.nextNonWs with
  | [] => .ok eoiTok { q with queue := [] }
  | t :: rest => St.bind ensure (fun _ => St.pure t.unwrapMath) cfg { q with queue := rest }

/-- token_queue.rs:423-427 `next_keeping_name` -/
def nextKeepingName : Q QueuedTok := do
  let t ← nextAllowingUnresolved
  rejectUnknownCommand t
  return t

/-- token_queue.rs:418-420 `next` -/
def next : Q TokSpan := do
  let t ← nextKeepingName
  return t.ts

/-- token_queue.rs:474-494 `next_any_token_allowing_unknown_command` -/
def nextAnyAllowingUnknown : Q QueuedTok := fun cfg q =>
  match q.queue with
  | [] => .ok eoiTok q
  | t :: rest =>
    match q.nextNonWs with
    | pos + 1 => .ok t { q with queue := rest, nextNonWs := pos }
    | 0 => St.bind ensure (fun _ => St.pure t) cfg { q with queue := rest }

/-- token_queue.rs:466-470 `next_any_token_keeping_name` -/
def nextAnyKeepingName : Q QueuedTok := do
  let t ← nextAnyAllowingUnknown
  rejectUnknownCommand t
  return t

/-- token_queue.rs:461-463 `next_any_token` -/
def nextAny : Q TokSpan := do
  let t ← nextAnyKeepingName
  return t.ts

/-- token_queue.rs:509-519 `update_next_non_whitespace` -/
def updateNextNonWs (q : TokenQueue) : TokenQueue :=
  { q with nextNonWs := (findNonWs q.queue).getD q.queue.length }

/-- token_queue.rs:499-506 `queue_in_front` -/
def queueInFront (q : TokenQueue) (toks : List QueuedTok) : TokenQueue :=
  updateNextNonWs { q with queue := toks ++ q.queue }

/-- token_queue.rs:946-961 `push_arg_front`: what is put in front for an argument. -/
def argTokens (arg : List QueuedTok) (span : Span) : List QueuedTok :=
  match arg with
  | [] => [⟨.groupBegin, span, none⟩, ⟨.groupEnd, span, none⟩]
  | arg => arg

/-- token_queue.rs:629-632 `queue_arg_in_front` -/
def queueArgInFront (q : TokenQueue) (arg : List QueuedTok) (span : Span) : TokenQueue :=
  q.queueInFront (argTokens arg span)

/-- token_queue.rs:621-625 `queue_empty_body` -/
def queueEmptyBody (q : TokenQueue) (span : Span) : TokenQueue :=
  q.queueInFront [⟨.relax, span, none⟩]

end TokenQueue

/-- token_queue.rs:978-981 `CmdArgs` -/
structure CmdArgs where
  tokens : List QueuedTok := []
  offsets : List Nat := List.replicate 9 0

namespace CmdArgs
/-- token_queue.rs:985-997 `get` -/
def get (a : CmdArgs) (n : Nat) : List QueuedTok :=
  let start := if n = 0 then 0 else (a.offsets[n - 1]?).getD 0
  let stop := (a.offsets[n]?).getD a.tokens.length
  (sliceGet a.tokens start stop).getD []
/-- token_queue.rs:1000-1003 `clear` -/
def clear (_ : CmdArgs) : CmdArgs := {}
/-- token_queue.rs:1006-1008 `push` -/
def push (a : CmdArgs) (t : QueuedTok) : CmdArgs := { a with tokens := a.tokens ++ [t] }
/-- token_queue.rs:1011-1015 `finish_arg` -/
def finishArg (a : CmdArgs) (n : Nat) : CmdArgs :=
  { a with offsets := if n < a.offsets.length then a.offsets.set n a.tokens.length else a.offsets }
end CmdArgs

namespace TokenQueue

/-- token_queue.rs:551-558, what is put in front for one token of a built-in body -/
def substToken (args : CmdArgs) (span : Span) : Token → List QueuedTok
  | .customCmdArg n => argTokens (args.get n) span
  | t => [t.queued]

/-- token_queue.rs:539-560 `queue_body_substituting` -/
def queueBodySubstituting (q : TokenQueue) (toks : List Token) (args : CmdArgs) (span : Span) :
    TokenQueue :=
  if toks.isEmpty then q.queueEmptyBody span
  else q.queueInFront (toks.flatMap (substToken args span))

/-- token_queue.rs:589-611, what is put in front for one token of a stored body -/
def substRecorded (cfg : ParserConfig) (stores : CmdStores) (args : CmdArgs) (span : Span) :
    RecordedToken → List QueuedTok
  | .token (.customCmdArg n) => argTokens (args.get n) span
  | .token t => [t.queued]
  | .commandName name =>
    match stores.resolveCommand cfg.builtin name with
    | some t => [t.queued]
    | none => [⟨.unresolvedCommand name, span, none⟩]

/-- token_queue.rs:572-614 `queue_stored_body_substituting`; `none` for `false`. -/
def queueStoredBodySubstituting (cfg : ParserConfig) (q : TokenQueue) (source : CmdSource)
    (start stop : Nat) (args : CmdArgs) (span : Span) : Option TokenQueue :=
  match q.stores.getBody source start stop with
  | none => none
  | some body =>
    if body.isEmpty then some (q.queueEmptyBody span)
    else some (q.queueInFront (body.flatMap (substRecorded cfg q.stores args span)))

/-- token_queue.rs:639-647 `resolve_buffered_unknown_commands` -/
def resolveBufferedUnknown (cfg : ParserConfig) (q : TokenQueue) : TokenQueue :=
  { q with queue := q.queue.map fun t =>
      match t.tok with
      | .unresolvedCommand name =>
        match q.stores.resolveCommand cfg.builtin name with
        | some tok => t.withToken tok
        | none => t
      | _ => t }

/-- token_queue.rs:715-721 `resolve_buffered_redefined_command` -/
def resolveBufferedRedefined (q : TokenQueue) (name : Str) (tok : Token) : TokenQueue :=
  { q with queue := q.queue.map fun t => if t.name = some name then t.withToken tok else t }

/-- token_queue.rs:655-707 `define` -/
def define (name : Str) (numArgs : Nat) (body : List RecordedToken) (firstClass : Option Class)
    (replace isGlobal : Bool) : Q Bool := fun cfg q =>
  let isGlobal := isGlobal || cfg.globalGroup
  match q.stores.define name numArgs body firstClass replace isGlobal with
  | none => .ok false q
  | some stores =>
    let q := { q with stores }
    if replace then
      let source : CmdSource := if isGlobal then .document else .loc
      match (stores.store source).get name source with
      | some tok => .ok true (q.resolveBufferedRedefined name tok)
      | none => .ok true q
    else .ok true (q.resolveBufferedUnknown cfg)

/-- token_queue.rs:740-765, the loop of `record_macro_body` -/
def recordMacroBodyLoop : Nat → Nat → List QueuedTok → Q (List QueuedTok)
  | 0, _, _ => St.outOfFuel
  | fuel + 1, nesting, acc => do
    let q ← St.get
    let t := q.peekAnyKeepingName
    match t.tok with
    | .groupEnd =>
      if nesting = 0 then return acc
      else
        let _ ← nextAnyAllowingUnknown
        recordMacroBodyLoop fuel (nesting - 1) (acc ++ [t])
    | .eoi => St.throw (t.span.err (.unclosedGroup .groupClose))
    | tok =>
      let _ ← nextAnyAllowingUnknown
      recordMacroBodyLoop fuel (if tok.isGroupBegin then nesting + 1 else nesting) (acc ++ [t])

/-- A bound for the number of tokens which can still be read: the number of loop iterations of
everything that reads up to the end of a group. -/
def loopFuel (q : TokenQueue) : Nat := q.queue.length + q.lexer.rest.length + 2

/-- token_queue.rs:734-766 `record_macro_body` -/
def recordMacroBody : Q (List QueuedTok) := do
  let _ ← next
  let q ← St.get
  recordMacroBodyLoop q.loopFuel 0 []

/-- token_queue.rs:772-790 `read_definition_name` -/
def readDefinitionName : Q Str := do
  let t ← nextAllowingUnresolved
  match t.tok with
  | .unresolvedCommand name => return name
  | _ =>
    match t.name with
    | some name => return name
    | none => St.throw (t.span.err .expectedCommandName)

/-- token_queue.rs:805-850, one token -/
def mapRecordedToken (numArgs : Nat) (t : QueuedTok) : Except LatexError RecordedToken :=
  match t.tok with
  | .customCmdArgInput n =>
    if n ≥ numArgs then .error (t.span.err (.parameterNumberOutOfRange numArgs (n + 1)))
    else .ok (.token (.customCmdArg n))
  | .newCommand _ | .letCmd | .defCmd _ | .globalPrefix =>
    .error (t.span.err .cannotBeUsedAsArgument)
  | .unresolvedCommand name => .ok (.commandName name)
  | tok =>
    match t.name with
    | some name => .ok (.commandName name)
    | none => .ok (.token tok)

/-- token_queue.rs:827-829: the class which the closure remembers -/
def recordedClass (t : QueuedTok) : Option Class :=
  match t.tok with
  | .customCmdArgInput _ => none
  | tok => tok.cls

/-- token_queue.rs:793-854 `map_recorded_tokens` -/
def mapRecordedTokens (toks : List QueuedTok) (numArgs : Nat) :
    Except LatexError (List RecordedToken × Option Class) :=
  match toks.mapM (mapRecordedToken numArgs) with
  | .error e => .error e
  | .ok body => .ok (body, toks.findSome? recordedClass)

/-- token_queue.rs:866-895, the loop of `record_group` -/
def recordGroupLoop (preserveAll : Bool) : Nat → Nat → List QueuedTok → Q (List QueuedTok × Nat)
  | 0, _, _ => St.outOfFuel
  | fuel + 1, nesting, acc => do
    let t ← if preserveAll then nextAnyKeepingName else nextKeepingName
    match t.tok with
    | .groupEnd =>
      if nesting = 0 then return (acc, t.span.stop)
      else recordGroupLoop preserveAll fuel (nesting - 1) (acc ++ [t])
    | .eoi => St.throw (t.span.err (.unclosedGroup .groupClose))
    | tok =>
      recordGroupLoop preserveAll fuel (if tok.isGroupBegin then nesting + 1 else nesting) (acc ++ [t])

/-- token_queue.rs:860-897 `record_group`; returns the tokens read (the Rust function appends them to
a vector) and the end of the group. -/
def recordGroup (preserveAll : Bool) : Q (List QueuedTok × Nat) := do
  let q ← St.get
  recordGroupLoop preserveAll q.loopFuel 0 []

end TokenQueue

/-- token_queue.rs:1024-1028 `MacroArgument` -/
inductive MacroArgument
  | token (t : TokSpan)
  | group (toks : List TokSpan) (span : Span)

namespace MacroArgument
/-- token_queue.rs:1032-1048 `into_one_or_none`; `none` is `OneOrNone::None` (whose span is never
used by the callers). -/
def intoOneOrNone : MacroArgument → Except LatexError (Option TokSpan)
  | .token t => .ok (some t)
  | .group [] _ => .ok none
  | .group [t] _ => .ok (some t)
  | .group _ span => .error (span.err .expectedAtMostOneToken)

/-- token_queue.rs:1051-1065 `into_one` -/
def intoOne : MacroArgument → Except LatexError TokSpan
  | .token t => .ok t
  | .group [t] _ => .ok t
  | .group _ span => .error (span.err .expectedExactlyOneToken)
end MacroArgument

/-- token_queue.rs:904-923 `read_argument` -/
def TokenQueue.readArgument (preserveAll : Bool) : Q MacroArgument := do
  let q ← St.get
  let t ← next
  let first := if preserveAll then q.peek else t
  if first.tok.isGroupBegin then
    let (toks, stop) ← recordGroup preserveAll
    return .group (toks.map QueuedTok.ts) ⟨first.span.start, stop⟩
  else return .token first

end Verif.Model

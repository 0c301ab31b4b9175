import Verif.Model.Queue
/-!
What the token queue stands for: the stream of all tokens still to come, whether they have been read
from the source already or not.
-/
namespace Verif.Spec
open Verif.Model

/-- The tokens to come. There is an error at every position which cannot be reached because the source
cannot be tokenised that far. -/
abbrev Stream := Nat → Except LatexError QueuedTok

/-- The `n`-th token (from zero) which the tokeniser will find in the source -/
def nthLexed : Nat → Lexer → Except LatexError LexerOutput
  | 0, l => l.nextToken.map (·.1)
  | n + 1, l =>
    match l.nextToken with
    | .error e => .error e
    | .ok (_, l') => nthLexed n l'

/-- The stream a queue stands for: the tokens it holds, then those of the rest of the source, where
command names are looked up. -/
def upcoming (cfg : ParserConfig) (q : TokenQueue) : Stream := fun i =>
  match q.queue[i]? with
  | some t => .ok t
  | none => (nthLexed (i - q.queue.length) q.lexer).map (resolveLexed cfg q.stores)

/-- The stream without its first `n` tokens -/
def Stream.drop (u : Stream) (n : Nat) : Stream := fun i => u (n + i)

/-- The stream with some tokens in front -/
def Stream.push (ts : List QueuedTok) (u : Stream) : Stream := fun i =>
  match ts[i]? with
  | some t => .ok t
  | none => u (i - ts.length)

/-- `t`, at position `p`, is the first token of the stream for which the condition holds. -/
def FirstAt (u : Stream) (cond : Token → Prop) (p : Nat) (t : QueuedTok) : Prop :=
  u p = .ok t ∧ cond t.tok ∧ ∀ j < p, ∃ t', u j = .ok t' ∧ ¬ cond t'.tok

/-- Everything but whitespace -/
def NonWs (t : Token) : Prop := t.isWs = false
/-- A token with a class -/
def HasClass (t : Token) : Prop := t.cls.isSome

/-- What can be done with the queue -/
inductive QueueOp
  /-- look at the next token which is not whitespace -/
  | peek
  /-- look at the next token -/
  | peekAny
  /-- look at the second token which is not whitespace -/
  | peekSecond
  /-- look at the class of the next atom -/
  | peekClass
  /-- read, skipping whitespace -/
  | next
  /-- read the next token, whitespace or not -/
  | nextAny
  /-- put tokens back -/
  | push (ts : List QueuedTok)

/-- What an operation returns -/
inductive QueueOut
  | tok (t : TokSpan)
  | cls (c : Class)
  | unit

/-- What the operations return and do to the stream of tokens to come -/
inductive StreamStep : Stream → QueueOp → QueueOut → Stream → Prop
  | peek {u p t} : FirstAt u NonWs p t → StreamStep u .peek (.tok t.ts) u
  | peekAny {u t} : u 0 = .ok t → StreamStep u .peekAny (.tok t.ts) u
  | peekSecond {u p t p' t'} : FirstAt u NonWs p t → FirstAt (u.drop (p + 1)) NonWs p' t' →
      StreamStep u .peekSecond (.tok t'.ts) u
  | peekClass {u p t c} : FirstAt u HasClass p t → t.tok.cls = some c → StreamStep u .peekClass (.cls c) u
  | next {u p t} : FirstAt u NonWs p t → StreamStep u .next (.tok t.unwrapMath.ts) (u.drop (p + 1))
  | nextAny {u t} : u 0 = .ok t → StreamStep u .nextAny (.tok t.ts) (u.drop 1)
  | push {u} (ts) : StreamStep u (.push ts) .unit (u.push ts)

/-- Several operations one after the other -/
inductive StreamSteps : Stream → List QueueOp → List QueueOut → Stream → Prop
  | nil {u} : StreamSteps u [] [] u
  | cons {u op out u' ops outs u''} : StreamStep u op out u' → StreamSteps u' ops outs u'' →
      StreamSteps u (op :: ops) (out :: outs) u''

/-- The errors with which an operation can fail: the source cannot be tokenised, or the token to be
read is a command without meaning. -/
inductive StreamFails (cfg : ParserConfig) (u : Stream) : QueueOp → LatexError → Prop
  | lex {op e i} : u i = .error e → StreamFails cfg u op e
  | next {p t name} : FirstAt u NonWs p t → t.unwrapMath.tok = .unresolvedCommand name →
      cfg.ignoreUnknownCommands = false →
      StreamFails cfg u .next (t.span.err (.unknownCommand name))
  | nextAny {t name} : u 0 = .ok t → t.tok = .unresolvedCommand name →
      cfg.ignoreUnknownCommands = false →
      StreamFails cfg u .nextAny (t.span.err (.unknownCommand name))

/-- Perform an operation on the queue. -/
def runOp : QueueOp → Q QueueOut
  | .peek => fun _ q => .ok (.tok q.peek) q
  | .peekAny => fun _ q => .ok (.tok q.peekAny) q
  | .peekSecond => do return .tok (← TokenQueue.peekSecond)
  | .peekClass => do return .cls (← TokenQueue.peekClassToken).2
  | .next => do return .tok (← TokenQueue.next)
  | .nextAny => do return .tok (← TokenQueue.nextAny)
  | .push ts => fun _ q => .ok .unit (q.queueInFront ts)

/-- Perform operations on the queue one after the other. -/
def runOps : List QueueOp → Q (List QueueOut)
  | [] => St.pure []
  | op :: ops => do
    let out ← runOp op
    let outs ← runOps ops
    return out :: outs

/-! ### Groups in braces -/

/-- How deep in braces one is after some tokens, starting at depth `d`; `none` if there is a closing
brace too many on the way. -/
def braceDepth : Nat → List Token → Option Nat
  | d, [] => some d
  | d, .groupBegin :: ts => braceDepth (d + 1) ts
  | 0, .groupEnd :: _ => none
  | d + 1, .groupEnd :: ts => braceDepth d ts
  | d, _ :: ts => braceDepth d ts

/-- A token as it is read: with `keep`, nothing is changed; otherwise its variant for math mode is
taken. -/
def asRead (keep : Bool) (t : QueuedTok) : QueuedTok := if keep then t else t.unwrapMath

/-- The tokens as they are read: with `keep`, all of them; otherwise without whitespace -/
def allAsRead (keep : Bool) (l : List QueuedTok) : List QueuedTok :=
  if keep then l else (l.filter (fun t => !t.tok.isWs)).map QueuedTok.unwrapMath

/-- The stream begins with the tokens `l`. -/
def StartsWith (u : Stream) (l : List QueuedTok) : Prop := ∀ (i : Nat) (h : i < l.length), u i = .ok l[i]

/-- The stream begins with the tokens `l`, in which the braces match, and then comes a closing brace: the
one which ends the group whose opening brace has just been read. -/
structure GroupAt (keep : Bool) (u : Stream) (l : List QueuedTok) (close : QueuedTok) : Prop where
  starts : StartsWith u l
  after : u l.length = .ok close
  isClose : (asRead keep close).tok = .groupEnd
  balanced : braceDepth 0 (l.map fun t => (asRead keep t).tok) = some 0
  noEnd : ∀ t ∈ l, (asRead keep t).tok.isEoi = false

/-- The stream ends, with the token `eoi`, before the group whose opening brace has just been read. -/
structure Unclosed (keep : Bool) (u : Stream) (l : List QueuedTok) (eoi : QueuedTok) : Prop where
  starts : StartsWith u l
  after : u l.length = .ok eoi
  isEoi : (asRead keep eoi).tok = .eoi
  stacked : (braceDepth 0 (l.map fun t => (asRead keep t).tok)).isSome
  noEnd : ∀ t ∈ l, (asRead keep t).tok.isEoi = false

/-- Before the group whose opening brace has just been read is closed, there is a command without meaning. -/
structure UnknownIn (keep : Bool) (u : Stream) (l : List QueuedTok) (t : QueuedTok) (name : Str) : Prop where
  starts : StartsWith u l
  after : u l.length = .ok t
  isUnknown : (asRead keep t).tok = .unresolvedCommand name
  stacked : (braceDepth 0 (l.map fun t => (asRead keep t).tok)).isSome
  noEnd : ∀ t ∈ l, (asRead keep t).tok.isEoi = false

end Verif.Spec

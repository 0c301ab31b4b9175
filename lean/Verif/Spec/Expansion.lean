import Verif.Spec.Stream
/-!
What the expansion of a macro is: which tokens of the stream are its arguments, and what the call is replaced by.
-/
namespace Verif.Spec
open Verif.Model

/-- The argument at the start of a stream is a single token or a group in braces, after any whitespace. `arg` are its
tokens, without the outer braces; the last stream is what comes after it. -/
inductive ArgAt (u : Stream) : List QueuedTok → Stream → Prop
  | token {p t} : FirstAt u NonWs p t → t.tok.unwrapMath ≠ .groupBegin → t.tok.unwrapMath ≠ .eoi →
      ArgAt u [t.unwrapMath] (u.drop (p + 1))
  | group {p t arg close} : FirstAt u NonWs p t → t.tok.unwrapMath = .groupBegin →
      GroupAt true (u.drop (p + 1)) arg close → ArgAt u arg (u.drop (p + 1 + (arg.length + 1)))

/-- So many arguments, one after the other, and what comes after them -/
inductive ArgsAt : Nat → Stream → List (List QueuedTok) → Stream → Prop
  | nil {u} : ArgsAt 0 u [] u
  | cons {n u arg u' args u''} : ArgAt u arg u' → ArgsAt n u' args u'' → ArgsAt (n + 1) u (arg :: args) u''

/-- Why there is no argument at the start of a stream: the source ends before it or in the middle of it, it cannot be
tokenised, or a command in the argument is unknown. -/
inductive ArgFails (cfg : ParserConfig) (u : Stream) : LatexError → Prop
  | missing {p t} : FirstAt u NonWs p t → t.tok.unwrapMath = .eoi →
      ArgFails cfg u (t.span.err .expectedArgumentGotEOI)
  | unclosed {p t l eoi} : FirstAt u NonWs p t → t.tok.unwrapMath = .groupBegin →
      Unclosed true (u.drop (p + 1)) l eoi → ArgFails cfg u (eoi.span.err (.unclosedGroup .groupClose))
  | lexer {i e} : u i = .error e → ArgFails cfg u e
  | unknown {p t name} : FirstAt u NonWs p t → t.tok.unwrapMath = .unresolvedCommand name →
      cfg.ignoreUnknownCommands = false → ArgFails cfg u (t.span.err (.unknownCommand name))
  | unknownInside {p t l t' name} : FirstAt u NonWs p t → t.tok.unwrapMath = .groupBegin →
      UnknownIn true (u.drop (p + 1)) l t' name → cfg.ignoreUnknownCommands = false →
      ArgFails cfg u (t'.span.err (.unknownCommand name))

/-- Why there are not so many arguments at the start of a stream: some are there, but then there is no further one. -/
inductive ArgsFail (cfg : ParserConfig) : Nat → Stream → LatexError → Prop
  | here {n u e} : ArgFails cfg u e → ArgsFail cfg (n + 1) u e
  | later {n u arg u' e} : ArgAt u arg u' → ArgsFail cfg n u' e → ArgsFail cfg (n + 1) u e

/-- What stands for the parameter `#(i+1)`: the tokens of the argument, or `{}` if there are none. `span` is where the
call is in the source. -/
def argument (args : List (List QueuedTok)) (span : Span) (i : Nat) : List QueuedTok :=
  match args[i]? with
  | some (t :: ts) => t :: ts
  | _ => [⟨.groupBegin, span, none⟩, ⟨.groupEnd, span, none⟩]

/-- What stands for a token of a body. Only the tokens of the body itself are looked at, not those of the arguments.
`known` says what commands mean at the time of the call. -/
def substituted (known : Str → Option Token) (args : List (List QueuedTok)) (span : Span) :
    RecordedToken → List QueuedTok
  | .token (.customCmdArg i) => argument args span i
  | .token t => [⟨t, ⟨0, 0⟩, none⟩]
  | .commandName name =>
    match known name with
    | some t => [⟨t, ⟨0, 0⟩, none⟩]
    | none => [⟨.unresolvedCommand name, span, none⟩]

/-- What a call is replaced by. Instead of an empty body there is `\relax`, which has no visible effect. -/
def expansion (known : Str → Option Token) (args : List (List QueuedTok)) (span : Span) : List RecordedToken →
    List QueuedTok
  | [] => [⟨.relax, span, none⟩]
  | body => body.flatMap (substituted known args span)

/-- There are at most nine parameters. -/
def ParamsOk (numArgs : Nat) (body : List RecordedToken) : Prop :=
  numArgs ≤ 9 ∧ ∀ i, .token (.customCmdArg i) ∈ body → i < 9

end Verif.Spec

import Verif.Model.Lexer
/-! What it means to read the tokens of a source, for the properties C04 to C07. -/
namespace Verif.Spec
open Verif.Model

/-- The span of what the tokeniser returned. -/
def outSpan : LexerOutput → Span
  | .token t => t.span
  | .commandName _ s => s

/-- The end-of-input token. -/
def isEoi : LexerOutput → Bool
  | .token ⟨.eoi, _⟩ => true
  | _ => false

/-- A whitespace token. -/
def isWs : LexerOutput → Bool
  | .token ⟨.whitespace, _⟩ => true
  | _ => false

/-- Read at most `n` tokens, stopping behind the end-of-input token or at an error. -/
def readTokens : Nat → Lexer → List LexerOutput × Option LatexError
  | 0, _ => ([], none)
  | n + 1, l =>
    match l.nextToken with
    | .error e => ([], some e)
    | .ok (out, l') =>
      if isEoi out then ([out], none)
      else
        let (outs, e) := readTokens n l'
        (out :: outs, e)

/-- All the tokens of a source (C04 proves that this number of reads is enough). -/
def tokensOf (source : Str) : List LexerOutput × Option LatexError :=
  readTokens (source.length + 1) (Lexer.new source)

/-- Text which consists of whitespace and comments only. A comment goes from a percent sign to
the end of the line, or to the end of the source. -/
inductive Blank : Str → Prop
  | nil : Blank []
  | ws (c : Char) (s : Str) : isAsciiWs c → Blank s → Blank (c :: s)
  | comment (text s : Str) : '\n' ∉ text → Blank s → Blank ('%' :: (text ++ '\n' :: s))
  | lastComment (text : Str) : '\n' ∉ text → Blank ('%' :: text)

/-- The part of the source a span stands for: `At source a b text` says that `text` is what lies
between the byte offsets `a` and `b`, which are character boundaries. -/
def At (source : Str) (a b : Nat) (text : Str) : Prop :=
  ∃ pre post, source = pre ++ text ++ post ∧ blen pre = a ∧ a + blen text = b

/-- A token without its position. -/
def erase : LexerOutput → LexerOutput
  | .token t => .token ⟨t.tok, ⟨0, 0⟩⟩
  | .commandName n _ => .commandName n ⟨0, 0⟩

/-- A kind of error, where whitespace in the name of an unknown environment does not count. -/
def eraseErr : LatexErrKind → LatexErrKind
  | .unknownEnvironment n => .unknownEnvironment (n.filter (fun c => !isAsciiWs c))
  | k => k

/-- The tokens of a source without positions, and the kind of error at the end, if any. -/
def kindsOf (source : Str) : List LexerOutput × Option LatexErrKind :=
  ((tokensOf source).1.map erase, (tokensOf source).2.map (fun e => eraseErr e.kind))

/-- Two sources which differ only in the text of comments and in how long runs of whitespace are
and which whitespace characters they consist of. A backslash and the character after it belong
together, so that an escaped percent sign or space is neither a comment nor whitespace. -/
inductive SameButBlank : Str → Str → Prop
  | nil : SameButBlank [] []
  | char (c : Char) (s s' : Str) : isAsciiWs c = false → c ≠ '%' → c ≠ '\\' → SameButBlank s s' →
      SameButBlank (c :: s) (c :: s')
  | ws (w w' s s' : Str) : w ≠ [] → w' ≠ [] → (∀ c ∈ w, isAsciiWs c) → (∀ c ∈ w', isAsciiWs c) →
      SameButBlank s s' → SameButBlank (w ++ s) (w' ++ s')
  | comment (t t' s s' : Str) : '\n' ∉ t → '\n' ∉ t' → SameButBlank s s' →
      SameButBlank ('%' :: (t ++ '\n' :: s)) ('%' :: (t' ++ '\n' :: s'))
  | lastComment (t t' : Str) : '\n' ∉ t → '\n' ∉ t' → SameButBlank ('%' :: t) ('%' :: t')
  | escaped (c : Char) (s s' : Str) : SameButBlank s s' →
      SameButBlank ('\\' :: c :: s) ('\\' :: c :: s')
  | lastBackslash : SameButBlank ['\\'] ['\\']

/-- Where a position in the source is: in ordinary text, directly after a backslash, or in a
comment. -/
inductive Place | normal | escaped | comment
  deriving DecidableEq

/-- The place behind a text which starts at the given place. -/
def placeAfter : Place → Str → Place
  | p, [] => p
  | .normal, c :: s =>
    placeAfter (if c = '\\' then .escaped else if c = '%' then .comment else .normal) s
  | .escaped, _ :: s => placeAfter .normal s
  | .comment, c :: s => placeAfter (if c = '\n' then .normal else .comment) s

end Verif.Spec

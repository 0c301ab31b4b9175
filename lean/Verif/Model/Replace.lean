import Verif.Model.Entities
import Verif.Model.ErrorHtml
/-! Model of crates/math-core-cli/src/replace.rs. Text is searched as bytes, as in the code. -/
namespace Verif.Model

abbrev Bytes := List UInt8

/-- `str::as_bytes` -/
def enc (s : Str) : Bytes := s.flatMap String.utf8EncodeChar

/-- `memchr::memmem::Finder::find`: the leftmost occurrence (external code, modelled by what its
documentation says; an empty needle is found at 0). -/
def findBytes (needle : Bytes) : Bytes → Option Nat
  | [] => if needle.isEmpty then some 0 else none
  | b :: bs => if needle.isPrefixOf (b :: bs) then some 0 else (findBytes needle bs).map (· + 1)

/-- replace.rs:74-105 `Replacer`; the lengths and `closing_identical` are functions of the
delimiters, and the entity buffer is only scratch space. -/
structure Replacer where
  inlineOpen : Str
  inlineClose : Str
  blockOpen : Str
  blockClose : Str
  ignoreEscaped : Bool

namespace Replacer

/-- replace.rs:290-305, the loop of `find_delimiter_position`; `delimiter_len` is the length of
the needle. -/
def findLoop (needle input : Bytes) : Nat → Nat → Option Nat
  | 0, _ => none
  | fuel + 1, offset =>
    match findBytes needle (input.drop offset) with
    | none => none
    | some relativePos =>
      let absolutePos := offset + relativePos
      if 0 < absolutePos ∧ input[absolutePos - 1]? = some 0x5c then
        findLoop needle input fuel (absolutePos + needle.length)
      else some absolutePos

/-- replace.rs:280-306 `find_delimiter_position` -/
def findDelimiterPosition (r : Replacer) (input needle : Bytes) : Option Nat :=
  if !r.ignoreEscaped then findBytes needle input
  else findLoop needle input (input.length + 1) 0

/-- replace.rs:248-265, the closest of the two results; a block delimiter has priority. -/
def closest : Option Nat → Option Nat → Option (MathDisplay × Nat)
  | some inlinePos, some blockPos =>
    if blockPos ≤ inlinePos then some (.block, blockPos) else some (.inline, inlinePos)
  | some pos, none => some (.inline, pos)
  | none, some pos => some (.block, pos)
  | none, none => none

/-- replace.rs:240-276, the loop of `find_next_delimiter`. The window is a natural number here;
`saturating_mul` makes no difference, since only its minimum with the input length is used. -/
def findNextLoop (r : Replacer) (input inlineNeedle blockNeedle : Bytes) :
    Nat → Nat → Option (MathDisplay × Nat)
  | 0, _ => none
  | fuel + 1, window =>
    let stop := min window input.length
    let haystack := input.take stop
    let inlineResult := r.findDelimiterPosition haystack inlineNeedle
    let blockResult := r.findDelimiterPosition haystack blockNeedle
    match closest inlineResult blockResult with
    | none =>
      if stop = input.length then none
      else findNextLoop r input inlineNeedle blockNeedle fuel (window * 2)
    | some found =>
      let needed := found.2 + max inlineNeedle.length blockNeedle.length
      if stop < needed ∧ stop < input.length then
        findNextLoop r input inlineNeedle blockNeedle fuel needed
      else some found

/-- replace.rs:225 -/
def initialWindow : Nat := 1024

/-- replace.rs:222-277 `find_next_delimiter` -/
def findNextDelimiter (r : Replacer) (input : Bytes) (opening : Bool) : Option (MathDisplay × Nat) :=
  if opening then
    r.findNextLoop input (enc r.inlineOpen) (enc r.blockOpen) (input.length + 1) initialWindow
  else r.findNextLoop input (enc r.inlineClose) (enc r.blockClose) (input.length + 1) initialWindow

/-- replace.rs:136-139 -/
def openingLen (r : Replacer) : MathDisplay → Nat
  | .inline => blen r.inlineOpen
  | .block => blen r.blockOpen

/-- replace.rs:160-163 -/
def closingLen (r : Replacer) : MathDisplay → Nat
  | .inline => blen r.inlineClose
  | .block => blen r.blockClose

end Replacer

/-- replace.rs:10-18 `ConversionError`, without the reference to the whole input -/
inductive ConvErr (E : Type)
  | unclosedDelimiter (pos : Nat)
  | nestedDelimiters (pos : Nat)
  | mismatchedDelimiters (pos close : Nat)
  | latexError (pos : Nat) (e : E) (snippet : Str)
  deriving DecidableEq, Repr

/-- How `replace` ends: the new document, an error, or a panic. -/
inductive ReplaceResult (E : Type)
  | ok (document : Str)
  | err (e : ConvErr E)
  | panic
  deriving DecidableEq, Repr

/-- replace.rs:124-210, the loop of `replace`. The callback `f` gets the state, the formula and the
display mode, and gives the new state and the text it appended to the output or an error; the
callback of main.rs:249-260 appends nothing if it fails. Slicing a text at a position which is not
on a character boundary panics; so does `unwrap_err` in line 199. -/
def Replacer.replaceLoop {S E : Type} (r : Replacer)
    (f : S → Str → MathDisplay → S × Except E Str) (input : Str) :
    Nat → Nat → Str → S → S × ReplaceResult E
  | 0, _, _, st => (st, .panic)
  | fuel + 1, currentPos, result, st =>
    if currentPos < blen input then
      match splitAtByte input currentPos with
      | none => (st, .panic)
      | some (_, remaining) =>
        match r.findNextDelimiter (enc remaining) true with
        | none => (st, .ok (result ++ remaining))
        | some (openTyp, idx) =>
          let openPos := currentPos + idx
          match splitAtByte remaining idx with
          | none => (st, .panic)
          | some (before, fromOpening) =>
            let result := result ++ before
            let start := openPos + r.openingLen openTyp
            match splitAtByte fromOpening (r.openingLen openTyp) with
            | none => (st, .panic)
            | some (_, remaining) =>
              match r.findNextDelimiter (enc remaining) false with
              | none => (st, .err (.unclosedDelimiter openPos))
              | some (closeTyp, idx) =>
                if ¬(r.inlineClose = r.blockClose) ∧ openTyp ≠ closeTyp then
                  (st, .err (.mismatchedDelimiters openPos (start + idx)))
                else
                  let stop := start + idx
                  match splitAtByte remaining idx with
                  | none => (st, .panic)
                  | some (content, _) =>
                    match r.findNextDelimiter (enc content) true with
                    | some (_, idx) => (st, .err (.nestedDelimiters (start + idx)))
                    | none =>
                      let replaced := replaceHtmlEntities content
                      match f st replaced openTyp with
                      | (st, .ok text) =>
                        r.replaceLoop f input fuel (stop + r.closingLen closeTyp)
                          (result ++ text) st
                      | (st, .error _) =>
                        match f st replaced openTyp with
                        | (st, .error e) => (st, .err (.latexError start e replaced))
                        | (st, .ok _) => (st, .panic)
    else (st, .ok result)

/-- replace.rs:111-211 `replace`. Every formula takes up at least one byte, so the fuel is enough
(`C30_document` covers all outcomes). -/
def Replacer.replace {S E : Type} (r : Replacer) (f : S → Str → MathDisplay → S × Except E Str)
    (input : Str) (st : S) : S × ReplaceResult E :=
  r.replaceLoop f input (blen input + 1) 0 [] st

/-- replace.rs:59-70, the loop of `line_and_col` with the byte offset `i` of the next character -/
def lineAndColLoop (loc : Nat) : Str → Nat → Nat × Nat → Nat × Nat
  | [], _, lc => lc
  | ch :: rest, i, (line, col) =>
    if loc ≤ i then (line, col)
    else lineAndColLoop loc rest (i + ch.utf8Size)
      (if ch = '\n' then (line + 1, 1) else (line, col + 1))

/-- replace.rs:55-72 `line_and_col` -/
def lineAndCol (loc : Nat) (input : Str) : Nat × Nat := lineAndColLoop loc input 0 (1, 1)

end Verif.Model

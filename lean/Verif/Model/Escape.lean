import Verif.Basic
/-!
Model of the escaping functions.
-/
namespace Verif.Model

/-- crates/math-core/src/html_utils.rs:14, the three bytes `memchr3` searches for. -/
def isContentSpecial (c : Char) : Bool := c == '&' || c == '<' || c == '>'

/-- html_utils.rs:26-31, what is appended for a special character (`_ => {}` appends nothing). -/
def contentEntity (c : Char) : Str :=
  if c == '&' then c!"&amp;" else if c == '<' then c!"&lt;" else if c == '>' then c!"&gt;" else []

/-- html_utils.rs:10-38 `escape_html_content`: search for the next special character with
`memchr3` (here `findIdx?`), copy what is before it, append the entity, go on behind it.
`output` is the buffer that is appended to. Works on characters instead of bytes; every byte
it looks for is ASCII and thus never part of a multi-byte character. -/
def escapeHtmlContent (output : Str) (haystack : Str) : Str :=
  match haystack.findIdx? isContentSpecial with
  | none => output ++ haystack
  | some index =>
    let before := haystack.take index
    match h : haystack.drop index with
    | [] => (output ++ before) ++ haystack
    | special :: rest =>
      escapeHtmlContent (output ++ before ++ contentEntity special) rest
termination_by haystack.length
decreasing_by
  have := congrArg List.length h
  simp at this; omega

/-- html_utils.rs:49-58 `escape_double_quoted_html_attribute`. -/
def escapeAttr (output : Str) : Str → Str
  | [] => output
  | ch :: rest =>
    escapeAttr (output ++ (if ch == '&' then c!"&amp;" else if ch == '"' then c!"&quot;" else [ch])) rest

/-- crates/mathml-renderer/src/escaping.rs:15-30, `Display for EscapeHtml`. -/
def escapeHtml : Str → Str
  | [] => []
  | c :: cs =>
    (if c == '<' then c!"&lt;" else if c == '>' then c!"&gt;" else if c == '&' then c!"&amp;"
      else if c == '"' then c!"&quot;" else if c == '\'' then c!"&#39;" else [c]) ++ escapeHtml cs

/-- escaping.rs:33-47 `FRAGMENT_SAFE` together with the rule of the `percent-encoding` crate
that non-ASCII bytes are always encoded: the bytes which get percent-encoded.
`CONTROLS` is 0x00-0x1F and 0x7F. -/
def mustEncode (b : UInt8) : Bool :=
  b ≥ 0x80 || b < 0x20 || b == 0x7f ||
  b == 0x20 || b == 0x22 || b == 0x23 || b == 0x25 || b == 0x3c || b == 0x3e || b == 0x5b ||
  b == 0x5c || b == 0x5d || b == 0x5e || b == 0x60 || b == 0x7b || b == 0x7c || b == 0x7d

/-- Upper-case hexadecimal digit, as written by the `percent-encoding` crate and by
crates/mathml-renderer/src/itoa.rs:10-16. -/
def hexDigit (d : Nat) : Char :=
  if d < 10 then Char.ofNat (d + 48) else Char.ofNat (d - 10 + 65)

/-- One byte under `utf8_percent_encode(_, FRAGMENT_SAFE)`. -/
def encodeByte (b : UInt8) : Str :=
  if mustEncode b then ['%', hexDigit (b.toNat / 16), hexDigit (b.toNat % 16)]
  else [Char.ofNat b.toNat]

/-- `utf8_percent_encode(label, FRAGMENT_SAFE)` as used in
crates/mathml-renderer/src/ast.rs:795-810 and 986-1020. -/
def percentEncode (s : Str) : Str :=
  (s.flatMap String.utf8EncodeChar).flatMap encodeByte

end Verif.Model

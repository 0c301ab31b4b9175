import Verif.Model.Escape
/-!
Model of how an error is presented: crates/math-core/src/error.rs and the offset conversion in
crates/math-core-wasm/src/lib.rs.
-/
namespace Verif.Model

/-- `input[..input.floor_char_boundary(index)]`: the longest prefix of whole characters that
ends at or before the byte offset (error.rs:392-393; Rust's `floor_char_boundary` returns the
length of the text for an offset beyond the end). -/
def floorPrefix : Str → Nat → Str
  | [], _ => []
  | c :: cs, i => if c.utf8Size ≤ i then c :: floorPrefix cs (i - c.utf8Size) else []

/-- Decimal digits of a natural number, as written by `{}`. -/
def decimal (n : Nat) : Str := Nat.toDigits 10 n

/-- error.rs:391-396 `to_message`. `start` is the start of the error's span and `msg` is what
`write_msg` (error.rs:152-349) writes for the error kind; it is a parameter here, so the theorems
hold for every message text. -/
def toMessage (start : Nat) (msg : Str) (input : Str) : Str :=
  decimal (floorPrefix input start).length ++ c!": " ++ msg

/-- lib.rs `MathDisplay`. -/
inductive MathDisplay | inline | block
  deriving DecidableEq, Repr

/-- error.rs:360-376 `to_html`. -/
def toHtml (start : Nat) (msg : Str) (latex : Str) (display : MathDisplay)
    (cssClass : Option Str) : Str :=
  let tag := if display = .block then c!"p" else c!"span"
  let cls := cssClass.getD c!"math-core-error"
  let output := c!"<" ++ tag ++ c!" class=\"" ++ cls ++ c!"\" title=\""
  let output := escapeAttr output (toMessage start msg latex)
  let output := output ++ c!"\"><code>"
  let output := escapeHtmlContent output latex
  output ++ c!"</code></" ++ tag ++ c!">"

/-- Number of UTF-16 code units of a character (`char::len_utf16`). -/
def lenUtf16 (c : Char) : Nat := if c.toNat < 0x10000 then 1 else 2

/-- crates/math-core-wasm/src/lib.rs:394-398 `byte_offset_to_utf16_offset`. -/
def byteOffsetToUtf16 (s : Str) (byteOffset : Nat) : Nat :=
  match splitAtByte s byteOffset with
  | some (pre, _) => (pre.map lenUtf16).sum
  | none => byteOffset

/-- crates/mathml-renderer/src/ast.rs:795-810: the href written for `\eqref{label}`. -/
def eqrefHref (idPrefix label : Str) : Str := '#' :: (idPrefix ++ percentEncode label)

/-- crates/mathml-renderer/src/ast.rs:986-1020: the id written for a labelled equation. -/
def equationId (idPrefix label : Str) : Str := idPrefix ++ percentEncode label

end Verif.Model

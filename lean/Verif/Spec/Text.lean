import Verif.Basic
/-! Small independent specifications about text: percent decoding, entity forms, decimals,
column specifications. -/
namespace Verif.Spec

/-- Value of an upper-case hexadecimal digit. -/
def hexVal (c : Char) : Option Nat :=
  if '0' ≤ c ∧ c ≤ '9' then some (c.toNat - 48)
  else if 'A' ≤ c ∧ c ≤ 'F' then some (c.toNat - 55)
  else none

/-- Percent-decoding of a URL fragment into bytes (RFC 3986): `%XY` is the byte XY, an ASCII
character is its own byte, anything else is not a valid fragment. -/
def percentDecode : Str → Option (List UInt8)
  | [] => some []
  | c :: rest =>
    if c = '%' then
      match rest with
      | a :: b :: rest =>
        match hexVal a, hexVal b with
        | some x, some y => (percentDecode rest).map (UInt8.ofNat (16 * x + y) :: ·)
        | _, _ => none
      | _ => none
    else if c.toNat < 128 then (percentDecode rest).map (UInt8.ofNat c.toNat :: ·)
    else none

/-- Characters that must not occur raw in a fragment inside a double-quoted attribute. -/
def fragmentForbidden (c : Char) : Bool :=
  c.toNat < 33 || c.toNat ≥ 127 || c == '"' || c == '#' || c == '<' || c == '>'

/-- The entity names (without `&` and `;`) under which HTML authors write the five reserved
characters. -/
def entityNames : Char → List Str
  | '"' => [c!"quot", c!"#34"]
  | '&' => [c!"amp", c!"#38"]
  | '\'' => [c!"apos", c!"#39"]
  | '<' => [c!"lt", c!"#60"]
  | '>' => [c!"gt", c!"#62"]
  | _ => []

/-- `WrittenAs raw html`: `html` is a way to write the text `raw` in HTML, each character either
as itself (except `&`) or as one of its entities. -/
inductive WrittenAs : Str → Str → Prop
  | nil : WrittenAs [] []
  | plain {raw html : Str} (c : Char) (h : c ≠ '&') (t : WrittenAs raw html) :
      WrittenAs (c :: raw) (c :: html)
  | entity {raw html : Str} (c : Char) (name : Str) (h : name ∈ entityNames c)
      (t : WrittenAs raw html) : WrittenAs (c :: raw) ('&' :: (name ++ ';' :: html))

/-- The number denoted by a string of decimal digits. -/
def digitsValue (ds : Str) : Nat := Nat.ofDigitChars 10 ds 0

/-- `IsDecimal s neg m k`: the text `s` is a decimal number with at most one dot; `neg` tells
whether it has a minus sign, `m` is the number without the dot and `k` the number of digits
after the dot, so its value is `± m / 10^k`. -/
def IsDecimal (s : Str) (neg : Bool) (m k : Nat) : Prop :=
  ∃ int frac : Str, (∀ c ∈ int, c.isDigit) ∧ (∀ c ∈ frac, c.isDigit) ∧
    (s = (if neg then ['-'] else []) ++ int ++ '.' :: frac ∨
      (frac = [] ∧ s = (if neg then ['-'] else []) ++ int)) ∧
    int ++ frac ≠ [] ∧ m = digitsValue (int ++ frac) ∧ k = frac.length

/-- LaTeX length units in lower case. -/
def unitNames : List Str :=
  [c!"pt", c!"mm", c!"cm", c!"in", c!"ex", c!"em", c!"mu", c!"sp"]

end Verif.Spec

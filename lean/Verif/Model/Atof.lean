import Verif.Basic
/-! Model of crates/math-core/src/atof.rs and crates/math-core/src/specifications.rs. -/
namespace Verif.Model

/-- The value computed by `limited_float_parse` before rounding: `±mantissa / 10^fracDigits`.
The division in `f64` and the narrowing to `f32` (atof.rs:68) are not modelled. -/
structure Dec where
  neg : Bool
  mantissa : Nat
  fracDigits : Nat
  deriving DecidableEq, Repr

/-- `u64::MAX`. -/
def u64Max : Nat := 2 ^ 64 - 1

/-- atof.rs:38-58, the loop over the bytes. State: mantissa, number of fractional digits (the
exponent of `divisor`), `seen_dot`, `seen_digit`. A non-ASCII character is never a digit, just
as none of its bytes is. -/
def floatLoop : Str → Nat → Nat → Bool → Bool → Option (Nat × Nat × Bool)
  | [], m, k, _, seenDigit => some (m, k, seenDigit)
  | b :: bs, m, k, seenDot, seenDigit =>
    if b == '.' then
      if seenDot then none else floatLoop bs m k true seenDigit
    else if isAsciiDigit b then
      let d := b.toNat - 48
      if m * 10 ≤ u64Max then                 -- checked_mul
        if m * 10 + d ≤ u64Max then           -- checked_add
          floatLoop bs (m * 10 + d) (if seenDot then k + 1 else k) seenDot true
        else none
      else none
    else none

/-- atof.rs:25-31, stripping of the sign. -/
def stripMinus : Str → Bool × Str
  | '-' :: rest => (true, rest)
  | digits => (false, digits)

/-- atof.rs:21-70 `limited_float_parse`. -/
def limitedFloatParse (digits : Str) : Option Dec :=
  match floatLoop (stripMinus digits).2 0 0 false false with
  | none => none
  | some (m, k, seenDigit) => if seenDigit then some ⟨(stripMinus digits).1, m, k⟩ else none

/-- specifications.rs:14-39 `LatexUnit`. -/
inductive LatexUnit | pt | mm | cm | inch | ex | em | mu | sp
  deriving DecidableEq, Repr

/-- `mathml_renderer::length::LengthUnit`. -/
inductive LengthUnit | rem | em | ex
  deriving DecidableEq, Repr

/-- ASCII lower-casing of one character. -/
def lowerAscii (c : Char) : Char :=
  if 'A' ≤ c ∧ c ≤ 'Z' then Char.ofNat (c.toNat + 32) else c

/-- specifications.rs:13-39, the derived case-insensitive `TryFrom<&str>`. -/
def LatexUnit.ofStr (s : Str) : Option LatexUnit :=
  match s.map lowerAscii with
  | ['p', 't'] => some .pt
  | ['m', 'm'] => some .mm
  | ['c', 'm'] => some .cm
  | ['i', 'n'] => some .inch
  | ['e', 'x'] => some .ex
  | ['e', 'm'] => some .em
  | ['m', 'u'] => some .mu
  | ['s', 'p'] => some .sp
  | _ => none

/-- specifications.rs:44-46 `is_math_unit`. -/
def LatexUnit.isMathUnit : LatexUnit → Bool
  | .mu => true
  | _ => false

/-- specifications.rs:48-62 `length_with_unit`: the factor, as a fraction, and the unit. -/
def LatexUnit.factor : LatexUnit → (Nat × Nat) × LengthUnit
  | .pt => ((1, 10), .rem)
  | .mm => ((28453, 100000), .rem)
  | .cm => ((28453, 10000), .rem)
  | .inch => ((72, 10), .rem)
  | .ex => ((1, 1), .ex)
  | .em => ((1, 1), .em)
  | .mu => ((55555556, 1000000000), .em)
  | .sp => ((1525879, 1000000000000), .rem)

/-- `str::trim_ascii_end`. -/
def trimAsciiEnd (s : Str) : Str := (s.reverse.dropWhile isAsciiWs).reverse

/-- specifications.rs:65-81 `parse_length_specification`. Returns the value, the unit, the unit
text and whether it is a math unit. -/
def parseLengthSpecification (s : Str) : Option (Dec × LatexUnit × Str × Bool) :=
  if blen s < 2 then none                                   -- checked_sub(2)
  else
    match splitAtByte s (blen s - 2) with
    | none => none
    | some (digits, unit) =>
      match limitedFloatParse (trimAsciiEnd digits) with
      | none => none
      | some value =>
        match LatexUnit.ofStr unit with
        | none => none
        | some u => some (value, u, unit, u.isMathUnit)

/-- `ColumnAlignment`. -/
inductive ColumnAlignment | left | center | right
  deriving DecidableEq, Repr

/-- `LineType`. -/
inductive LineType | solid | dashed
  deriving DecidableEq, Repr

/-- crates/mathml-renderer/src/table.rs `ColumnSpecEntry`. -/
inductive ColumnSpecEntry
  | withContent (alignment : ColumnAlignment) (borderRight : Option LineType)
  | onlyLine (line : LineType)
  deriving DecidableEq, Repr

/-- State of the loop in `parse_column_specification`. The vector is kept in reverse, so that
`last_mut` is the head. -/
structure ColState where
  revSpec : List ColumnSpecEntry
  borderLeft : Option LineType
  hasContent : Bool
  deriving Repr

/-- specifications.rs:99-149, one iteration. -/
def colStep (st : ColState) (ch : Char) : Option ColState :=
  if ch == 'l' || ch == 'c' || ch == 'r' then
    let alignment : ColumnAlignment :=
      if ch == 'l' then .left else if ch == 'c' then .center else .right
    some { st with revSpec := .withContent alignment none :: st.revSpec, hasContent := true }
  else if ch == '|' || ch == ':' then
    let lineType : LineType := if ch == '|' then .solid else .dashed
    match st.revSpec with
    | .withContent a none :: rest =>
      some { st with revSpec := .withContent a (some lineType) :: rest }
    | last :: rest => some { st with revSpec := .onlyLine lineType :: last :: rest }
    | [] =>
      match st.borderLeft with
      | none => some { st with borderLeft := some lineType }
      | some _ => some { st with revSpec := [.onlyLine lineType] }
  else if isAsciiWs ch then some st
  else none

/-- specifications.rs:97-150, the loop. -/
def colLoop : Str → ColState → Option ColState
  | [], st => some st
  | ch :: rest, st => (colStep st ch).bind (colLoop rest)

/-- The fields of `ArraySpec` that are set here. -/
structure ColumnSpec where
  borderLeft : Option LineType
  columns : List ColumnSpecEntry
  deriving DecidableEq, Repr

/-- specifications.rs:87-162 `parse_column_specification`. -/
def parseColumnSpecification (s : Str) : Option ColumnSpec :=
  match colLoop s ⟨[], none, false⟩ with
  | none => none
  | some st =>
    if st.revSpec.isEmpty || !st.hasContent then none
    else some ⟨st.borderLeft, st.revSpec.reverse⟩

end Verif.Model

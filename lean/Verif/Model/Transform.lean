import Verif.Model.SuperChar
/-! Model of `TextTransform` in crates/mathml-renderer/src/attribute.rs. Characters are compared by
their scalar values. -/
namespace Verif.Model

/-- attribute.rs:211-230 -/
inductive TextTransform
  | bold | boldFraktur | boldItalic | boldSansSerif | boldScript | doubleStruck | fraktur | italic
  | monospace | sansSerif | sansSerifBoldItalic | sansSerifItalic | scriptChancery
  | scriptRoundhand
  deriving DecidableEq, Repr

/-- attribute.rs:257-415, the `mapped` value as a scalar value. -/
def mappedCode (tf : TextTransform) (n : Nat) : Option Nat :=
  match tf with
  | .boldScript =>    -- 258-262
    if (0x41 ≤ n && n ≤ 0x5A) then some (n + 0x1D48F)
    else if (0x61 ≤ n && n ≤ 0x7A) then some (n + 0x1D489)
    else none
  | .boldItalic =>    -- 263-278
    if (0x41 ≤ n && n ≤ 0x5A) then some (n + 0x1D427)
    else if (0x61 ≤ n && n ≤ 0x7A) then some (n + 0x1D421)
    else if (0x391 ≤ n && n ≤ 0x3A9) then some (n + 0x1D38B)
    else if (0x3B1 ≤ n && n ≤ 0x3C9) then some (n + 0x1D385)
    else if n == 0x3F4 then some 0x1D72D
    else if n == 0x2207 then some 0x1D735
    else if n == 0x2202 then some 0x1D74F
    else if n == 0x3F5 then some 0x1D750
    else if n == 0x3D1 then some 0x1D751
    else if n == 0x3F0 then some 0x1D752
    else if n == 0x3D5 then some 0x1D753
    else if n == 0x3F1 then some 0x1D754
    else if n == 0x3D6 then some 0x1D755
    else none
  | .bold =>    -- 279-296
    if (0x41 ≤ n && n ≤ 0x5A) then some (n + 0x1D3BF)
    else if (0x61 ≤ n && n ≤ 0x7A) then some (n + 0x1D3B9)
    else if (0x391 ≤ n && n ≤ 0x3A9) then some (n + 0x1D317)
    else if (0x3B1 ≤ n && n ≤ 0x3C9) then some (n + 0x1D311)
    else if (0x3DC ≤ n && n ≤ 0x3DD) then some (n + 0x1D3EE)
    else if (0x30 ≤ n && n ≤ 0x39) then some (n + 0x1D79E)
    else if n == 0x3F4 then some 0x1D6B9
    else if n == 0x2207 then some 0x1D6C1
    else if n == 0x2202 then some 0x1D6DB
    else if n == 0x3F5 then some 0x1D6DC
    else if n == 0x3D1 then some 0x1D6DD
    else if n == 0x3F0 then some 0x1D6DE
    else if n == 0x3D5 then some 0x1D6DF
    else if n == 0x3F1 then some 0x1D6E0
    else if n == 0x3D6 then some 0x1D6E1
    else none
  | .fraktur =>    -- 297-305
    if (0x41 ≤ n && n ≤ 0x42) ||
        (0x44 ≤ n && n ≤ 0x47) ||
        (0x4A ≤ n && n ≤ 0x51) ||
        (0x53 ≤ n && n ≤ 0x59) then some (n + 0x1D4C3)
    else if (0x48 ≤ n && n ≤ 0x49) then some (n + 0x20C4)
    else if (0x61 ≤ n && n ≤ 0x7A) then some (n + 0x1D4BD)
    else if n == 0x43 then some 0x212D
    else if n == 0x52 then some 0x211C
    else if n == 0x5A then some 0x2128
    else none
  | .scriptChancery | .scriptRoundhand =>    -- 306-322
    if n == 0x41 ||
        (0x43 ≤ n && n ≤ 0x44) ||
        n == 0x47 ||
        (0x4A ≤ n && n ≤ 0x4B) || (0x4E ≤ n && n ≤ 0x51) || (0x53 ≤ n && n ≤ 0x5A) then some (n + 0x1D45B)
    else if (0x45 ≤ n && n ≤ 0x46) then some (n + 0x20EB)
    else if (0x61 ≤ n && n ≤ 0x64) || n == 0x66 || (0x68 ≤ n && n ≤ 0x6E) || (0x70 ≤ n && n ≤ 0x7A) then some (n + 0x1D455)
    else if n == 0x42 then some 0x212C
    else if n == 0x48 then some 0x210B
    else if n == 0x49 then some 0x2110
    else if n == 0x4C then some 0x2112
    else if n == 0x4D then some 0x2133
    else if n == 0x52 then some 0x211B
    else if n == 0x65 then some 0x212F
    else if n == 0x67 then some 0x210A
    else if n == 0x6F then some 0x2134
    else none
  | .monospace =>    -- 323-328
    if (0x41 ≤ n && n ≤ 0x5A) then some (n + 0x1D62F)
    else if (0x61 ≤ n && n ≤ 0x7A) then some (n + 0x1D629)
    else if (0x30 ≤ n && n ≤ 0x39) then some (n + 0x1D7C6)
    else none
  | .sansSerif =>    -- 329-334
    if (0x41 ≤ n && n ≤ 0x5A) then some (n + 0x1D55F)
    else if (0x61 ≤ n && n ≤ 0x7A) then some (n + 0x1D559)
    else if (0x30 ≤ n && n ≤ 0x39) then some (n + 0x1D7B2)
    else none
  | .boldFraktur =>    -- 335-339
    if (0x41 ≤ n && n ≤ 0x5A) then some (n + 0x1D52B)
    else if (0x61 ≤ n && n ≤ 0x7A) then some (n + 0x1D525)
    else none
  | .sansSerifBoldItalic =>    -- 340-355
    if (0x41 ≤ n && n ≤ 0x5A) then some (n + 0x1D5FB)
    else if (0x61 ≤ n && n ≤ 0x7A) then some (n + 0x1D5F5)
    else if (0x391 ≤ n && n ≤ 0x3A9) then some (n + 0x1D3FF)
    else if (0x3B1 ≤ n && n ≤ 0x3C9) then some (n + 0x1D3F9)
    else if n == 0x3F4 then some 0x1D7A1
    else if n == 0x2207 then some 0x1D7A9
    else if n == 0x2202 then some 0x1D7C3
    else if n == 0x3F5 then some 0x1D7C4
    else if n == 0x3D1 then some 0x1D7C5
    else if n == 0x3F0 then some 0x1D7C6
    else if n == 0x3D5 then some 0x1D7C7
    else if n == 0x3F1 then some 0x1D7C8
    else if n == 0x3D6 then some 0x1D7C9
    else none
  | .sansSerifItalic =>    -- 356-360
    if (0x41 ≤ n && n ≤ 0x5A) then some (n + 0x1D5C7)
    else if (0x61 ≤ n && n ≤ 0x7A) then some (n + 0x1D5C1)
    else none
  | .boldSansSerif =>    -- 361-377
    if (0x41 ≤ n && n ≤ 0x5A) then some (n + 0x1D593)
    else if (0x61 ≤ n && n ≤ 0x7A) then some (n + 0x1D58D)
    else if (0x391 ≤ n && n ≤ 0x3A9) then some (n + 0x1D3C5)
    else if (0x3B1 ≤ n && n ≤ 0x3C9) then some (n + 0x1D3BF)
    else if (0x30 ≤ n && n ≤ 0x39) then some (n + 0x1D7BC)
    else if n == 0x3F4 then some 0x1D767
    else if n == 0x2207 then some 0x1D76F
    else if n == 0x2202 then some 0x1D789
    else if n == 0x3F5 then some 0x1D78A
    else if n == 0x3D1 then some 0x1D78B
    else if n == 0x3F0 then some 0x1D78C
    else if n == 0x3D5 then some 0x1D78D
    else if n == 0x3F1 then some 0x1D78E
    else if n == 0x3D6 then some 0x1D78F
    else none
  | .doubleStruck =>    -- 378-395
    if (0x41 ≤ n && n ≤ 0x42) ||
        (0x44 ≤ n && n ≤ 0x47) ||
        (0x49 ≤ n && n ≤ 0x4D) ||
        n == 0x4F || (0x53 ≤ n && n ≤ 0x59) then some (n + 0x1D4F7)
    else if (0x50 ≤ n && n ≤ 0x51) then some (n + 0x20C9)
    else if (0x61 ≤ n && n ≤ 0x7A) then some (n + 0x1D4F1)
    else if (0x30 ≤ n && n ≤ 0x39) then some (n + 0x1D7A8)
    else if n == 0x43 then some 0x2102
    else if n == 0x48 then some 0x210D
    else if n == 0x4E then some 0x2115
    else if n == 0x52 then some 0x211D
    else if n == 0x5A then some 0x2124
    else if n == 0x3C0 then some 0x213C
    else if n == 0x3B3 then some 0x213D
    else if n == 0x393 then some 0x213E
    else if n == 0x3A0 then some 0x213F
    else if n == 0x2211 then some 0x2140
    else none
  | .italic =>    -- 396-414
    if (0x41 ≤ n && n ≤ 0x5A) then some (n + 0x1D3F3)
    else if (0x61 ≤ n && n ≤ 0x67) || (0x69 ≤ n && n ≤ 0x7A) then some (n + 0x1D3ED)
    else if (0x391 ≤ n && n ≤ 0x3A9) then some (n + 0x1D351)
    else if (0x3B1 ≤ n && n ≤ 0x3C9) then some (n + 0x1D34B)
    else if n == 0x68 then some 0x210E
    else if n == 0x131 then some 0x1D6A4
    else if n == 0x237 then some 0x1D6A5
    else if n == 0x3F4 then some 0x1D6F3
    else if n == 0x2207 then some 0x1D6FB
    else if n == 0x2202 then some 0x1D715
    else if n == 0x3F5 then some 0x1D716
    else if n == 0x3D1 then some 0x1D717
    else if n == 0x3F0 then some 0x1D718
    else if n == 0x3D5 then some 0x1D719
    else if n == 0x3F1 then some 0x1D71A
    else if n == 0x3D6 then some 0x1D71B
    else none

/-- attribute.rs:251-429 `transform_char`; `add_offset` (233-237) is an unchecked conversion, which
the theorems show to be applied to valid scalar values only. -/
def transformChar (self : TextTransform) (c : Char) (isUpright : Bool) : SuperChar :=
  let tf := if isUpright && (self == .boldItalic) then .bold else self
  match mappedCode tf c.toNat with
  | some m =>
    match tf with
    | .scriptChancery => SuperChar.fromCharWithVs (Char.ofNat m) 0
    | .scriptRoundhand => SuperChar.fromCharWithVs (Char.ofNat m) 1
    | _ => SuperChar.fromChar (Char.ofNat m)
  | none => SuperChar.fromChar c

/-- attribute.rs:243-248 `transform` -/
def transform (self : TextTransform) (ts : SuperChar) (isUpright : Bool) : SuperChar :=
  match ts.tryAsChar with
  | some c => transformChar self c isUpright
  | none => ts

end Verif.Model

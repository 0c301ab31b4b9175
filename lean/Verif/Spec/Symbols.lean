import Verif.Basic
/-! Specifications for symbols with overlays and for the Unicode math alphabets. -/
namespace Verif.Spec

/-- The combining characters of Unicode used for negated symbols. -/
def solidusOverlay : Char := '̸'
def verticalOverlay : Char := '⃒'

/-- The canonical compositions of Unicode with the combining solidus U+0338 (UnicodeData.txt, without
the composition exclusion U+2ADC). -/
def solidusCompositions : List (Nat × Nat) :=
  [
   (0x2190, 0x219A), (0x2192, 0x219B), (0x2194, 0x21AE), (0x21D0, 0x21CD), (0x21D4, 0x21CE),
   (0x21D2, 0x21CF), (0x2203, 0x2204), (0x2208, 0x2209), (0x220B, 0x220C), (0x2223, 0x2224),
   (0x2225, 0x2226), (0x223C, 0x2241), (0x2243, 0x2244), (0x2245, 0x2247), (0x2248, 0x2249),
   (0x003D, 0x2260), (0x2261, 0x2262), (0x224D, 0x226D), (0x003C, 0x226E), (0x003E, 0x226F),
   (0x2264, 0x2270), (0x2265, 0x2271), (0x2272, 0x2274), (0x2273, 0x2275), (0x2276, 0x2278),
   (0x2277, 0x2279), (0x227A, 0x2280), (0x227B, 0x2281), (0x2282, 0x2284), (0x2283, 0x2285),
   (0x2286, 0x2288), (0x2287, 0x2289), (0x22A2, 0x22AC), (0x22A8, 0x22AD), (0x22A9, 0x22AE),
   (0x22AB, 0x22AF), (0x227C, 0x22E0), (0x227D, 0x22E1), (0x2291, 0x22E2), (0x2292, 0x22E3),
   (0x22B2, 0x22EA), (0x22B3, 0x22EB), (0x22B4, 0x22EC), (0x22B5, 0x22ED)]

/-- The single character for the negation of a character, if Unicode has one; a negated character
stays as it is. -/
def negated (c : Nat) : Option Nat :=
  if solidusCompositions.any (·.2 == c) then some c else solidusCompositions.lookup c

/-- Code point of the variation selector VS1 … VS15 (U+FE00 …), counting from 0. -/
def vsCode (i : Nat) : Nat := 0xFE00 + i

/-- Characters Unicode encodes elsewhere: reserved positions in the Mathematical Alphanumeric
Symbols block, and the characters of the Letterlike Symbols block to use instead
(Unicode Standard, section 22.2). -/
def letterlike : List (Nat × Nat) :=
  [(0x1D455, 0x210E), (0x1D49D, 0x212C), (0x1D4A0, 0x2130), (0x1D4A1, 0x2131), (0x1D4A3, 0x210B),
   (0x1D4A4, 0x2110), (0x1D4A7, 0x2112), (0x1D4A8, 0x2133), (0x1D4AD, 0x211B), (0x1D4BA, 0x212F),
   (0x1D4BC, 0x210A), (0x1D4C4, 0x2134), (0x1D506, 0x212D), (0x1D50B, 0x210C), (0x1D50C, 0x2111),
   (0x1D515, 0x211C), (0x1D51D, 0x2128), (0x1D53A, 0x2102), (0x1D53F, 0x210D), (0x1D545, 0x2115),
   (0x1D547, 0x2119), (0x1D548, 0x211A), (0x1D549, 0x211D), (0x1D551, 0x2124)]

/-- Where an alphabet is encoded in the Mathematical Alphanumeric Symbols block. -/
structure Alphabet where
  /-- code point of A; a–z follow Z directly -/
  latin : Nat
  /-- code point of the Greek capital Alpha -/
  greek : Option Nat
  /-- code point of the digit 0 -/
  digits : Option Nat
  /-- further characters -/
  extra : List (Nat × Nat)

/-- Position of a character in the Greek part of an alphabet: Α–Ρ, ϴ, Σ–Ω, ∇, α–ω, ∂ϵϑϰϕϱϖ. -/
def greekIndex (n : Nat) : Option Nat :=
  if 0x391 ≤ n ∧ n ≤ 0x3A1 then some (n - 0x391)
  else if n = 0x3F4 then some 17
  else if 0x3A3 ≤ n ∧ n ≤ 0x3A9 then some (n - 0x391)
  else if n = 0x2207 then some 25
  else if 0x3B1 ≤ n ∧ n ≤ 0x3C9 then some (n - 0x3B1 + 26)
  else if n = 0x2202 then some 51
  else if n = 0x3F5 then some 52
  else if n = 0x3D1 then some 53
  else if n = 0x3F0 then some 54
  else if n = 0x3D5 then some 55
  else if n = 0x3F1 then some 56
  else if n = 0x3D6 then some 57
  else none

/-- The code point of a character (given by its code point) in an alphabet, if it has one. -/
def Alphabet.code (a : Alphabet) (n : Nat) : Option Nat :=
  let raw : Option Nat :=
    if 0x41 ≤ n ∧ n ≤ 0x5A then some (a.latin + (n - 0x41))
    else if 0x61 ≤ n ∧ n ≤ 0x7A then some (a.latin + 26 + (n - 0x61))
    else if 0x30 ≤ n ∧ n ≤ 0x39 then a.digits.map (· + (n - 0x30))
    else match a.extra.lookup n with
      | some m => some m
      | none => match a.greek, greekIndex n with
        | some g, some i => some (g + i)
        | _, _ => none
  raw.map fun r => (letterlike.lookup r).getD r

end Verif.Spec

import Verif.Model.Transform
import Verif.Spec.Symbols
/-! The Unicode alphabet each font command should select. -/
namespace Verif.Spec
open Model (TextTransform)

/-- Where Unicode encodes the alphabet (Mathematical Alphanumeric Symbols, U+1D400–U+1D7FF). -/
def alphabetOf : TextTransform → Alphabet
  | .bold => ⟨0x1D400, some 0x1D6A8, some 0x1D7CE, [(0x3DC, 0x1D7CA), (0x3DD, 0x1D7CB)]⟩
  | .italic => ⟨0x1D434, some 0x1D6E2, none, [(0x131, 0x1D6A4), (0x237, 0x1D6A5)]⟩
  | .boldItalic => ⟨0x1D468, some 0x1D71C, none, []⟩
  | .scriptChancery => ⟨0x1D49C, none, none, []⟩
  | .scriptRoundhand => ⟨0x1D49C, none, none, []⟩
  | .boldScript => ⟨0x1D4D0, none, none, []⟩
  | .fraktur => ⟨0x1D504, none, none, []⟩
  | .doubleStruck => ⟨0x1D538, none, some 0x1D7D8,
      [(0x3C0, 0x213C), (0x3B3, 0x213D), (0x393, 0x213E), (0x3A0, 0x213F), (0x2211, 0x2140)]⟩
  | .boldFraktur => ⟨0x1D56C, none, none, []⟩
  | .sansSerif => ⟨0x1D5A0, none, some 0x1D7E2, []⟩
  | .boldSansSerif => ⟨0x1D5D4, some 0x1D756, some 0x1D7EC, []⟩
  | .sansSerifItalic => ⟨0x1D608, none, none, []⟩
  | .sansSerifBoldItalic => ⟨0x1D63C, some 0x1D790, none, []⟩
  | .monospace => ⟨0x1D670, none, some 0x1D7F6, []⟩

/-- The variation selector that distinguishes the two script styles. -/
def selectorOf : TextTransform → Str
  | .scriptChancery => [Char.ofNat (vsCode 0)]
  | .scriptRoundhand => [Char.ofNat (vsCode 1)]
  | _ => []

/-- The alphabet used for upright letters: bold instead of bold italic. -/
def uprightAlphabet : TextTransform → TextTransform
  | .boldItalic => .bold
  | t => t

end Verif.Spec

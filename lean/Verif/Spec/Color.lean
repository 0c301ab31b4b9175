import Verif.Spec.Text
/-!
Colours of the LaTeX package xcolor: how they are written, and their levels of red, green and blue. Nothing here is about the
converter.
-/
namespace Verif.Spec

/-- Levels of red, green and blue, from 0 to 255 -/
structure Levels where
  red : Nat
  green : Nat
  blue : Nat
  deriving DecidableEq

/-- The names of colours which are always defined in xcolor. The levels which xcolor gives as `1`, `.75`, `.5` and `.25` are 255,
191, 128 and 64; `cyan`, `magenta` and `yellow` are mixtures of inks, shown by the colours of these names in CSS. -/
def namedColours : List (Str × Levels) :=
  [(c!"red", ⟨255, 0, 0⟩), (c!"green", ⟨0, 255, 0⟩), (c!"blue", ⟨0, 0, 255⟩), (c!"cyan", ⟨0, 255, 255⟩),
   (c!"magenta", ⟨255, 0, 255⟩), (c!"yellow", ⟨255, 255, 0⟩), (c!"black", ⟨0, 0, 0⟩), (c!"gray", ⟨128, 128, 128⟩),
   (c!"white", ⟨255, 255, 255⟩), (c!"darkgray", ⟨64, 64, 64⟩), (c!"lightgray", ⟨191, 191, 191⟩),
   (c!"brown", ⟨191, 128, 64⟩), (c!"lime", ⟨191, 255, 0⟩), (c!"olive", ⟨128, 128, 0⟩), (c!"orange", ⟨255, 128, 0⟩),
   (c!"pink", ⟨255, 191, 191⟩), (c!"purple", ⟨191, 0, 64⟩), (c!"teal", ⟨0, 128, 128⟩), (c!"violet", ⟨128, 0, 128⟩)]

/-- The names whose levels are others in the output -/
def oddColours : List Str :=
  [c!"green", c!"cyan", c!"magenta", c!"yellow", c!"brown", c!"lime", c!"olive", c!"orange", c!"purple"]

/-- The names which the option `dvipsnames` of xcolor adds (mixtures of inks) -/
def inkNames : List Str :=
  [c!"Apricot", c!"Aquamarine", c!"Bittersweet", c!"Black", c!"Blue", c!"BlueGreen", c!"BlueViolet", c!"BrickRed",
   c!"Brown", c!"BurntOrange", c!"CadetBlue", c!"CarnationPink", c!"Cerulean", c!"CornflowerBlue", c!"Cyan", c!"Dandelion",
   c!"DarkOrchid", c!"Emerald", c!"ForestGreen", c!"Fuchsia", c!"Goldenrod", c!"Gray", c!"Green", c!"GreenYellow",
   c!"JungleGreen", c!"Lavender", c!"LimeGreen", c!"Magenta", c!"Mahogany", c!"Maroon", c!"Melon", c!"MidnightBlue",
   c!"Mulberry", c!"NavyBlue", c!"OliveGreen", c!"Orange", c!"OrangeRed", c!"Orchid", c!"Peach", c!"Periwinkle",
   c!"PineGreen", c!"Plum", c!"ProcessBlue", c!"Purple", c!"RawSienna", c!"Red", c!"RedOrange", c!"RedViolet",
   c!"Rhodamine", c!"RoyalBlue", c!"RoyalPurple", c!"RubineRed", c!"Salmon", c!"SeaGreen", c!"Sepia", c!"SkyBlue",
   c!"SpringGreen", c!"Tan", c!"TealBlue", c!"Thistle", c!"Turquoise", c!"Violet", c!"VioletRed", c!"White",
   c!"WildStrawberry", c!"Yellow", c!"YellowGreen", c!"YellowOrange"]

/-- All names of colours -/
def colourNames : List Str := namedColours.map (·.1) ++ inkNames

/-- Hexadecimal digits and their values -/
def hexDigits : List (Char × Nat) :=
  [('0', 0), ('1', 1), ('2', 2), ('3', 3), ('4', 4), ('5', 5), ('6', 6), ('7', 7), ('8', 8), ('9', 9),
   ('A', 10), ('B', 11), ('C', 12), ('D', 13), ('E', 14), ('F', 15), ('a', 10), ('b', 11), ('c', 12), ('d', 13), ('e', 14), ('f', 15)]

/-- The number for two hexadecimal digits -/
def hexPair (d e : Char × Nat) : Nat := 16 * d.2 + e.2

/-- Ways to write a colour -/
inductive Colour
  /-- by a name -/
  | named (row : Str × Levels)
  /-- `[HTML]{FF8000}` -/
  | html (r r' g g' b b' : Char × Nat)
  /-- `[RGB]{255,128,0}` -/
  | whole (r g b : Str)
  /-- `[rgb]{1,.5,0.25}`: the digits before and after the dots -/
  | parts (r g b : Str × Str)

/-- A decimal number; there is no dot without decimals. -/
def decimalText (n : Str × Str) : Str := n.1 ++ if n.2 = [] then [] else '.' :: n.2

/-- The colour model, in square brackets -/
def Colour.model : Colour → Option Str
  | .named _ => none
  | .html .. => some c!"HTML"
  | .whole .. => some c!"RGB"
  | .parts .. => some c!"rgb"

/-- What is written in braces -/
def Colour.text : Colour → Str
  | .named row => row.1
  | .html r r' g g' b b' => [r.1, r'.1, g.1, g'.1, b.1, b'.1]
  | .whole r g b => r ++ ',' :: (g ++ ',' :: b)
  | .parts r g b => decimalText r ++ ',' :: (decimalText g ++ ',' :: decimalText b)

/-- The level for a part of 1: 255 times the part, rounded to the nearest number -/
def partLevel (n : Str × Str) : Nat := (2 * 255 * digitsValue (n.1 ++ n.2) + 10 ^ n.2.length) / (2 * 10 ^ n.2.length)

/-- The levels of the colour -/
def Colour.levels : Colour → Levels
  | .named row => row.2
  | .html r r' g g' b b' => ⟨hexPair r r', hexPair g g', hexPair b b'⟩
  | .whole r g b => ⟨digitsValue r, digitsValue g, digitsValue b⟩
  | .parts r g b => ⟨partLevel r, partLevel g, partLevel b⟩

/-- A whole number up to 255 -/
def isLevel (s : Str) : Bool := !s.isEmpty && s.all Char.isDigit && decide (digitsValue s ≤ 255)

/-- A decimal number up to 1, with at most nineteen digits -/
def isPart (n : Str × Str) : Bool :=
  !(n.1 ++ n.2).isEmpty && (n.1 ++ n.2).all Char.isDigit && decide (digitsValue (n.1 ++ n.2) ≤ 10 ^ n.2.length) &&
    decide (n.2.length ≤ 19)

/-- The colour is described as it should be, and its name is none of the odd ones. -/
def Colour.proper : Colour → Bool
  | .named row => decide (row ∈ namedColours) && decide (row.1 ∉ oddColours)
  | .html r r' g g' b b' => [r, r', g, g', b, b'].all fun d => decide (d ∈ hexDigits)
  | .whole r g b => isLevel r && isLevel g && isLevel b
  | .parts r g b => isPart r && isPart g && isPart b

/-- Descriptions which mean no colour, and what is wrong -/
inductive NoColour : Option Str → Str → Str → Prop
  /-- a name which is not known -/
  | name {s : Str} : s ∉ colourNames → NoColour none s s
  /-- a colour model which is not known -/
  | model {m s : Str} : m ∉ [c!"rgb", c!"RGB", c!"HTML"] → NoColour (some m) s m
  /-- too many or too few digits -/
  | digits {s : Str} : s.length ≠ 6 → NoColour (some c!"HTML") s s
  /-- fewer than three numbers -/
  | few {m s : Str} : m ∈ [c!"rgb", c!"RGB"] → s.count ',' < 2 → NoColour (some m) s s
  /-- something which is not a number -/
  | number {m r g b x : Str} : m ∈ [c!"rgb", c!"RGB"] → ',' ∉ r → ',' ∉ g → ',' ∉ b → x ∈ [r, g, b] →
    (¬ ∃ neg m k, IsDecimal x neg m k) → NoColour (some m) (r ++ ',' :: (g ++ ',' :: b)) (r ++ ',' :: (g ++ ',' :: b))

/-- A byte in CSS: two hexadecimal digits -/
def cssByte (n : Nat) : Str := [(c!"0123456789ABCDEF")[n / 16]?.getD '0', (c!"0123456789ABCDEF")[n % 16]?.getD '0']

/-- The declaration of CSS for a colour -/
def Levels.css (l : Levels) : Str := c!"color:#" ++ cssByte l.red ++ cssByte l.green ++ cssByte l.blue ++ c!";"

end Verif.Spec

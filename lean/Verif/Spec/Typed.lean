import Verif.Spec.UnicodeMath
import Verif.Spec.Source
import Verif.Spec.Shape
import Verif.Model.Stores
/-!
Sources which consist of symbols, written as characters or by the commands of unicode-math: what is to be shown for them.
-/
namespace Verif.Spec
open Model

/-- A symbol which is to be shown, and its type -/
structure Symbol where
  char : Char
  type : Atom

/-- Characters which are not symbols in TeX: they have another meaning in the syntax, or they are primes. -/
def syntaxChars : List CharRange :=
  [(0x00, 0x00), (0x23, 0x27), (0x5c, 0x5c), (0x5e, 0x5f), (0x7b, 0x7b), (0x7d, 0x7e), (0x2032, 0x2037), (0x2057, 0x2057)]

/-- Characters whose type is not the one of unicode-math in the output, or which are not shown like other symbols -/
def oddChars : List CharRange :=
  [(0xb7, 0xb7), (0x2050, 0x2050), (0x2140, 0x2140), (0x221b, 0x221c), (0x2305, 0x2306), (0x233d, 0x233d), (0x233f, 0x233f),
   (0x25b5, 0x25b5), (0x27cc, 0x27cc), (0x27d3, 0x27d9), (0x27e0, 0x27e5), (0x2919, 0x291a), (0x292b, 0x2932),
   (0x2934, 0x2935), (0x29cd, 0x29cd), (0x29d6, 0x29d7), (0x29e0, 0x29e0), (0x29eb, 0x29eb), (0x29f8, 0x29f9),
   (0x29fe, 0x29ff), (0x2a1d, 0x2a21), (0x2a59, 0x2a59), (0x2a61, 0x2a61), (0x2a71, 0x2a72), (0x2ad9, 0x2add),
   (0x2ae1, 0x2ae1), (0x2aec, 0x2aed), (0x2aef, 0x2af0), (0x2af4, 0x2af5), (0x2afb, 0x2afb), (0x1eef0, 0x1eef1)]

/-- Is the character a symbol, and none of the odd ones? -/
def isSymbol (c : Char) : Bool :=
  !isAsciiWs c && !within c.toNat syntaxChars && !within c.toNat accentChars && !within c.toNat oddChars

/-- What is shown for a character. Some characters of the keyboard stand for others in TeX. -/
def shownFor (c : Char) : Char :=
  if c = '*' then '∗' else if c = '-' then '−' else if c = '"' then '”' else if c = '`' then '‘' else c

/-- The symbol a character stands for -/
def typedSymbol (c : Char) : Symbol := ⟨shownFor c, unicodeAtom c.toNat⟩

/-- Commands whose symbol or type is not the one of unicode-math in the output -/
def oddNames : List Str :=
  [c!"cdotp", c!"sqrt", c!"surd", c!"therefore", c!"because", c!"dashcolon", c!"coloneq", c!"eqcolon", c!"models",
   c!"blacktriangle", c!"vartriangle", c!"blacktriangleright", c!"bigtriangledown", c!"blacktriangledown", c!"triangledown",
   c!"blacktriangleleft", c!"Join", c!"Coloneq"]

/-- The symbol a command stands for -/
def SymbolRow.symbol (row : SymbolRow) : Symbol := ⟨Char.ofNat row.char, row.type⟩

/-- Does a number go on with this symbol? -/
def continuesDigits (x : Symbol) : Bool := isAsciiDigit x.char || x.char == '.'

/-- The source consists of these symbols: characters, commands which are not defined by the user, and whitespace. (Digits
which follow each other are one number, so that they are not here.) -/
inductive Writes (own : Str → Prop) : Str → List Symbol → Prop
  | nil : Writes own [] []
  | space {c s xs} : isAsciiWs c = true → Writes own s xs → Writes own (c :: s) xs
  | char {c s xs} : isSymbol c = true → (isAsciiDigit c = true → ∀ x ∈ xs.head?, continuesDigits x = false) →
    Writes own s xs → Writes own (c :: s) (typedSymbol c :: xs)
  | command {row s xs} : row ∈ symbolRows → row.name ∉ oddNames → ¬ own row.name →
    (∀ c ∈ s.head?, isAsciiAlpha c = false ∧ c ≠ '*') → Writes own s xs →
    Writes own ('\\' :: row.name ++ s) (row.symbol :: xs)

/-- Is there a macro with this name? -/
def definedName (cfg : ParserConfig) (g : GlobalState) (name : Str) : Prop :=
  (g.customCmds.get name .document).isSome = true ∨ (cfg.customCmds.get name .config).isSome = true

/-- The character which is shown by an element -/
def Shape.char : Shape → Option Char
  | .op c | .letter _ c => c.tryAsChar
  | .leaf name [c] => if name = c!"mn" then some c else none
  | _ => none

/-- The character which is shown for a token -/
def glyph : Token → Option Char
  | .digit d => some d
  | .op o | .mathOrTextMode (.op o) _ => o.asOp.sc.tryAsChar
  | .pseudoOperator _ | .pseudoOperatorLimits _ => none
  | t => (atomShape t.unwrapMath).char

/-- The character which is shown for a command, if this is a symbol -/
def commandChar (cfg : ParserConfig) (name : Str) : Option Char :=
  match cfg.builtin name with
  | some t => if (atomOf t).isSome then glyph t else none
  | none => none

/-- Commands which are not the same as the character they show: another font, another type of atom, or spaces which do not
depend on the browser -/
def oddCommands : List Str :=
  [c!"Alpha", c!"Beta", c!"Chi", c!"Delta", c!"Epsilon", c!"Eta", c!"Gamma", c!"Iota", c!"Kappa", c!"Lambda", c!"Mu", c!"Nu",
   c!"Omega", c!"Omicron", c!"Phi", c!"Pi", c!"Psi", c!"Rho", c!"Sigma", c!"Tau", c!"Theta", c!"Upsilon", c!"Xi", c!"Zeta",
   c!"because", c!"bigtriangledown", c!"blacktriangleleft", c!"blacktriangleright", c!"cdots", c!"circlearrowleft",
   c!"circlearrowright", c!"circleddash", c!"colon", c!"complement", c!"dag", c!"dashleftarrow", c!"dashrightarrow", c!"ddag",
   c!"diagdown", c!"diagup", c!"lVert", c!"lbrack", c!"ldotp", c!"lvert", c!"nabla", c!"rVert", c!"rbrack", c!"rvert",
   c!"therefore", c!"triangle", c!"vartriangle"]

/-- The second source consists of symbols which are all written as characters. In the first one there may be the command
which shows it in the place of a character, and whitespace. -/
inductive Swapped (cfg : ParserConfig) (own : Str → Prop) : Str → Str → Prop
  | nil : Swapped cfg own [] []
  | space {c s s'} : isAsciiWs c = true → Swapped cfg own s s' → Swapped cfg own (c :: s) s'
  | char {c s s'} : isSymbol c = true → (isAsciiDigit c = true → ∀ d ∈ s'.head?, isAsciiDigit d = false ∧ d ≠ '.') →
    Swapped cfg own s s' → Swapped cfg own (c :: s) (c :: s')
  | command {name c s s'} : name ≠ [] → (∀ d ∈ name, isAsciiAlpha d = true) → commandChar cfg name = some c →
    isSymbol c = true → name ∉ oddCommands → ¬ own name → (∀ d ∈ s.head?, isAsciiAlpha d = false ∧ d ≠ '*') →
    Swapped cfg own s s' → Swapped cfg own ('\\' :: name ++ s) (c :: s')

end Verif.Spec

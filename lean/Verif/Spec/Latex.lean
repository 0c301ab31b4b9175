import Verif.Spec.UnicodeMath
import Verif.Spec.Symbols
/-! Commands of LaTeX, amsmath and similar packages: what they show. -/
namespace Verif.Spec

/-- What a source consists of: characters, commands, and the beginning and the end of environments -/
inductive Lexeme
  | char (c : Char)
  | command (name : Str)
  | opens (env : Str)
  | closes (env : Str)
  /-- a character directly after what is before it -/
  | next (c : Char)
  /-- whitespace, in text -/
  | blank
  deriving DecidableEq

/-- Must there be no whitespace in front of it? -/
def Lexeme.tight : Lexeme → Bool
  | .next _ | .blank => true
  | _ => false

/-- Commands for symbols which are not in the table of unicode-math: letters, and other names for symbols -/
def latexRows : List SymbolRow :=
  [⟨c!"alpha", 0x3b1, .ord⟩, ⟨c!"beta", 0x3b2, .ord⟩, ⟨c!"gamma", 0x3b3, .ord⟩, ⟨c!"delta", 0x3b4, .ord⟩,
   ⟨c!"epsilon", 0x3f5, .ord⟩, ⟨c!"zeta", 0x3b6, .ord⟩, ⟨c!"eta", 0x3b7, .ord⟩, ⟨c!"theta", 0x3b8, .ord⟩,
   ⟨c!"iota", 0x3b9, .ord⟩, ⟨c!"kappa", 0x3ba, .ord⟩, ⟨c!"lambda", 0x3bb, .ord⟩, ⟨c!"mu", 0x3bc, .ord⟩,
   ⟨c!"nu", 0x3bd, .ord⟩, ⟨c!"xi", 0x3be, .ord⟩, ⟨c!"omicron", 0x3bf, .ord⟩, ⟨c!"pi", 0x3c0, .ord⟩,
   ⟨c!"rho", 0x3c1, .ord⟩, ⟨c!"sigma", 0x3c3, .ord⟩, ⟨c!"tau", 0x3c4, .ord⟩, ⟨c!"upsilon", 0x3c5, .ord⟩,
   ⟨c!"phi", 0x3d5, .ord⟩, ⟨c!"chi", 0x3c7, .ord⟩, ⟨c!"psi", 0x3c8, .ord⟩, ⟨c!"omega", 0x3c9, .ord⟩,
   ⟨c!"varepsilon", 0x3b5, .ord⟩, ⟨c!"vartheta", 0x3d1, .ord⟩, ⟨c!"varkappa", 0x3f0, .ord⟩, ⟨c!"varphi", 0x3c6, .ord⟩,
   ⟨c!"varpi", 0x3d6, .ord⟩, ⟨c!"varrho", 0x3f1, .ord⟩, ⟨c!"varsigma", 0x3c2, .ord⟩, ⟨c!"digamma", 0x3dd, .ord⟩,
   ⟨c!"Alpha", 0x391, .ord⟩, ⟨c!"Beta", 0x392, .ord⟩, ⟨c!"Gamma", 0x393, .ord⟩, ⟨c!"Delta", 0x394, .ord⟩,
   ⟨c!"Epsilon", 0x395, .ord⟩, ⟨c!"Zeta", 0x396, .ord⟩, ⟨c!"Eta", 0x397, .ord⟩, ⟨c!"Theta", 0x398, .ord⟩,
   ⟨c!"Iota", 0x399, .ord⟩, ⟨c!"Kappa", 0x39a, .ord⟩, ⟨c!"Lambda", 0x39b, .ord⟩, ⟨c!"Mu", 0x39c, .ord⟩,
   ⟨c!"Nu", 0x39d, .ord⟩, ⟨c!"Xi", 0x39e, .ord⟩, ⟨c!"Omicron", 0x39f, .ord⟩, ⟨c!"Pi", 0x3a0, .ord⟩,
   ⟨c!"Rho", 0x3a1, .ord⟩, ⟨c!"Sigma", 0x3a3, .ord⟩, ⟨c!"Tau", 0x3a4, .ord⟩, ⟨c!"Upsilon", 0x3a5, .ord⟩,
   ⟨c!"Phi", 0x3a6, .ord⟩, ⟨c!"Chi", 0x3a7, .ord⟩, ⟨c!"Psi", 0x3a8, .ord⟩, ⟨c!"Omega", 0x3a9, .ord⟩,
   ⟨c!"varGamma", 0x393, .ord⟩, ⟨c!"varDelta", 0x394, .ord⟩, ⟨c!"varTheta", 0x398, .ord⟩,
   ⟨c!"varLambda", 0x39b, .ord⟩, ⟨c!"varXi", 0x39e, .ord⟩, ⟨c!"varPi", 0x3a0, .ord⟩, ⟨c!"varSigma", 0x3a3, .ord⟩,
   ⟨c!"varUpsilon", 0x3a5, .ord⟩, ⟨c!"varPhi", 0x3a6, .ord⟩, ⟨c!"varPsi", 0x3a8, .ord⟩, ⟨c!"varOmega", 0x3a9, .ord⟩,
   ⟨c!"aleph", 0x2135, .ord⟩, ⟨c!"beth", 0x2136, .ord⟩, ⟨c!"gimel", 0x2137, .ord⟩, ⟨c!"daleth", 0x2138, .ord⟩,
   ⟨c!"ell", 0x2113, .ord⟩, ⟨c!"hbar", 0x210f, .ord⟩, ⟨c!"hslash", 0x210f, .ord⟩, ⟨c!"Re", 0x211c, .ord⟩,
   ⟨c!"Im", 0x2111, .ord⟩, ⟨c!"wp", 0x2118, .ord⟩, ⟨c!"partial", 0x2202, .ord⟩, ⟨c!"nabla", 0x2207, .ord⟩,
   ⟨c!"imath", 0x131, .ord⟩, ⟨c!"jmath", 0x237, .ord⟩, ⟨c!"eth", 0xf0, .ord⟩, ⟨c!"Bbbk", 0x1d55c, .ord⟩,
   ⟨c!"circledR", 0xae, .ord⟩, ⟨c!"circledS", 0x24c8, .ord⟩, ⟨c!"backepsilon", 0x3f6, .ord⟩,
   ⟨c!"square", 0x25a1, .ord⟩, ⟨c!"blacksquare", 0x25a0, .ord⟩, ⟨c!"lozenge", 0x25ca, .ord⟩,
   ⟨c!"blacklozenge", 0x29eb, .ord⟩, ⟨c!"degree", 0xb0, .ord⟩, ⟨c!"copyright", 0xa9, .ord⟩, ⟨c!"pounds", 0xa3, .ord⟩,
   ⟨c!"yen", 0xa5, .ord⟩, ⟨c!"S", 0xa7, .ord⟩, ⟨c!"P", 0xb6, .ord⟩, ⟨c!"lnot", 0xac, .ord⟩, ⟨c!"exist", 0x2203, .ord⟩,
   ⟨c!"infin", 0x221e, .ord⟩, ⟨c!"alef", 0x2135, .ord⟩, ⟨c!"alefsym", 0x2135, .ord⟩, ⟨c!"Complex", 0x2102, .ord⟩,
   ⟨c!"cnums", 0x2102, .ord⟩, ⟨c!"N", 0x2115, .ord⟩, ⟨c!"natnums", 0x2115, .ord⟩, ⟨c!"R", 0x211d, .ord⟩,
   ⟨c!"Reals", 0x211d, .ord⟩, ⟨c!"reals", 0x211d, .ord⟩, ⟨c!"Z", 0x2124, .ord⟩, ⟨c!"clubs", 0x2663, .ord⟩,
   ⟨c!"spades", 0x2660, .ord⟩, ⟨c!"hearts", 0x2661, .ord⟩, ⟨c!"diamonds", 0x2662, .ord⟩, ⟨c!"image", 0x2111, .ord⟩,
   ⟨c!"real", 0x211c, .ord⟩, ⟨c!"weierp", 0x2118, .ord⟩, ⟨c!"thetasym", 0x3d1, .ord⟩, ⟨c!"sect", 0xa7, .ord⟩,
   ⟨c!"lq", 0x2018, .ord⟩, ⟨c!"rq", 0x2019, .ord⟩, ⟨c!"le", 0x2264, .rel⟩, ⟨c!"ge", 0x2265, .rel⟩,
   ⟨c!"neq", 0x2260, .rel⟩, ⟨c!"to", 0x2192, .rel⟩, ⟨c!"gets", 0x2190, .rel⟩, ⟨c!"owns", 0x220b, .rel⟩,
   ⟨c!"lt", 0x3c, .rel⟩, ⟨c!"gt", 0x3e, .rel⟩, ⟨c!"gggtr", 0x22d9, .rel⟩, ⟨c!"llless", 0x22d8, .rel⟩,
   ⟨c!"doteqdot", 0x2251, .rel⟩, ⟨c!"leadsto", 0x21dd, .rel⟩, ⟨c!"dashleftarrow", 0x21e0, .rel⟩,
   ⟨c!"dashrightarrow", 0x21e2, .rel⟩, ⟨c!"circlearrowleft", 0x21ba, .rel⟩, ⟨c!"circlearrowright", 0x21bb, .rel⟩,
   ⟨c!"restriction", 0x21be, .rel⟩, ⟨c!"nsucceq", 0x22e1, .rel⟩, ⟨c!"npreceq", 0x22e0, .rel⟩,
   ⟨c!"ntriangleleft", 0x22ea, .rel⟩, ⟨c!"ntriangleright", 0x22eb, .rel⟩, ⟨c!"darr", 0x2193, .rel⟩,
   ⟨c!"uarr", 0x2191, .rel⟩, ⟨c!"larr", 0x2190, .rel⟩, ⟨c!"rarr", 0x2192, .rel⟩, ⟨c!"harr", 0x2194, .rel⟩,
   ⟨c!"lrarr", 0x2194, .rel⟩, ⟨c!"dArr", 0x21d3, .rel⟩, ⟨c!"uArr", 0x21d1, .rel⟩, ⟨c!"lArr", 0x21d0, .rel⟩,
   ⟨c!"rArr", 0x21d2, .rel⟩, ⟨c!"hArr", 0x21d4, .rel⟩, ⟨c!"lrArr", 0x21d4, .rel⟩, ⟨c!"Darr", 0x21d3, .rel⟩,
   ⟨c!"Uarr", 0x21d1, .rel⟩, ⟨c!"Larr", 0x21d0, .rel⟩, ⟨c!"Rarr", 0x21d2, .rel⟩, ⟨c!"Harr", 0x21d4, .rel⟩,
   ⟨c!"Lrarr", 0x21d4, .rel⟩, ⟨c!"isin", 0x2208, .rel⟩, ⟨c!"sub", 0x2282, .rel⟩, ⟨c!"sube", 0x2286, .rel⟩,
   ⟨c!"supe", 0x2287, .rel⟩, ⟨c!"ratio", 0x2236, .rel⟩, ⟨c!"notni", 0x220c, .rel⟩, ⟨c!"land", 0x2227, .bin⟩,
   ⟨c!"lor", 0x2228, .bin⟩, ⟨c!"plusmn", 0xb1, .bin⟩, ⟨c!"circ", 0x2218, .bin⟩, ⟨c!"bullet", 0x2219, .bin⟩,
   ⟨c!"diamond", 0x22c4, .bin⟩, ⟨c!"doublecap", 0x22d2, .bin⟩, ⟨c!"doublecup", 0x22d3, .bin⟩,
   ⟨c!"Dagger", 0x2021, .bin⟩, ⟨c!"bigcirc", 0x25ef, .bin⟩, ⟨c!"lhd", 0x22b2, .bin⟩, ⟨c!"rhd", 0x22b3, .bin⟩,
   ⟨c!"unlhd", 0x22b4, .bin⟩, ⟨c!"unrhd", 0x22b5, .bin⟩, ⟨c!"lang", 0x27e8, .opening⟩, ⟨c!"lvert", 0x7c, .opening⟩,
   ⟨c!"lVert", 0x2016, .opening⟩, ⟨c!"llbracket", 0x27e6, .opening⟩, ⟨c!"rang", 0x27e9, .closing⟩,
   ⟨c!"rvert", 0x7c, .closing⟩, ⟨c!"rVert", 0x2016, .closing⟩, ⟨c!"rrbracket", 0x27e7, .closing⟩,
   ⟨c!"colon", 0x3a, .punct⟩, ⟨c!"ldotp", 0x2e, .punct⟩, ⟨c!"{", 0x7b, .opening⟩, ⟨c!"}", 0x7d, .closing⟩,
   ⟨c!"|", 0x2016, .ord⟩, ⟨c!"#", 0x23, .ord⟩, ⟨c!"$", 0x24, .ord⟩, ⟨c!"%", 0x25, .ord⟩, ⟨c!"&", 0x26, .ord⟩,
   ⟨c!"_", 0x5f, .ord⟩]

/-- A command for the name of a function, what is shown, and whether scripts are put below and above it -/
structure FunctionRow where
  name : Str
  shown : Str
  limits : Bool
  deriving DecidableEq

/-- Functions without limits -/
def plainFunctions : List Str :=
  [c!"arccos", c!"arcsin", c!"arctan", c!"arg", c!"cos", c!"cosh", c!"cot", c!"coth", c!"csc", c!"deg", c!"dim",
   c!"exp", c!"hom", c!"ker", c!"lg", c!"ln", c!"log", c!"sec", c!"sin", c!"sinh", c!"tan", c!"tanh", c!"arcctg",
   c!"arctg", c!"ch", c!"cosec", c!"cotg", c!"ctg", c!"cth", c!"sh", c!"tg", c!"th", c!"erf", c!"erfc"]

/-- Functions with limits. Words are separated by a thin space. -/
def limitFunctions : List (Str × Str) :=
  [(c!"lim", c!"lim"), (c!"max", c!"max"), (c!"min", c!"min"), (c!"sup", c!"sup"), (c!"inf", c!"inf"),
   (c!"gcd", c!"gcd"), (c!"Pr", c!"Pr"), (c!"plim", c!"plim"), (c!"liminf", c!"lim\u2009inf"),
   (c!"limsup", c!"lim\u2009sup"), (c!"injlim", c!"inj\u2009lim"), (c!"projlim", c!"proj\u2009lim"),
   (c!"argmax", c!"arg\u2009max"), (c!"argmin", c!"arg\u2009min")]

/-- The commands for functions -/
def functionRows : List FunctionRow :=
  plainFunctions.map (fun n => ⟨n, n, false⟩) ++ limitFunctions.map fun p => ⟨p.1, p.2, true⟩

/-- A command for something above or below its argument -/
structure AccentRow where
  name : Str
  char : Nat
  over : Bool
  deriving DecidableEq

/-- The commands for accents and arrows -/
def accentRows : List AccentRow :=
  [⟨c!"hat", 0x2c6, true⟩, ⟨c!"check", 0x2c7, true⟩, ⟨c!"tilde", 0x2dc, true⟩, ⟨c!"acute", 0xb4, true⟩,
   ⟨c!"grave", 0x60, true⟩, ⟨c!"dot", 0x2d9, true⟩, ⟨c!"ddot", 0xa8, true⟩, ⟨c!"dddot", 0x20db, true⟩,
   ⟨c!"ddddot", 0x20dc, true⟩, ⟨c!"breve", 0x2d8, true⟩, ⟨c!"bar", 0xaf, true⟩, ⟨c!"vec", 0x20d7, true⟩,
   ⟨c!"mathring", 0x2da, true⟩, ⟨c!"widehat", 0x302, true⟩, ⟨c!"overline", 0x332, true⟩,
   ⟨c!"overrightarrow", 0x2192, true⟩, ⟨c!"overleftarrow", 0x2190, true⟩, ⟨c!"overleftrightarrow", 0x2194, true⟩,
   ⟨c!"Overrightarrow", 0x21d2, true⟩, ⟨c!"overleftharpoon", 0x21bc, true⟩, ⟨c!"overrightharpoon", 0x21c0, true⟩,
   ⟨c!"overgroup", 0x23e0, true⟩, ⟨c!"underline", 0x332, false⟩, ⟨c!"underrightarrow", 0x2192, false⟩,
   ⟨c!"underleftarrow", 0x2190, false⟩, ⟨c!"underleftrightarrow", 0x2194, false⟩, ⟨c!"undergroup", 0x23e1, false⟩]

/-- The commands for braces -/
def braceRows : List AccentRow :=
  [⟨c!"overbrace", 0x23de, true⟩, ⟨c!"overbracket", 0x23b4, true⟩, ⟨c!"overparen", 0x23dc, true⟩,
   ⟨c!"underbrace", 0x23df, false⟩, ⟨c!"underbracket", 0x23b5, false⟩, ⟨c!"underparen", 0x23dd, false⟩]

/-- The commands for fractions, and for those between parentheses without a line -/
def fractionNames : List Str := [c!"frac", c!"dfrac", c!"tfrac", c!"cfrac"]
/-- The commands for binomial coefficients -/
def binomialNames : List Str := [c!"binom", c!"dbinom", c!"tbinom"]

/-- The commands for spaces -/
def spaceNames : List Str :=
  [c!"quad", c!"qquad", c!"enspace", c!"thinspace", c!"medspace", c!"thickspace", c!"negthinspace", c!"negmedspace",
   c!"negthickspace", c!",", c!":", c!">", c!";", c!"!"]

/-- How a delimiter is written, and what is shown -/
structure DelimRow where
  written : Lexeme
  shown : Nat
  deriving DecidableEq

/-- The delimiters of LaTeX. A full stop stands for none, which is a separator that cannot be seen. -/
def delimRows : List DelimRow :=
  [⟨.char '.', 0x2063⟩, ⟨.char '(', 0x28⟩, ⟨.char ')', 0x29⟩, ⟨.char '[', 0x5b⟩, ⟨.char ']', 0x5d⟩, ⟨.char '|', 0x7c⟩,
   ⟨.char '/', 0x2f⟩, ⟨.command c!"{", 0x7b⟩, ⟨.command c!"}", 0x7d⟩, ⟨.command c!"|", 0x2016⟩, ⟨.command c!"lbrace", 0x7b⟩,
   ⟨.command c!"rbrace", 0x7d⟩, ⟨.command c!"lbrack", 0x5b⟩, ⟨.command c!"rbrack", 0x5d⟩,
   ⟨.command c!"langle", 0x27e8⟩, ⟨.command c!"rangle", 0x27e9⟩, ⟨.command c!"lang", 0x27e8⟩,
   ⟨.command c!"rang", 0x27e9⟩, ⟨.command c!"lceil", 0x2308⟩, ⟨.command c!"rceil", 0x2309⟩,
   ⟨.command c!"lfloor", 0x230a⟩, ⟨.command c!"rfloor", 0x230b⟩, ⟨.command c!"lgroup", 0x27ee⟩,
   ⟨.command c!"rgroup", 0x27ef⟩, ⟨.command c!"lmoustache", 0x23b0⟩, ⟨.command c!"rmoustache", 0x23b1⟩,
   ⟨.command c!"vert", 0x7c⟩, ⟨.command c!"Vert", 0x2016⟩, ⟨.command c!"lvert", 0x7c⟩, ⟨.command c!"rvert", 0x7c⟩,
   ⟨.command c!"lVert", 0x2016⟩, ⟨.command c!"rVert", 0x2016⟩, ⟨.command c!"backslash", 0x5c⟩,
   ⟨.command c!"uparrow", 0x2191⟩, ⟨.command c!"downarrow", 0x2193⟩, ⟨.command c!"updownarrow", 0x2195⟩,
   ⟨.command c!"Uparrow", 0x21d1⟩, ⟨.command c!"Downarrow", 0x21d3⟩, ⟨.command c!"Updownarrow", 0x21d5⟩,
   ⟨.command c!"ulcorner", 0x231c⟩, ⟨.command c!"urcorner", 0x231d⟩, ⟨.command c!"llcorner", 0x231e⟩,
   ⟨.command c!"lrcorner", 0x231f⟩]

/-- The commands for delimiters of a given size -/
def sizeNames : List Str :=
  [c!"big", c!"Big", c!"bigg", c!"Bigg", c!"bigl", c!"Bigl", c!"biggl", c!"Biggl", c!"bigr", c!"Bigr", c!"biggr", c!"Biggr",
   c!"bigm", c!"Bigm", c!"biggm", c!"Biggm"]

/-- A command for an arrow with labels -/
structure ArrowRow where
  name : Str
  char : Nat
  deriving DecidableEq

/-- The commands for arrows with labels -/
def arrowRows : List ArrowRow :=
  [⟨c!"xleftarrow", 0x2190⟩, ⟨c!"xrightarrow", 0x2192⟩, ⟨c!"xleftrightarrow", 0x2194⟩, ⟨c!"xLeftarrow", 0x21d0⟩,
   ⟨c!"xRightarrow", 0x21d2⟩, ⟨c!"xLeftrightarrow", 0x21d4⟩, ⟨c!"xhookleftarrow", 0x21a9⟩, ⟨c!"xhookrightarrow", 0x21aa⟩,
   ⟨c!"xmapsto", 0x21a6⟩, ⟨c!"xrightharpoonup", 0x21c0⟩, ⟨c!"xrightharpoondown", 0x21c1⟩, ⟨c!"xleftharpoonup", 0x21bc⟩,
   ⟨c!"xleftharpoondown", 0x21bd⟩, ⟨c!"xrightleftharpoons", 0x21cc⟩, ⟨c!"xleftrightharpoons", 0x21cb⟩,
   ⟨c!"xtwoheadrightarrow", 0x21a0⟩, ⟨c!"xtwoheadleftarrow", 0x219e⟩, ⟨c!"xlongequal", 0x3d⟩]

/-- The commands which strike something out, or put a box around it, and the number of empty elements for the strokes -/
def strokeRows : List (Str × Nat) := [(c!"cancel", 1), (c!"bcancel", 1), (c!"xcancel", 2), (c!"boxed", 0)]

/-- A command for text, and the element of HTML for its font -/
structure TextRow where
  name : Str
  element : Option Str
  deriving DecidableEq

/-- The commands for text -/
def textRows : List TextRow :=
  [⟨c!"text", none⟩, ⟨c!"textbf", some c!"b"⟩, ⟨c!"textit", some c!"i"⟩, ⟨c!"emph", some c!"em"⟩, ⟨c!"texttt", some c!"code"⟩,
   ⟨c!"textrm", some c!"span"⟩, ⟨c!"textsf", some c!"span"⟩, ⟨c!"textsc", some c!"span"⟩]

/-- Characters of text, apart from letters and digits, and what is shown for them -/
def textMarks : List (Char × Nat) :=
  [('!', 0x21), ('"', 0x201d), ('\'', 0x2019), ('(', 0x28), (')', 0x29), ('*', 0x2a), ('+', 0x2b), (',', 0x2c), ('-', 0x2d),
   ('.', 0x2e), ('/', 0x2f), (':', 0x3a), (';', 0x3b), ('=', 0x3d), ('?', 0x3f), ('@', 0x40), ('[', 0x5b), (']', 0x5d),
   ('`', 0x2018), ('|', 0x7c), (' ', 0xa0)]

/-- Can this be in text? -/
def isText (c : Char) : Bool := isAsciiAlpha c || isAsciiDigit c || (textMarks.lookup c).isSome

/-- What is shown for a character of text; spaces do not break. -/
def textShown (c : Char) : Char := ((textMarks.lookup c).map Char.ofNat).getD c

/-- A relation, and the negation of it -/
structure NegatedRow where
  written : Lexeme
  shown : Nat
  deriving DecidableEq

/-- Relations with a negation -/
def negatedRows : List NegatedRow :=
  [⟨.char '=', 0x2260⟩, ⟨.char '<', 0x226e⟩, ⟨.char '>', 0x226f⟩, ⟨.command c!"in", 0x2209⟩, ⟨.command c!"ni", 0x220c⟩,
   ⟨.command c!"mid", 0x2224⟩, ⟨.command c!"parallel", 0x2226⟩, ⟨.command c!"sim", 0x2241⟩, ⟨.command c!"simeq", 0x2244⟩,
   ⟨.command c!"cong", 0x2247⟩, ⟨.command c!"approx", 0x2249⟩, ⟨.command c!"equiv", 0x2262⟩, ⟨.command c!"asymp", 0x226d⟩,
   ⟨.command c!"leq", 0x2270⟩, ⟨.command c!"geq", 0x2271⟩, ⟨.command c!"le", 0x2270⟩, ⟨.command c!"ge", 0x2271⟩,
   ⟨.command c!"prec", 0x2280⟩, ⟨.command c!"succ", 0x2281⟩, ⟨.command c!"subset", 0x2284⟩, ⟨.command c!"supset", 0x2285⟩,
   ⟨.command c!"subseteq", 0x2288⟩, ⟨.command c!"supseteq", 0x2289⟩, ⟨.command c!"vdash", 0x22ac⟩, ⟨.command c!"models", 0x22ad⟩,
   ⟨.command c!"sqsubseteq", 0x22e2⟩, ⟨.command c!"sqsupseteq", 0x22e3⟩, ⟨.command c!"leftarrow", 0x219a⟩,
   ⟨.command c!"rightarrow", 0x219b⟩, ⟨.command c!"to", 0x219b⟩, ⟨.command c!"leftrightarrow", 0x21ae⟩,
   ⟨.command c!"Leftarrow", 0x21cd⟩, ⟨.command c!"Rightarrow", 0x21cf⟩, ⟨.command c!"Leftrightarrow", 0x21ce⟩]

/-- The commands for the four styles -/
def styleNames : List Str := [c!"displaystyle", c!"textstyle", c!"scriptstyle", c!"scriptscriptstyle"]

/-- An environment for tables: its name, the delimiters around it, and whether there are several columns -/
structure TableRow where
  name : Str
  left : Option Nat
  right : Option Nat
  columns : Bool
  deriving DecidableEq

/-- The environments for tables without numbers and without arguments. The delimiter which is missing in `cases` cannot
be seen. -/
def tableRows : List TableRow :=
  [⟨c!"matrix", none, none, true⟩, ⟨c!"pmatrix", some 0x28, some 0x29, true⟩, ⟨c!"bmatrix", some 0x5b, some 0x5d, true⟩,
   ⟨c!"Bmatrix", some 0x7b, some 0x7d, true⟩, ⟨c!"vmatrix", some 0x7c, some 0x7c, true⟩,
   ⟨c!"Vmatrix", some 0x2016, some 0x2016, true⟩, ⟨c!"cases", some 0x7b, some 0x2063, true⟩,
   ⟨c!"dcases", some 0x7b, some 0x2063, true⟩, ⟨c!"rcases", some 0x2063, some 0x7d, true⟩,
   ⟨c!"drcases", some 0x2063, some 0x7d, true⟩, ⟨c!"aligned", none, none, true⟩, ⟨c!"gathered", none, none, false⟩]

/-- The environments with columns which are given, `darray` in larger style -/
def arrayNames : List Str := [c!"array", c!"darray", c!"subarray"]

/-- Columns to the left, to the right, or in the middle, with single lines between them, and at least one of them -/
def isColumns (s : Str) : Bool :=
  s.all (fun c => decide (c ∈ c!"lcr|")) && s.any (fun c => decide (c ∈ c!"lcr")) && singleLines s
where
  /-- No line follows another one. -/
  singleLines : Str → Bool
    | '|' :: '|' :: _ => false
    | _ :: s => singleLines s
    | [] => true

/-- Which rows of a display have numbers of their own -/
inductive WhichRows
  | every
  | last
  | none
  deriving DecidableEq

/-- An environment for displays: its name, whether there are several columns and several rows, and the numbers -/
structure DisplayRow where
  name : Str
  columns : Bool
  rows : Bool
  numbered : WhichRows
  deriving DecidableEq

/-- The environments for displays -/
def displayRows : List DisplayRow :=
  [⟨c!"equation", false, false, .every⟩, ⟨c!"gather", false, true, .every⟩, ⟨c!"align", true, true, .every⟩,
   ⟨c!"multline", false, true, .last⟩, ⟨c!"equation*", false, false, .none⟩, ⟨c!"gather*", false, true, .none⟩,
   ⟨c!"align*", true, true, .none⟩]

/-- A command for an alphabet: the letter A in it, and the variation selector -/
structure FontRow where
  name : Str
  capitalA : Nat
  selector : Option Nat
  deriving DecidableEq

/-- The commands for alphabets -/
def fontRows : List FontRow :=
  [⟨c!"mathbb", 0x1d538, none⟩, ⟨c!"Bbb", 0x1d538, none⟩, ⟨c!"mathbf", 0x1d400, none⟩, ⟨c!"bold", 0x1d400, none⟩,
   ⟨c!"boldsymbol", 0x1d468, none⟩, ⟨c!"bm", 0x1d468, none⟩, ⟨c!"symbf", 0x1d468, none⟩, ⟨c!"mathfrak", 0x1d504, none⟩,
   ⟨c!"frak", 0x1d504, none⟩, ⟨c!"mathit", 0x1d434, none⟩, ⟨c!"mathrm", 0x41, none⟩, ⟨c!"mathsf", 0x1d5a0, none⟩,
   ⟨c!"mathtt", 0x1d670, none⟩, ⟨c!"mathcal", 0x1d49c, some 0xfe00⟩, ⟨c!"mathscr", 0x1d49c, some 0xfe01⟩]

/-- What is shown for a letter in an alphabet -/
def FontRow.shown (row : FontRow) (c : Char) : Str :=
  let n := if c.toNat < 0x61 then row.capitalA + (c.toNat - 0x41) else
    (if row.capitalA = 0x41 then 0x61 else row.capitalA + 26) + (c.toNat - 0x61)
  Char.ofNat ((letterlike.lookup n).getD n) :: row.selector.toList.map Char.ofNat

end Verif.Spec

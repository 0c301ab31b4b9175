import Verif.Spec.Spacing
/-!
The mathematical symbols of Unicode as the LaTeX package unicode-math describes them: which type of atom a character
is, and the commands for the symbols. The tables have been made from docs/unicode-math-table.html in the repository (the
list of all symbols of the package), not from the tables in the source code of the converter.
-/
namespace Verif.Spec
open Model

/-- Consecutive characters, from the first to the last -/
abbrev CharRange := Nat × Nat

/-- Is the character in one of these ranges? -/
def within (c : Nat) (rs : List CharRange) : Bool := rs.any fun r => Nat.ble r.1 c && Nat.ble c r.2

/-- The opening delimiters (`\mathopen`). The radical sign is not here: it is also listed as an ordinary symbol. -/
def openingChars : List CharRange :=
  [(0x28, 0x28), (0x5b, 0x5b), (0x7b, 0x7b), (0x221b, 0x221c), (0x2308, 0x2308), (0x230a, 0x230a), (0x231c, 0x231c),
   (0x231e, 0x231e), (0x23b0, 0x23b0), (0x2772, 0x2772), (0x27c5, 0x27c5), (0x27cc, 0x27cc), (0x27e6, 0x27e6),
   (0x27e8, 0x27e8), (0x27ea, 0x27ea), (0x27ec, 0x27ec), (0x27ee, 0x27ee), (0x2983, 0x2983), (0x2985, 0x2985),
   (0x2987, 0x2987), (0x2989, 0x2989), (0x298b, 0x298b), (0x298d, 0x298d), (0x298f, 0x298f), (0x2991, 0x2991),
   (0x2993, 0x2993), (0x2995, 0x2995), (0x2997, 0x2997), (0x29d8, 0x29d8), (0x29da, 0x29da), (0x29fc, 0x29fc)]

/-- The closing delimiters (`\mathclose`). -/
def closingChars : List CharRange :=
  [(0x21, 0x21), (0x29, 0x29), (0x5d, 0x5d), (0x7d, 0x7d), (0x2309, 0x2309), (0x230b, 0x230b), (0x231d, 0x231d),
   (0x231f, 0x231f), (0x23b1, 0x23b1), (0x2773, 0x2773), (0x27c6, 0x27c6), (0x27e7, 0x27e7), (0x27e9, 0x27e9),
   (0x27eb, 0x27eb), (0x27ed, 0x27ed), (0x27ef, 0x27ef), (0x2984, 0x2984), (0x2986, 0x2986), (0x2988, 0x2988),
   (0x298a, 0x298a), (0x298c, 0x298c), (0x298e, 0x298e), (0x2990, 0x2990), (0x2992, 0x2992), (0x2994, 0x2994),
   (0x2996, 0x2996), (0x2998, 0x2998), (0x29d9, 0x29d9), (0x29db, 0x29db), (0x29fd, 0x29fd)]

/-- The punctuation (`\mathpunct`). -/
def punctChars : List CharRange :=
  [(0x2c, 0x2c), (0x3b, 0x3b)]

/-- The large operators (`\mathop`). -/
def opChars : List CharRange :=
  [(0x2140, 0x2140), (0x220f, 0x2211), (0x222b, 0x2233), (0x22c0, 0x22c3), (0x27d5, 0x27d9), (0x29f8, 0x29f9),
   (0x2a00, 0x2a21), (0x2afc, 0x2afc), (0x2aff, 0x2aff), (0x1eef0, 0x1eef1)]

/-- The binary operators (`\mathbin`). The asterisk and the hyphen are here because of TeX, where they stand for these operators. -/
def binChars : List CharRange :=
  [(0x2a, 0x2b), (0x2d, 0x2d), (0xb1, 0xb1), (0xb7, 0xb7), (0xd7, 0xd7), (0xf7, 0xf7), (0x2020, 0x2022),
   (0x2040, 0x2040), (0x2044, 0x2044), (0x214b, 0x214b), (0x2212, 0x2219), (0x2227, 0x222a), (0x2238, 0x2238),
   (0x223e, 0x223e), (0x2240, 0x2240), (0x228c, 0x228e), (0x2293, 0x22a1), (0x22ba, 0x22bd), (0x22c4, 0x22c7),
   (0x22c9, 0x22cc), (0x22ce, 0x22cf), (0x22d2, 0x22d3), (0x2305, 0x2306), (0x233d, 0x233d), (0x25b3, 0x25b3),
   (0x25b7, 0x25b7), (0x25c1, 0x25c1), (0x25cb, 0x25cb), (0x25eb, 0x25eb), (0x27c7, 0x27c7), (0x27d1, 0x27d1),
   (0x27e0, 0x27e5), (0x29b5, 0x29b9), (0x29c0, 0x29c1), (0x29c4, 0x29c8), (0x29cd, 0x29cd), (0x29d6, 0x29d7),
   (0x29e2, 0x29e2), (0x29eb, 0x29eb), (0x29f5, 0x29f7), (0x29fa, 0x29fb), (0x29fe, 0x29ff), (0x2a22, 0x2a58),
   (0x2a5a, 0x2a65), (0x2a71, 0x2a72), (0x2af4, 0x2af6), (0x2afb, 0x2afb), (0x2afd, 0x2afe)]

/-- The relations (`\mathrel`). The colon is here because of TeX, where it is a relation as a character. -/
def relChars : List CharRange :=
  [(0x3a, 0x3a), (0x3c, 0x3e), (0x2050, 0x2050), (0x2190, 0x21a7), (0x21a9, 0x21b3), (0x21b6, 0x21b7),
   (0x21bc, 0x21dd), (0x21e4, 0x21e5), (0x21f4, 0x21ff), (0x2208, 0x220d), (0x221d, 0x221d), (0x2223, 0x2226),
   (0x2236, 0x2237), (0x2239, 0x223d), (0x2241, 0x228b), (0x228f, 0x2292), (0x22a2, 0x22a3), (0x22a6, 0x22b8),
   (0x22c8, 0x22c8), (0x22cd, 0x22cd), (0x22d0, 0x22d1), (0x22d4, 0x22ee), (0x22f0, 0x22ff), (0x2322, 0x2323),
   (0x233f, 0x233f), (0x25b5, 0x25b5), (0x27c2, 0x27c2), (0x27c8, 0x27c9), (0x27d2, 0x27d4), (0x27da, 0x27df),
   (0x27f0, 0x27ff), (0x2900, 0x292a), (0x2933, 0x2933), (0x2936, 0x297f), (0x2982, 0x2982), (0x29ce, 0x29d5),
   (0x29df, 0x29df), (0x29e1, 0x29e1), (0x29e3, 0x29e6), (0x29f4, 0x29f4), (0x2a59, 0x2a59), (0x2a66, 0x2a70),
   (0x2a73, 0x2ae0), (0x2ae2, 0x2af0), (0x2af2, 0x2af3), (0x2af7, 0x2afa), (0x2b30, 0x2b4c)]

/-- The type of the atom a character stands for. What is not in the lists is an ordinary symbol. -/
def unicodeAtom (c : Nat) : Atom :=
  if within c relChars then .rel
  else if within c binChars then .bin
  else if within c openingChars then .opening
  else if within c closingChars then .closing
  else if within c opChars then .op
  else if within c punctChars then .punct
  else .ord

/-- Accents and braces (`\mathaccent`, `\mathover` and so on), which are not symbols -/
def accentChars : List CharRange :=
  [(0x300, 0x30a), (0x30c, 0x30c), (0x310, 0x310), (0x312, 0x312), (0x315, 0x315), (0x31a, 0x31a), (0x330, 0x330),
   (0x332, 0x332), (0x338, 0x338), (0x34d, 0x34d), (0x20d0, 0x20d2), (0x20d6, 0x20d7), (0x20db, 0x20dc),
   (0x20e1, 0x20e1), (0x20e7, 0x20e9), (0x20ec, 0x20f0), (0x23b4, 0x23b5), (0x23dc, 0x23df)]

/-- A command of unicode-math, its character and its type -/
structure SymbolRow where
  name : Str
  char : Nat
  type : Atom
  deriving DecidableEq

/-- Part 1 of `symbolRows` -/
def symbolRows0 : List SymbolRow :=
  [⟨c!"lparen", 0x28, .opening⟩, ⟨c!"rparen", 0x29, .closing⟩, ⟨c!"lbrack", 0x5b, .opening⟩,
   ⟨c!"backslash", 0x5c, .ord⟩, ⟨c!"rbrack", 0x5d, .closing⟩, ⟨c!"lbrace", 0x7b, .opening⟩, ⟨c!"vert", 0x7c, .ord⟩,
   ⟨c!"rbrace", 0x7d, .closing⟩, ⟨c!"mathsterling", 0xa3, .ord⟩, ⟨c!"neg", 0xac, .ord⟩, ⟨c!"pm", 0xb1, .bin⟩,
   ⟨c!"cdotp", 0xb7, .bin⟩, ⟨c!"times", 0xd7, .bin⟩, ⟨c!"div", 0xf7, .bin⟩, ⟨c!"Vert", 0x2016, .ord⟩,
   ⟨c!"dagger", 0x2020, .bin⟩, ⟨c!"ddagger", 0x2021, .bin⟩, ⟨c!"prime", 0x2032, .ord⟩, ⟨c!"backprime", 0x2035, .ord⟩,
   ⟨c!"mho", 0x2127, .ord⟩, ⟨c!"Finv", 0x2132, .ord⟩, ⟨c!"Game", 0x2141, .ord⟩, ⟨c!"leftarrow", 0x2190, .rel⟩,
   ⟨c!"uparrow", 0x2191, .rel⟩, ⟨c!"rightarrow", 0x2192, .rel⟩, ⟨c!"downarrow", 0x2193, .rel⟩,
   ⟨c!"leftrightarrow", 0x2194, .rel⟩, ⟨c!"updownarrow", 0x2195, .rel⟩, ⟨c!"nwarrow", 0x2196, .rel⟩,
   ⟨c!"nearrow", 0x2197, .rel⟩, ⟨c!"searrow", 0x2198, .rel⟩, ⟨c!"swarrow", 0x2199, .rel⟩,
   ⟨c!"nleftarrow", 0x219a, .rel⟩, ⟨c!"nrightarrow", 0x219b, .rel⟩, ⟨c!"twoheadleftarrow", 0x219e, .rel⟩,
   ⟨c!"twoheadrightarrow", 0x21a0, .rel⟩, ⟨c!"leftarrowtail", 0x21a2, .rel⟩, ⟨c!"rightarrowtail", 0x21a3, .rel⟩,
   ⟨c!"mapsto", 0x21a6, .rel⟩, ⟨c!"hookleftarrow", 0x21a9, .rel⟩, ⟨c!"hookrightarrow", 0x21aa, .rel⟩,
   ⟨c!"looparrowleft", 0x21ab, .rel⟩, ⟨c!"looparrowright", 0x21ac, .rel⟩, ⟨c!"leftrightsquigarrow", 0x21ad, .rel⟩,
   ⟨c!"nleftrightarrow", 0x21ae, .rel⟩, ⟨c!"Lsh", 0x21b0, .rel⟩, ⟨c!"Rsh", 0x21b1, .rel⟩,
   ⟨c!"curvearrowleft", 0x21b6, .rel⟩, ⟨c!"curvearrowright", 0x21b7, .rel⟩, ⟨c!"leftharpoonup", 0x21bc, .rel⟩,
   ⟨c!"leftharpoondown", 0x21bd, .rel⟩, ⟨c!"upharpoonright", 0x21be, .rel⟩, ⟨c!"upharpoonleft", 0x21bf, .rel⟩,
   ⟨c!"rightharpoonup", 0x21c0, .rel⟩, ⟨c!"rightharpoondown", 0x21c1, .rel⟩, ⟨c!"downharpoonright", 0x21c2, .rel⟩,
   ⟨c!"downharpoonleft", 0x21c3, .rel⟩, ⟨c!"rightleftarrows", 0x21c4, .rel⟩, ⟨c!"leftrightarrows", 0x21c6, .rel⟩,
   ⟨c!"leftleftarrows", 0x21c7, .rel⟩, ⟨c!"upuparrows", 0x21c8, .rel⟩, ⟨c!"rightrightarrows", 0x21c9, .rel⟩,
   ⟨c!"downdownarrows", 0x21ca, .rel⟩, ⟨c!"leftrightharpoons", 0x21cb, .rel⟩, ⟨c!"rightleftharpoons", 0x21cc, .rel⟩,
   ⟨c!"nLeftarrow", 0x21cd, .rel⟩, ⟨c!"nLeftrightarrow", 0x21ce, .rel⟩, ⟨c!"nRightarrow", 0x21cf, .rel⟩,
   ⟨c!"Leftarrow", 0x21d0, .rel⟩, ⟨c!"Uparrow", 0x21d1, .rel⟩, ⟨c!"Rightarrow", 0x21d2, .rel⟩,
   ⟨c!"Downarrow", 0x21d3, .rel⟩, ⟨c!"Leftrightarrow", 0x21d4, .rel⟩, ⟨c!"Updownarrow", 0x21d5, .rel⟩,
   ⟨c!"Lleftarrow", 0x21da, .rel⟩, ⟨c!"Rrightarrow", 0x21db, .rel⟩, ⟨c!"rightsquigarrow", 0x21dd, .rel⟩,
   ⟨c!"forall", 0x2200, .ord⟩, ⟨c!"complement", 0x2201, .ord⟩, ⟨c!"exists", 0x2203, .ord⟩,
   ⟨c!"nexists", 0x2204, .ord⟩, ⟨c!"varnothing", 0x2205, .ord⟩, ⟨c!"in", 0x2208, .rel⟩, ⟨c!"notin", 0x2209, .rel⟩,
   ⟨c!"ni", 0x220b, .rel⟩, ⟨c!"prod", 0x220f, .op⟩, ⟨c!"coprod", 0x2210, .op⟩, ⟨c!"sum", 0x2211, .op⟩,
   ⟨c!"mp", 0x2213, .bin⟩, ⟨c!"dotplus", 0x2214, .bin⟩, ⟨c!"setminus", 0x2216, .bin⟩, ⟨c!"ast", 0x2217, .bin⟩,
   ⟨c!"sqrt", 0x221a, .opening⟩, ⟨c!"surd", 0x221a, .ord⟩, ⟨c!"propto", 0x221d, .rel⟩, ⟨c!"infty", 0x221e, .ord⟩,
   ⟨c!"angle", 0x2220, .ord⟩, ⟨c!"measuredangle", 0x2221, .ord⟩, ⟨c!"sphericalangle", 0x2222, .ord⟩,
   ⟨c!"mid", 0x2223, .rel⟩]

/-- Part 2 of `symbolRows` -/
def symbolRows1 : List SymbolRow :=
  [⟨c!"nmid", 0x2224, .rel⟩, ⟨c!"parallel", 0x2225, .rel⟩, ⟨c!"nparallel", 0x2226, .rel⟩, ⟨c!"wedge", 0x2227, .bin⟩,
   ⟨c!"vee", 0x2228, .bin⟩, ⟨c!"cap", 0x2229, .bin⟩, ⟨c!"cup", 0x222a, .bin⟩, ⟨c!"int", 0x222b, .op⟩,
   ⟨c!"iint", 0x222c, .op⟩, ⟨c!"iiint", 0x222d, .op⟩, ⟨c!"oint", 0x222e, .op⟩, ⟨c!"oiint", 0x222f, .op⟩,
   ⟨c!"oiiint", 0x2230, .op⟩, ⟨c!"intclockwise", 0x2231, .op⟩, ⟨c!"varointclockwise", 0x2232, .op⟩,
   ⟨c!"ointctrclockwise", 0x2233, .op⟩, ⟨c!"therefore", 0x2234, .ord⟩, ⟨c!"because", 0x2235, .ord⟩,
   ⟨c!"dashcolon", 0x2239, .rel⟩, ⟨c!"dotsminusdots", 0x223a, .rel⟩, ⟨c!"kernelcontraction", 0x223b, .rel⟩,
   ⟨c!"sim", 0x223c, .rel⟩, ⟨c!"backsim", 0x223d, .rel⟩, ⟨c!"wr", 0x2240, .bin⟩, ⟨c!"nsim", 0x2241, .rel⟩,
   ⟨c!"eqsim", 0x2242, .rel⟩, ⟨c!"simeq", 0x2243, .rel⟩, ⟨c!"cong", 0x2245, .rel⟩, ⟨c!"ncong", 0x2247, .rel⟩,
   ⟨c!"approx", 0x2248, .rel⟩, ⟨c!"approxeq", 0x224a, .rel⟩, ⟨c!"asymp", 0x224d, .rel⟩, ⟨c!"Bumpeq", 0x224e, .rel⟩,
   ⟨c!"bumpeq", 0x224f, .rel⟩, ⟨c!"doteq", 0x2250, .rel⟩, ⟨c!"Doteq", 0x2251, .rel⟩,
   ⟨c!"fallingdotseq", 0x2252, .rel⟩, ⟨c!"risingdotseq", 0x2253, .rel⟩, ⟨c!"coloneq", 0x2254, .rel⟩,
   ⟨c!"eqcolon", 0x2255, .rel⟩, ⟨c!"eqcirc", 0x2256, .rel⟩, ⟨c!"circeq", 0x2257, .rel⟩, ⟨c!"arceq", 0x2258, .rel⟩,
   ⟨c!"wedgeq", 0x2259, .rel⟩, ⟨c!"veeeq", 0x225a, .rel⟩, ⟨c!"stareq", 0x225b, .rel⟩, ⟨c!"triangleq", 0x225c, .rel⟩,
   ⟨c!"eqdef", 0x225d, .rel⟩, ⟨c!"measeq", 0x225e, .rel⟩, ⟨c!"questeq", 0x225f, .rel⟩, ⟨c!"ne", 0x2260, .rel⟩,
   ⟨c!"equiv", 0x2261, .rel⟩, ⟨c!"nequiv", 0x2262, .rel⟩, ⟨c!"leq", 0x2264, .rel⟩, ⟨c!"geq", 0x2265, .rel⟩,
   ⟨c!"leqq", 0x2266, .rel⟩, ⟨c!"geqq", 0x2267, .rel⟩, ⟨c!"lneqq", 0x2268, .rel⟩, ⟨c!"gneqq", 0x2269, .rel⟩,
   ⟨c!"ll", 0x226a, .rel⟩, ⟨c!"gg", 0x226b, .rel⟩, ⟨c!"between", 0x226c, .rel⟩, ⟨c!"nless", 0x226e, .rel⟩,
   ⟨c!"ngtr", 0x226f, .rel⟩, ⟨c!"nleq", 0x2270, .rel⟩, ⟨c!"ngeq", 0x2271, .rel⟩, ⟨c!"lesssim", 0x2272, .rel⟩,
   ⟨c!"gtrsim", 0x2273, .rel⟩, ⟨c!"nlesssim", 0x2274, .rel⟩, ⟨c!"ngtrsim", 0x2275, .rel⟩,
   ⟨c!"lessgtr", 0x2276, .rel⟩, ⟨c!"gtrless", 0x2277, .rel⟩, ⟨c!"ngtrless", 0x2279, .rel⟩, ⟨c!"prec", 0x227a, .rel⟩,
   ⟨c!"succ", 0x227b, .rel⟩, ⟨c!"preccurlyeq", 0x227c, .rel⟩, ⟨c!"succcurlyeq", 0x227d, .rel⟩,
   ⟨c!"precsim", 0x227e, .rel⟩, ⟨c!"succsim", 0x227f, .rel⟩, ⟨c!"nprec", 0x2280, .rel⟩, ⟨c!"nsucc", 0x2281, .rel⟩,
   ⟨c!"subset", 0x2282, .rel⟩, ⟨c!"supset", 0x2283, .rel⟩, ⟨c!"nsubset", 0x2284, .rel⟩, ⟨c!"nsupset", 0x2285, .rel⟩,
   ⟨c!"subseteq", 0x2286, .rel⟩, ⟨c!"supseteq", 0x2287, .rel⟩, ⟨c!"nsubseteq", 0x2288, .rel⟩,
   ⟨c!"nsupseteq", 0x2289, .rel⟩, ⟨c!"subsetneq", 0x228a, .rel⟩, ⟨c!"supsetneq", 0x228b, .rel⟩,
   ⟨c!"uplus", 0x228e, .bin⟩, ⟨c!"sqsubset", 0x228f, .rel⟩, ⟨c!"sqsupset", 0x2290, .rel⟩,
   ⟨c!"sqsubseteq", 0x2291, .rel⟩, ⟨c!"sqsupseteq", 0x2292, .rel⟩, ⟨c!"sqcap", 0x2293, .bin⟩,
   ⟨c!"sqcup", 0x2294, .bin⟩, ⟨c!"oplus", 0x2295, .bin⟩, ⟨c!"ominus", 0x2296, .bin⟩]

/-- Part 3 of `symbolRows` -/
def symbolRows2 : List SymbolRow :=
  [⟨c!"otimes", 0x2297, .bin⟩, ⟨c!"oslash", 0x2298, .bin⟩, ⟨c!"odot", 0x2299, .bin⟩, ⟨c!"circledcirc", 0x229a, .bin⟩,
   ⟨c!"circledast", 0x229b, .bin⟩, ⟨c!"circleddash", 0x229d, .bin⟩, ⟨c!"boxplus", 0x229e, .bin⟩,
   ⟨c!"boxminus", 0x229f, .bin⟩, ⟨c!"boxtimes", 0x22a0, .bin⟩, ⟨c!"boxdot", 0x22a1, .bin⟩, ⟨c!"vdash", 0x22a2, .rel⟩,
   ⟨c!"dashv", 0x22a3, .rel⟩, ⟨c!"top", 0x22a4, .ord⟩, ⟨c!"bot", 0x22a5, .ord⟩, ⟨c!"models", 0x22a7, .rel⟩,
   ⟨c!"vDash", 0x22a8, .rel⟩, ⟨c!"Vdash", 0x22a9, .rel⟩, ⟨c!"Vvdash", 0x22aa, .rel⟩, ⟨c!"VDash", 0x22ab, .rel⟩,
   ⟨c!"nvdash", 0x22ac, .rel⟩, ⟨c!"nvDash", 0x22ad, .rel⟩, ⟨c!"nVdash", 0x22ae, .rel⟩, ⟨c!"nVDash", 0x22af, .rel⟩,
   ⟨c!"vartriangleleft", 0x22b2, .rel⟩, ⟨c!"vartriangleright", 0x22b3, .rel⟩, ⟨c!"trianglelefteq", 0x22b4, .rel⟩,
   ⟨c!"trianglerighteq", 0x22b5, .rel⟩, ⟨c!"origof", 0x22b6, .rel⟩, ⟨c!"imageof", 0x22b7, .rel⟩,
   ⟨c!"multimap", 0x22b8, .rel⟩, ⟨c!"intercal", 0x22ba, .bin⟩, ⟨c!"veebar", 0x22bb, .bin⟩,
   ⟨c!"barwedge", 0x22bc, .bin⟩, ⟨c!"bigwedge", 0x22c0, .op⟩, ⟨c!"bigvee", 0x22c1, .op⟩, ⟨c!"bigcap", 0x22c2, .op⟩,
   ⟨c!"bigcup", 0x22c3, .op⟩, ⟨c!"cdot", 0x22c5, .bin⟩, ⟨c!"star", 0x22c6, .bin⟩, ⟨c!"divideontimes", 0x22c7, .bin⟩,
   ⟨c!"bowtie", 0x22c8, .rel⟩, ⟨c!"ltimes", 0x22c9, .bin⟩, ⟨c!"rtimes", 0x22ca, .bin⟩,
   ⟨c!"leftthreetimes", 0x22cb, .bin⟩, ⟨c!"rightthreetimes", 0x22cc, .bin⟩, ⟨c!"backsimeq", 0x22cd, .rel⟩,
   ⟨c!"curlyvee", 0x22ce, .bin⟩, ⟨c!"curlywedge", 0x22cf, .bin⟩, ⟨c!"Subset", 0x22d0, .rel⟩,
   ⟨c!"Supset", 0x22d1, .rel⟩, ⟨c!"Cap", 0x22d2, .bin⟩, ⟨c!"Cup", 0x22d3, .bin⟩, ⟨c!"pitchfork", 0x22d4, .rel⟩,
   ⟨c!"lessdot", 0x22d6, .rel⟩, ⟨c!"gtrdot", 0x22d7, .rel⟩, ⟨c!"lll", 0x22d8, .rel⟩, ⟨c!"ggg", 0x22d9, .rel⟩,
   ⟨c!"lesseqgtr", 0x22da, .rel⟩, ⟨c!"gtreqless", 0x22db, .rel⟩, ⟨c!"curlyeqprec", 0x22de, .rel⟩,
   ⟨c!"curlyeqsucc", 0x22df, .rel⟩, ⟨c!"lnsim", 0x22e6, .rel⟩, ⟨c!"gnsim", 0x22e7, .rel⟩,
   ⟨c!"precnsim", 0x22e8, .rel⟩, ⟨c!"succnsim", 0x22e9, .rel⟩, ⟨c!"ntrianglelefteq", 0x22ec, .rel⟩,
   ⟨c!"ntrianglerighteq", 0x22ed, .rel⟩, ⟨c!"vdots", 0x22ee, .rel⟩, ⟨c!"ddots", 0x22f1, .rel⟩,
   ⟨c!"lceil", 0x2308, .opening⟩, ⟨c!"rceil", 0x2309, .closing⟩, ⟨c!"lfloor", 0x230a, .opening⟩,
   ⟨c!"rfloor", 0x230b, .closing⟩, ⟨c!"ulcorner", 0x231c, .opening⟩, ⟨c!"urcorner", 0x231d, .closing⟩,
   ⟨c!"llcorner", 0x231e, .opening⟩, ⟨c!"lrcorner", 0x231f, .closing⟩, ⟨c!"frown", 0x2322, .rel⟩,
   ⟨c!"smile", 0x2323, .rel⟩, ⟨c!"lmoustache", 0x23b0, .opening⟩, ⟨c!"rmoustache", 0x23b1, .closing⟩,
   ⟨c!"bigtriangleup", 0x25b3, .bin⟩, ⟨c!"blacktriangle", 0x25b4, .ord⟩, ⟨c!"vartriangle", 0x25b5, .rel⟩,
   ⟨c!"blacktriangleright", 0x25b6, .ord⟩, ⟨c!"triangleright", 0x25b7, .bin⟩, ⟨c!"bigtriangledown", 0x25bd, .ord⟩,
   ⟨c!"blacktriangledown", 0x25be, .ord⟩, ⟨c!"triangledown", 0x25bf, .ord⟩, ⟨c!"blacktriangleleft", 0x25c0, .ord⟩,
   ⟨c!"triangleleft", 0x25c1, .bin⟩, ⟨c!"bigstar", 0x2605, .ord⟩, ⟨c!"spadesuit", 0x2660, .ord⟩,
   ⟨c!"heartsuit", 0x2661, .ord⟩, ⟨c!"diamondsuit", 0x2662, .ord⟩, ⟨c!"clubsuit", 0x2663, .ord⟩,
   ⟨c!"flat", 0x266d, .ord⟩, ⟨c!"natural", 0x266e, .ord⟩, ⟨c!"sharp", 0x266f, .ord⟩, ⟨c!"checkmark", 0x2713, .ord⟩]

/-- Part 4 of `symbolRows` -/
def symbolRows3 : List SymbolRow :=
  [⟨c!"maltese", 0x2720, .ord⟩, ⟨c!"perp", 0x27c2, .rel⟩, ⟨c!"diagup", 0x27cb, .ord⟩, ⟨c!"diagdown", 0x27cd, .ord⟩,
   ⟨c!"langle", 0x27e8, .opening⟩, ⟨c!"rangle", 0x27e9, .closing⟩, ⟨c!"lAngle", 0x27ea, .opening⟩,
   ⟨c!"rAngle", 0x27eb, .closing⟩, ⟨c!"lgroup", 0x27ee, .opening⟩, ⟨c!"rgroup", 0x27ef, .closing⟩,
   ⟨c!"longleftarrow", 0x27f5, .rel⟩, ⟨c!"longrightarrow", 0x27f6, .rel⟩, ⟨c!"longleftrightarrow", 0x27f7, .rel⟩,
   ⟨c!"Longleftarrow", 0x27f8, .rel⟩, ⟨c!"Longrightarrow", 0x27f9, .rel⟩, ⟨c!"Longleftrightarrow", 0x27fa, .rel⟩,
   ⟨c!"longmapsto", 0x27fc, .rel⟩, ⟨c!"lBrace", 0x2983, .opening⟩, ⟨c!"rBrace", 0x2984, .closing⟩,
   ⟨c!"llparenthesis", 0x2987, .opening⟩, ⟨c!"rrparenthesis", 0x2988, .closing⟩, ⟨c!"llangle", 0x2989, .opening⟩,
   ⟨c!"rrangle", 0x298a, .closing⟩, ⟨c!"bigodot", 0x2a00, .op⟩, ⟨c!"bigoplus", 0x2a01, .op⟩,
   ⟨c!"bigotimes", 0x2a02, .op⟩, ⟨c!"bigcupdot", 0x2a03, .op⟩, ⟨c!"biguplus", 0x2a04, .op⟩,
   ⟨c!"bigsqcap", 0x2a05, .op⟩, ⟨c!"bigsqcup", 0x2a06, .op⟩, ⟨c!"bigtimes", 0x2a09, .op⟩, ⟨c!"sumint", 0x2a0b, .op⟩,
   ⟨c!"iiiint", 0x2a0c, .op⟩, ⟨c!"intbar", 0x2a0d, .op⟩, ⟨c!"intBar", 0x2a0e, .op⟩, ⟨c!"fint", 0x2a0f, .op⟩,
   ⟨c!"cirfnint", 0x2a10, .op⟩, ⟨c!"awint", 0x2a11, .op⟩, ⟨c!"Join", 0x2a1d, .op⟩, ⟨c!"fcmp", 0x2a3e, .bin⟩,
   ⟨c!"amalg", 0x2a3f, .bin⟩, ⟨c!"doublebarwedge", 0x2a5e, .bin⟩, ⟨c!"Coloneq", 0x2a74, .rel⟩,
   ⟨c!"leqslant", 0x2a7d, .rel⟩, ⟨c!"geqslant", 0x2a7e, .rel⟩, ⟨c!"lessapprox", 0x2a85, .rel⟩,
   ⟨c!"gtrapprox", 0x2a86, .rel⟩, ⟨c!"lneq", 0x2a87, .rel⟩, ⟨c!"gneq", 0x2a88, .rel⟩, ⟨c!"lnapprox", 0x2a89, .rel⟩,
   ⟨c!"gnapprox", 0x2a8a, .rel⟩, ⟨c!"lesseqqgtr", 0x2a8b, .rel⟩, ⟨c!"gtreqqless", 0x2a8c, .rel⟩,
   ⟨c!"eqslantless", 0x2a95, .rel⟩, ⟨c!"eqslantgtr", 0x2a96, .rel⟩, ⟨c!"preceq", 0x2aaf, .rel⟩,
   ⟨c!"succeq", 0x2ab0, .rel⟩, ⟨c!"precneqq", 0x2ab5, .rel⟩, ⟨c!"succneqq", 0x2ab6, .rel⟩,
   ⟨c!"precapprox", 0x2ab7, .rel⟩, ⟨c!"succapprox", 0x2ab8, .rel⟩, ⟨c!"precnapprox", 0x2ab9, .rel⟩,
   ⟨c!"succnapprox", 0x2aba, .rel⟩, ⟨c!"subseteqq", 0x2ac5, .rel⟩, ⟨c!"supseteqq", 0x2ac6, .rel⟩,
   ⟨c!"subsetneqq", 0x2acb, .rel⟩, ⟨c!"supsetneqq", 0x2acc, .rel⟩]

/-- The symbols of unicode-math (apart from the alphabets) whose commands are known to the converter -/
def symbolRows : List SymbolRow := symbolRows0 ++ symbolRows1 ++ symbolRows2 ++ symbolRows3

end Verif.Spec

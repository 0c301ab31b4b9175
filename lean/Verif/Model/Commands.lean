import Verif.Model.Predefined
/-! Generated from crates/math-core/src/commands.rs: the tables of built-in commands. -/
namespace Verif.Model

/-- commands.rs:23-27 `FUNCTIONS` -/
def functions : List Str := [
  c!"arccos",
  c!"arcctg",
  c!"arcsin",
  c!"arctan",
  c!"arctg",
  c!"arg",
  c!"ch",
  c!"cos",
  c!"cosec",
  c!"cosh",
  c!"cot",
  c!"cotg",
  c!"coth",
  c!"csc",
  c!"ctg",
  c!"cth",
  c!"deg",
  c!"det",
  c!"dim",
  c!"erf",
  c!"erfc",
  c!"exp",
  c!"hom",
  c!"ker",
  c!"lg",
  c!"ln",
  c!"log",
  c!"sec",
  c!"sh",
  c!"sin",
  c!"sinh",
  c!"tan",
  c!"tanh",
  c!"tg",
  c!"th"]

/-- Part of `commands`. -/
def commands0 : List (Str × Token) := [
  (c!" ", .mathOrTextMode .nonBreakingSpace Sym.NO_BREAK_SPACE),
  (c!"#", .letter (SuperChar.fromChar Sym.NUMBER_SIGN) .mathOrText),
  (c!"$", .letter (SuperChar.fromChar Sym.DOLLAR_SIGN) .mathOrText),
  (c!"%", .letter (SuperChar.fromChar Sym.PERCENT_SIGN) .mathOrText),
  (c!"&", .mathOrTextMode (.ord Sym.AMPERSAND) '&'),
  (c!"'", .textMode (.accent Sym.COMBINING_ACUTE_ACCENT)),
  (c!",", .mathOrTextMode (.space (LatexUnit.lengthWithUnit .mu 3)) Sym.THIN_SPACE),
  (c!".", .textMode (.accent Sym.COMBINING_DOT_ABOVE)),
  (c!":", .mathOrTextMode (.space (LatexUnit.lengthWithUnit .mu 4)) Sym.MEDIUM_MATHEMATICAL_SPACE),
  (c!";", .mathOrTextMode (.space (LatexUnit.lengthWithUnit .mu 5)) Sym.THREE_PER_EM_SPACE),
  (c!"=", .textMode (.accent Sym.COMBINING_MACRON)),
  (c!">", .mathOrTextMode (.space (LatexUnit.lengthWithUnit .mu 4)) Sym.MEDIUM_MATHEMATICAL_SPACE),
  (c!"!", .space (LatexUnit.lengthWithUnit .mu (-3))),
  (c!"AA", .textMode (.letter '\u00c5')),
  (c!"AE", .textMode (.letter '\u00c6')),
  (c!"Alpha", .uprightLetter (SuperChar.fromChar Sym.GREEK_CAPITAL_LETTER_ALPHA)),
  (c!"And", .customCmd 0 Pre.AND),
  (c!"Bbb", .transform (.transform .doubleStruck)),
  (c!"Bbbk", .letter (transformChar .doubleStruck 'k' false) .math),
  (c!"Beta", .uprightLetter (SuperChar.fromChar Sym.GREEK_CAPITAL_LETTER_BETA)),
  (c!"Big", .big .scale2 none),
  (c!"Bigg", .big .scale4 none),
  (c!"Biggl", .big .scale4 (some .left)),
  (c!"Biggm", .big .scale4 (some .middle)),
  (c!"Biggr", .big .scale4 (some .right)),
  (c!"Bigl", .big .scale2 (some .left)),
  (c!"Bigm", .big .scale2 (some .middle)),
  (c!"Bigr", .big .scale2 (some .right)),
  (c!"Box", .letter (SuperChar.fromChar Sym.WHITE_MEDIUM_SQUARE) .math),
  (c!"Bra", .customCmd 1 Pre.BIG_BRA),
  (c!"Braket", .customCmd 1 Pre.BIG_BRAKET),
  (c!"Bumpeq", .relation Sym.GEOMETRICALLY_EQUIVALENT_TO),
  (c!"Cap", .binaryOp Sym.DOUBLE_INTERSECTION),
  (c!"Chi", .uprightLetter (SuperChar.fromChar Sym.GREEK_CAPITAL_LETTER_CHI)),
  (c!"Coloneq", .customCmd 0 Pre.DOUBLE_COLON_EQUAL),
  (c!"Coloneqq", .customCmd 0 Pre.DOUBLE_COLON_EQUAL),
  (c!"Colonapprox", .customCmd 0 Pre.DOUBLE_COLON_APPROX),
  (c!"Colondash", .customCmd 0 Pre.DOUBLE_COLON_MINUS),
  (c!"Colonsim", .customCmd 0 Pre.DOUBLE_COLON_SIM),
  (c!"Complex", .letter (SuperChar.fromChar Sym.DOUBLE_STRUCK_CAPITAL_C) .math),
  (c!"Cup", .binaryOp Sym.DOUBLE_UNION),
  (c!"Dagger", .forceBinaryOp Sym.DOUBLE_DAGGER),
  (c!"Darr", .relation Sym.DOWNWARDS_DOUBLE_ARROW),
  (c!"Dashcolon", .customCmd 0 Pre.MINUS_DOUBLE_COLON),
  (c!"Delta", .uprightLetter (SuperChar.fromChar Sym.GREEK_CAPITAL_LETTER_DELTA)),
  (c!"Diamond", .letter (SuperChar.fromChar Sym.LOZENGE) .math),
  (c!"Doteq", .relation Sym.GEOMETRICALLY_EQUAL_TO),
  (c!"Downarrow", .relation Sym.DOWNWARDS_DOUBLE_ARROW),
  (c!"Epsilon", .uprightLetter (SuperChar.fromChar Sym.GREEK_CAPITAL_LETTER_EPSILON)),
  (c!"Eqcolon", .customCmd 0 Pre.EQUALS_DOUBLE_COLON),
  (c!"Eqqcolon", .customCmd 0 Pre.EQUALS_DOUBLE_COLON),
  (c!"Eta", .uprightLetter (SuperChar.fromChar Sym.GREEK_CAPITAL_LETTER_ETA)),
  (c!"Finv", .letter (SuperChar.fromChar Sym.TURNED_CAPITAL_F) .math),
  (c!"Game", .letter (SuperChar.fromChar Sym.TURNED_SANS_SERIF_CAPITAL_G) .math),
  (c!"Gamma", .uprightLetter (SuperChar.fromChar Sym.GREEK_CAPITAL_LETTER_GAMMA)),
  (c!"H", .textMode (.accent Sym.COMBINING_DOUBLE_ACUTE_ACCENT)),
  (c!"Harr", .relation Sym.LEFT_RIGHT_DOUBLE_ARROW),
  (c!"Huge", .textMode (.size .size250)),
  (c!"Im", .letter (SuperChar.fromChar Sym.BLACK_LETTER_CAPITAL_I) .math),
  (c!"Iota", .uprightLetter (SuperChar.fromChar Sym.GREEK_CAPITAL_LETTER_IOTA)),
  (c!"Join", .relation Sym.BOWTIE),
  (c!"Kappa", .uprightLetter (SuperChar.fromChar Sym.GREEK_CAPITAL_LETTER_KAPPA)),
  (c!"Ket", .customCmd 1 Pre.BIG_KET),
  (c!"L", .textMode (.letter '\u0141')),
  (c!"LARGE", .textMode (.size .size170)),
  (c!"Lambda", .uprightLetter (SuperChar.fromChar Sym.GREEK_CAPITAL_LETTER_LAMBDA)),
  (c!"Large", .textMode (.size .size140)),
  (c!"Larr", .relation Sym.LEFTWARDS_DOUBLE_ARROW),
  (c!"Leftarrow", .relation Sym.LEFTWARDS_DOUBLE_ARROW),
  (c!"Leftrightarrow", .relation Sym.LEFT_RIGHT_DOUBLE_ARROW),
  (c!"Lleftarrow", .relation Sym.LEFTWARDS_TRIPLE_ARROW),
  (c!"Longleftarrow", .relation Sym.LONG_LEFTWARDS_DOUBLE_ARROW),
  (c!"Longleftrightarrow", .relation Sym.LONG_LEFT_RIGHT_DOUBLE_ARROW),
  (c!"Longrightarrow", .relation Sym.LONG_RIGHTWARDS_DOUBLE_ARROW),
  (c!"Lrarr", .relation Sym.LEFT_RIGHT_DOUBLE_ARROW),
  (c!"Lsh", .relation Sym.UPWARDS_ARROW_WITH_TIP_LEFTWARDS),
  (c!"Mu", .uprightLetter (SuperChar.fromChar Sym.GREEK_CAPITAL_LETTER_MU)),
  (c!"N", .letter (SuperChar.fromChar Sym.DOUBLE_STRUCK_CAPITAL_N) .math),
  (c!"Nu", .uprightLetter (SuperChar.fromChar Sym.GREEK_CAPITAL_LETTER_NU)),
  (c!"O", .textMode (.letter '\u00d8')),
  (c!"OE", .textMode (.letter '\u0152')),
  (c!"Omega", .uprightLetter (SuperChar.fromChar Sym.GREEK_CAPITAL_LETTER_OMEGA)),
  (c!"Omicron", .uprightLetter (SuperChar.fromChar Sym.GREEK_CAPITAL_LETTER_OMICRON)),
  (c!"Overrightarrow", .accent Sym.RIGHTWARDS_DOUBLE_ARROW.asBmpOp true OpAttrs.empty),
  (c!"P", .letter (SuperChar.fromChar Sym.PILCROW_SIGN) .mathOrText),
  (c!"Phi", .uprightLetter (SuperChar.fromChar Sym.GREEK_CAPITAL_LETTER_PHI)),
  (c!"Pi", .uprightLetter (SuperChar.fromChar Sym.GREEK_CAPITAL_LETTER_PI)),
  (c!"Pr", .pseudoOperatorLimits c!"Pr"),
  (c!"Psi", .uprightLetter (SuperChar.fromChar Sym.GREEK_CAPITAL_LETTER_PSI)),
  (c!"R", .letter (SuperChar.fromChar Sym.DOUBLE_STRUCK_CAPITAL_R) .math),
  (c!"Rarr", .relation Sym.RIGHTWARDS_DOUBLE_ARROW),
  (c!"Re", .letter (SuperChar.fromChar Sym.BLACK_LETTER_CAPITAL_R) .math),
  (c!"Reals", .letter (SuperChar.fromChar Sym.DOUBLE_STRUCK_CAPITAL_R) .math),
  (c!"Rho", .uprightLetter (SuperChar.fromChar Sym.GREEK_CAPITAL_LETTER_RHO)),
  (c!"Rightarrow", .relation Sym.RIGHTWARDS_DOUBLE_ARROW),
  (c!"Rrightarrow", .relation Sym.RIGHTWARDS_TRIPLE_ARROW),
  (c!"Rsh", .relation Sym.UPWARDS_ARROW_WITH_TIP_RIGHTWARDS),
  (c!"S", .letter (SuperChar.fromChar Sym.SECTION_SIGN) .mathOrText),
  (c!"Set", .customCmd 1 Pre.BIG_SET),
  (c!"Sigma", .uprightLetter (SuperChar.fromChar Sym.GREEK_CAPITAL_LETTER_SIGMA))]

/-- Part of `commands`. -/
def commands1 : List (Str × Token) := [
  (c!"Simcolon", .customCmd 0 Pre.SIM_DOUBLE_COLON),
  (c!"Subset", .relation Sym.DOUBLE_SUBSET),
  (c!"Supset", .relation Sym.DOUBLE_SUPERSET),
  (c!"Tau", .uprightLetter (SuperChar.fromChar Sym.GREEK_CAPITAL_LETTER_TAU)),
  (c!"Theta", .uprightLetter (SuperChar.fromChar Sym.GREEK_CAPITAL_LETTER_THETA)),
  (c!"Uarr", .relation Sym.UPWARDS_DOUBLE_ARROW),
  (c!"Uparrow", .relation Sym.UPWARDS_DOUBLE_ARROW),
  (c!"Updownarrow", .relation Sym.UP_DOWN_DOUBLE_ARROW),
  (c!"Upsilon", .uprightLetter (SuperChar.fromChar Sym.GREEK_CAPITAL_LETTER_UPSILON)),
  (c!"VDash", .relation Sym.DOUBLE_VERTICAL_BAR_DOUBLE_RIGHT_TURNSTILE),
  (c!"Vdash", .relation Sym.FORCES),
  (c!"Vert", .ord Sym.DOUBLE_VERTICAL_LINE),
  (c!"Vvdash", .relation Sym.TRIPLE_VERTICAL_BAR_RIGHT_TURNSTILE),
  (c!"Xi", .uprightLetter (SuperChar.fromChar Sym.GREEK_CAPITAL_LETTER_XI)),
  (c!"Yleft", .relation Sym.LEFTWARDS_ARROW_TAIL),
  (c!"Yright", .relation Sym.RIGHTWARDS_ARROW_TAIL),
  (c!"Z", .letter (SuperChar.fromChar Sym.DOUBLE_STRUCK_CAPITAL_Z) .math),
  (c!"Zeta", .uprightLetter (SuperChar.fromChar Sym.GREEK_CAPITAL_LETTER_ZETA)),
  (['"'], .textMode (.accent Sym.COMBINING_DIAERESIS)),
  (['\\'], .newLine),
  (c!"^", .textMode (.accent Sym.COMBINING_CIRCUMFLEX_ACCENT.char)),
  (c!"_", .letter Sym.LOW_LINE.asOp.sc .mathOrText),
  (c!"`", .textMode (.accent Sym.COMBINING_GRAVE_ACCENT)),
  (c!"aa", .textMode (.letter '\u00e5')),
  (c!"acute", .accent Sym.ACUTE_ACCENT true OpAttrs.empty),
  (c!"ae", .textMode (.letter '\u00e6')),
  (c!"alef", .letter (SuperChar.fromChar Sym.ALEF_SYMBOL) .math),
  (c!"alefsym", .letter (SuperChar.fromChar Sym.ALEF_SYMBOL) .math),
  (c!"aleph", .letter (SuperChar.fromChar Sym.ALEF_SYMBOL) .math),
  (c!"alpha", .letter (SuperChar.fromChar Sym.GREEK_SMALL_LETTER_ALPHA) .math),
  (c!"amalg", .forceBinaryOp Sym.AMALGAMATION_OR_COPRODUCT.asOp),
  (c!"angl", .enclose Notation.actuarial),
  (c!"angle", .letter (SuperChar.fromChar Sym.ANGLE) .math),
  (c!"angln", .customCmd 0 Pre.ANGLN),
  (c!"approx", .relation Sym.ALMOST_EQUAL_TO),
  (c!"approxcolon", .customCmd 0 Pre.APPROX_COLON),
  (c!"approxcoloncolon", .customCmd 0 Pre.APPROX_DOUBLE_COLON),
  (c!"approxeq", .relation Sym.ALMOST_EQUAL_OR_EQUAL_TO),
  (c!"arceq", .relation Sym.CORRESPONDS_TO),
  (c!"argmax", .pseudoOperatorLimits ['a', 'r', 'g', '\u2009', 'm', 'a', 'x']),
  (c!"argmin", .pseudoOperatorLimits ['a', 'r', 'g', '\u2009', 'm', 'i', 'n']),
  (c!"ascnode", .letter (SuperChar.fromChar Sym.ASCENDING_NODE) .math),
  (c!"ast", .forceBinaryOp Sym.ASTERISK_OPERATOR.asOp),
  (c!"asymp", .relation Sym.EQUIVALENT_TO),
  (c!"atop", .infixGenFrac false none),
  (c!"awint", .op Sym.ANTICLOCKWISE_INTEGRATION),
  (c!"backepsilon", .letter (SuperChar.fromChar Sym.GREEK_REVERSED_LUNATE_EPSILON_SYMBOL) .math),
  (c!"backprime", .ord Sym.REVERSED_PRIME),
  (c!"backsim", .relation Sym.REVERSED_TILDE),
  (c!"backsimeq", .relation Sym.REVERSED_TILDE_EQUALS),
  (c!"backslash", .ord Sym.REVERSE_SOLIDUS),
  (c!"bar", .accent Sym.MACRON true OpAttrs.stretchyFalse),
  (c!"barwedge", .binaryOp Sym.NAND),
  (c!"bcancel", .enclose Notation.downDiagonal),
  (c!"because", .forceRelation Sym.BECAUSE.asOp),
  (c!"begingroup", .groupBegin),
  (c!"beta", .letter (SuperChar.fromChar Sym.GREEK_SMALL_LETTER_BETA) .math),
  (c!"beth", .letter (SuperChar.fromChar Sym.BET_SYMBOL) .math),
  (c!"between", .relation Sym.BETWEEN),
  (c!"bf", .transformSwitch (.transform .bold)),
  (c!"big", .big .scale1 none),
  (c!"bigcap", .op Sym.N_ARY_INTERSECTION),
  (c!"bigcirc", .letter (SuperChar.fromChar Sym.LARGE_CIRCLE) .math),
  (c!"bigcup", .op Sym.N_ARY_UNION),
  (c!"bigcupdot", .op Sym.N_ARY_UNION_OPERATOR_WITH_DOT),
  (c!"bigdoublevee", .op Sym.TWO_LOGICAL_OR_OPERATOR),
  (c!"bigdoublewedge", .op Sym.TWO_LOGICAL_AND_OPERATOR),
  (c!"bigg", .big .scale3 none),
  (c!"biggl", .big .scale3 (some .left)),
  (c!"biggm", .big .scale3 (some .middle)),
  (c!"biggr", .big .scale3 (some .right)),
  (c!"bigl", .big .scale1 (some .left)),
  (c!"bigm", .big .scale1 (some .middle)),
  (c!"bigodot", .op Sym.N_ARY_CIRCLED_DOT_OPERATOR),
  (c!"bigoplus", .op Sym.N_ARY_CIRCLED_PLUS_OPERATOR),
  (c!"bigotimes", .op Sym.N_ARY_CIRCLED_TIMES_OPERATOR),
  (c!"bigr", .big .scale1 (some .right)),
  (c!"bigsqcap", .op Sym.N_ARY_SQUARE_INTERSECTION_OPERATOR),
  (c!"bigsqcup", .op Sym.N_ARY_SQUARE_UNION_OPERATOR),
  (c!"bigstar", .letter (SuperChar.fromChar Sym.BLACK_STAR) .math),
  (c!"bigtimes", .op Sym.N_ARY_TIMES_OPERATOR),
  (c!"bigtriangledown", .forceBinaryOp Sym.WHITE_DOWN_POINTING_TRIANGLE),
  (c!"bigtriangleup", .forceBinaryOp Sym.WHITE_UP_POINTING_TRIANGLE),
  (c!"biguplus", .op Sym.N_ARY_UNION_OPERATOR_WITH_PLUS),
  (c!"bigvee", .op Sym.N_ARY_LOGICAL_OR),
  (c!"bigwedge", .op Sym.N_ARY_LOGICAL_AND),
  (c!"binom", .binom none),
  (c!"blacklozenge", .letter (SuperChar.fromChar Sym.BLACK_LOZENGE) .math),
  (c!"blacksquare", .letter (SuperChar.fromChar Sym.BLACK_SQUARE) .math),
  (c!"blacktriangle", .letter (SuperChar.fromChar Sym.BLACK_UP_POINTING_TRIANGLE) .math),
  (c!"blacktriangledown", .letter (SuperChar.fromChar Sym.BLACK_DOWN_POINTING_TRIANGLE) .math),
  (c!"blacktriangleleft", .forceRelation Sym.BLACK_LEFT_POINTING_TRIANGLE),
  (c!"blacktriangleright", .forceRelation Sym.BLACK_RIGHT_POINTING_TRIANGLE),
  (c!"bm", .transform (.transform .boldItalic)),
  (c!"bmod", .customCmd 0 Pre.BMOD),
  (c!"bold", .transform (.transform .bold)),
  (c!"boldsymbol", .transform (.transform .boldItalic)),
  (c!"bot", .letter (SuperChar.fromChar Sym.UP_TACK) .math),
  (c!"botdoteq", .relation Sym.EQUALS_SIGN_WITH_DOT_BELOW),
  (c!"bowtie", .relation Sym.BOWTIE)]

/-- Part of `commands`. -/
def commands2 : List (Str × Token) := [
  (c!"boxdot", .forceBinaryOp Sym.SQUARED_DOT_OPERATOR.asOp),
  (c!"boxed", .enclose Notation.box),
  (c!"boxminus", .binaryOp Sym.SQUARED_MINUS),
  (c!"boxplus", .binaryOp Sym.SQUARED_PLUS),
  (c!"boxtimes", .forceBinaryOp Sym.SQUARED_TIMES.asOp),
  (c!"bra", .customCmd 1 Pre.BRA),
  (c!"brace", .infixGenFrac false (some .brace)),
  (c!"brack", .infixGenFrac false (some .brack)),
  (c!"braket", .customCmd 1 Pre.BRAKET),
  (c!"breve", .accent Sym.BREVE true OpAttrs.empty),
  (c!"bull", .forceBinaryOp Sym.BULLET_OPERATOR.asOp),
  (c!"bullet", .forceBinaryOp Sym.BULLET_OPERATOR.asOp),
  (c!"bumpeq", .relation Sym.DIFFERENCE_BETWEEN),
  (c!"c", .textMode (.accent Sym.COMBINING_CEDILLA)),
  (c!"cal", .transformSwitch (.transform .scriptChancery)),
  (c!"cancel", .enclose Notation.upDiagonal),
  (c!"cap", .binaryOp Sym.INTERSECTION),
  (c!"cdot", .forceBinaryOp Sym.DOT_OPERATOR.asOp),
  (c!"cdotp", .forcePunctuation Sym.MIDDLE_DOT.asOp),
  (c!"cdots", .customCmd 0 Pre.CDOTS),
  (c!"cfrac", .frac (some .cfracStyle)),
  (c!"check", .accent Sym.CARON true OpAttrs.stretchyFalse),
  (c!"checkmark", .letter (SuperChar.fromChar Sym.CHECK_MARK) .mathOrText),
  (c!"chi", .letter (SuperChar.fromChar Sym.GREEK_SMALL_LETTER_CHI) .math),
  (c!"choose", .infixGenFrac false (some .paren)),
  (c!"circ", .forceBinaryOp Sym.RING_OPERATOR.asOp),
  (c!"circeq", .relation Sym.RING_EQUAL_TO),
  (c!"circlearrowleft", .relation Sym.ANTICLOCKWISE_OPEN_CIRCLE_ARROW),
  (c!"circlearrowright", .relation Sym.CLOCKWISE_OPEN_CIRCLE_ARROW),
  (c!"circledR", .letter (SuperChar.fromChar Sym.CIRCLED_LATIN_CAPITAL_LETTER_R) .mathOrText),
  (c!"circledS", .letter (SuperChar.fromChar Sym.CIRCLED_LATIN_CAPITAL_LETTER_S) .math),
  (c!"circledast", .forceBinaryOp Sym.CIRCLED_ASTERISK_OPERATOR.asOp),
  (c!"circledcirc", .forceBinaryOp Sym.CIRCLED_RING_OPERATOR.asOp),
  (c!"circleddash", .forceBinaryOp Sym.CIRCLED_DASH.asOp),
  (c!"cirfnint", .op Sym.CIRCULATION_FUNCTION),
  (c!"clubs", .letter (SuperChar.fromChar Sym.BLACK_CLUB_SUIT) .math),
  (c!"clubsuit", .letter (SuperChar.fromChar Sym.BLACK_CLUB_SUIT) .math),
  (c!"cnums", .letter (SuperChar.fromChar Sym.DOUBLE_STRUCK_CAPITAL_C) .math),
  (c!"colon", .letter Sym.COLON.asOp.sc .math),
  (c!"colonapprox", .customCmd 0 Pre.COLON_APPROX),
  (c!"coloncolon", .customCmd 0 Pre.DOUBLE_COLON),
  (c!"coloncolonapprox", .customCmd 0 Pre.DOUBLE_COLON_APPROX),
  (c!"coloncolonequals", .customCmd 0 Pre.DOUBLE_COLON_EQUAL),
  (c!"coloncolonminus", .customCmd 0 Pre.DOUBLE_COLON_MINUS),
  (c!"coloncolonsim", .customCmd 0 Pre.DOUBLE_COLON_SIM),
  (c!"colondash", .customCmd 0 Pre.COLON_MINUS),
  (c!"coloneq", .customCmd 0 Pre.COLON_EQUALS),
  (c!"colonequals", .customCmd 0 Pre.COLON_EQUALS),
  (c!"coloneqq", .customCmd 0 Pre.COLON_EQUALS),
  (c!"colonminus", .customCmd 0 Pre.COLON_MINUS),
  (c!"colonsim", .customCmd 0 Pre.COLON_SIM),
  (c!"color", .color),
  (c!"complement", .letter Sym.COMPLEMENT.asOp.sc .math),
  (c!"cong", .relation Sym.APPROXIMATELY_EQUAL_TO),
  (c!"coprod", .op Sym.N_ARY_COPRODUCT),
  (c!"copyright", .letter (SuperChar.fromChar Sym.COPYRIGHT_SIGN) .math),
  (c!"cramped", .cramped),
  (c!"cup", .binaryOp Sym.UNION),
  (c!"curlyeqprec", .relation Sym.EQUAL_TO_OR_PRECEDES),
  (c!"curlyeqsucc", .relation Sym.EQUAL_TO_OR_SUCCEEDS),
  (c!"curlyvee", .binaryOp Sym.CURLY_LOGICAL_OR),
  (c!"curlywedge", .binaryOp Sym.CURLY_LOGICAL_AND),
  (c!"curvearrowleft", .relation Sym.ANTICLOCKWISE_TOP_SEMICIRCLE_ARROW),
  (c!"curvearrowright", .relation Sym.CLOCKWISE_TOP_SEMICIRCLE_ARROW),
  (c!"dArr", .relation Sym.DOWNWARDS_DOUBLE_ARROW),
  (c!"dag", .letter Sym.DAGGER.sc .mathOrText),
  (c!"dagger", .forceBinaryOp Sym.DAGGER),
  (c!"daleth", .letter (SuperChar.fromChar Sym.DALET_SYMBOL) .math),
  (c!"darr", .relation Sym.DOWNWARDS_ARROW),
  (c!"dashcolon", .customCmd 0 Pre.MINUS_COLON),
  (c!"dashleftarrow", .relation Sym.LEFTWARDS_DASHED_ARROW),
  (c!"dashrightarrow", .relation Sym.RIGHTWARDS_DASHED_ARROW),
  (c!"dashv", .relation Sym.LEFT_TACK),
  (c!"dbinom", .binom (some .displayStyleTrue)),
  (c!"dblcolon", .customCmd 0 Pre.DOUBLE_COLON),
  (c!"ddag", .letter Sym.DOUBLE_DAGGER.sc .mathOrText),
  (c!"ddagger", .forceBinaryOp Sym.DOUBLE_DAGGER),
  (c!"ddddot", .accent Sym.COMBINING_FOUR_DOTS_ABOVE true OpAttrs.empty),
  (c!"dddot", .accent Sym.COMBINING_THREE_DOTS_ABOVE true OpAttrs.empty),
  (c!"ddot", .accent Sym.DIAERESIS true OpAttrs.empty),
  (c!"ddots", .relation Sym.DOWN_RIGHT_DIAGONAL_ELLIPSIS),
  (c!"def", .defCmd false),
  (c!"degree", .letter (SuperChar.fromChar Sym.DEGREE_SIGN) .mathOrText),
  (c!"delta", .letter (SuperChar.fromChar Sym.GREEK_SMALL_LETTER_DELTA) .math),
  (c!"dfrac", .frac (some .displayStyleTrue)),
  (c!"diagdown", .forceOrd Sym.MATHEMATICAL_FALLING_DIAGONAL.asOp),
  (c!"diagup", .forceOrd Sym.MATHEMATICAL_RISING_DIAGONAL.asOp),
  (c!"diamond", .forceBinaryOp Sym.DIAMOND_OPERATOR.asOp),
  (c!"diamonds", .letter (SuperChar.fromChar Sym.WHITE_DIAMOND_SUIT) .math),
  (c!"diamondsuit", .letter (SuperChar.fromChar Sym.WHITE_DIAMOND_SUIT) .math),
  (c!"digamma", .letter (SuperChar.fromChar Sym.GREEK_SMALL_LETTER_DIGAMMA) .math),
  (c!"displaylimits", .limits .display),
  (c!"displaystyle", .style .display),
  (c!"div", .binaryOp Sym.DIVISION_SIGN),
  (c!"divideontimes", .forceBinaryOp Sym.DIVISION_TIMES.asOp),
  (c!"dot", .accent Sym.DOT_ABOVE true OpAttrs.empty),
  (c!"doteq", .relation Sym.APPROACHES_THE_LIMIT),
  (c!"doteqdot", .relation Sym.GEOMETRICALLY_EQUAL_TO),
  (c!"dotplus", .binaryOp Sym.DOT_PLUS),
  (c!"dots", .mathOrTextMode .dots Sym.HORIZONTAL_ELLIPSIS)]

/-- Part of `commands`. -/
def commands3 : List (Str × Token) := [
  (c!"dotsminusdots", .relation Sym.GEOMETRIC_PROPORTION),
  (c!"doublebarwedge", .binaryOp Sym.LOGICAL_AND_WITH_DOUBLE_OVERBAR),
  (c!"doublecap", .binaryOp Sym.DOUBLE_INTERSECTION),
  (c!"doublecup", .binaryOp Sym.DOUBLE_UNION),
  (c!"downarrow", .relation Sym.DOWNWARDS_ARROW),
  (c!"downdownarrows", .relation Sym.DOWNWARDS_PAIRED_ARROWS),
  (c!"downharpoonleft", .relation Sym.DOWNWARDS_HARPOON_WITH_BARB_LEFTWARDS),
  (c!"downharpoonright", .relation Sym.DOWNWARDS_HARPOON_WITH_BARB_RIGHTWARDS),
  (c!"ell", .letter (SuperChar.fromChar Sym.SCRIPT_SMALL_L) .math),
  (c!"emph", .text (some .emphasis)),
  (c!"empty", .letter Sym.EMPTY_SET_ZERO_WITH_LONG_DIAGONAL_STROKE_OVERLAY_FORM .math),
  (c!"emptyset", .letter Sym.EMPTY_SET_ZERO_WITH_LONG_DIAGONAL_STROKE_OVERLAY_FORM .math),
  (c!"endgroup", .groupEnd),
  (c!"enspace", .mathOrTextMode (.space (LatexUnit.lengthWithUnit .em (1/2))) Sym.EN_SPACE),
  (c!"epsilon", .letter (SuperChar.fromChar Sym.GREEK_LUNATE_EPSILON_SYMBOL) .math),
  (c!"eqcirc", .relation Sym.RING_IN_EQUAL_TO),
  (c!"eqcolon", .customCmd 0 Pre.EQUALS_COLON),
  (c!"eqdef", .relation Sym.EQUAL_TO_BY_DEFINITION),
  (c!"eqqcolon", .customCmd 0 Pre.EQUALS_COLON),
  (c!"eqref", .eqRef),
  (c!"eqsim", .relation Sym.MINUS_TILDE),
  (c!"eqslantgtr", .relation Sym.SLANTED_EQUAL_TO_OR_GREATER_THAN),
  (c!"eqslantless", .relation Sym.SLANTED_EQUAL_TO_OR_LESS_THAN),
  (c!"equalscolon", .customCmd 0 Pre.EQUALS_COLON),
  (c!"equalscoloncolon", .customCmd 0 Pre.EQUALS_DOUBLE_COLON),
  (c!"equiv", .relation Sym.IDENTICAL_TO),
  (c!"eta", .letter (SuperChar.fromChar Sym.GREEK_SMALL_LETTER_ETA) .math),
  (c!"eth", .letter (SuperChar.fromChar Sym.LATIN_SMALL_LETTER_ETH) .math),
  (c!"exist", .ord Sym.THERE_EXISTS),
  (c!"exists", .ord Sym.THERE_EXISTS),
  (c!"fallingdotseq", .relation Sym.APPROXIMATELY_EQUAL_TO_OR_THE_IMAGE_OF),
  (c!"fbox", .customCmd 1 Pre.FBOX),
  (c!"fcmp", .binaryOp Sym.Z_NOTATION_RELATIONAL_COMPOSITION),
  (c!"fint", .op Sym.INTEGRAL_AVERAGE_WITH_SLASH),
  (c!"flat", .letter (SuperChar.fromChar Sym.MUSIC_FLAT_SIGN) .math),
  (c!"footnotesize", .textMode (.size .size80)),
  (c!"forall", .ord Sym.FOR_ALL),
  (c!"frac", .frac none),
  (c!"frak", .transform (.transform .fraktur)),
  (c!"frown", .forceRelation Sym.FROWN.asOp),
  (c!"gamma", .letter (SuperChar.fromChar Sym.GREEK_SMALL_LETTER_GAMMA) .math),
  (c!"gcd", .pseudoOperatorLimits c!"gcd"),
  (c!"gdef", .defCmd true),
  (c!"ge", .relation Sym.GREATER_THAN_OR_EQUAL_TO),
  (c!"genfrac", .genfrac),
  (c!"geq", .relation Sym.GREATER_THAN_OR_EQUAL_TO),
  (c!"geqq", .relation Sym.GREATER_THAN_OVER_EQUAL_TO),
  (c!"geqslant", .relation Sym.GREATER_THAN_OR_SLANTED_EQUAL_TO),
  (c!"gets", .relation Sym.LEFTWARDS_ARROW),
  (c!"gg", .relation Sym.MUCH_GREATER_THAN),
  (c!"ggg", .relation Sym.VERY_MUCH_GREATER_THAN),
  (c!"gggtr", .relation Sym.VERY_MUCH_GREATER_THAN),
  (c!"gimel", .letter (SuperChar.fromChar Sym.GIMEL_SYMBOL) .math),
  (c!"global", .globalPrefix),
  (c!"gnapprox", .relation Sym.GREATER_THAN_AND_NOT_APPROXIMATE),
  (c!"gneq", .relation Sym.GREATER_THAN_AND_SINGLE_LINE_NOT_EQUAL_TO),
  (c!"gneqq", .relation Sym.GREATER_THAN_BUT_NOT_EQUAL_TO),
  (c!"gnsim", .relation Sym.GREATER_THAN_BUT_NOT_EQUIVALENT_TO),
  (c!"grave", .accent Sym.GRAVE_ACCENT true OpAttrs.empty),
  (c!"gt", .relation Sym.GREATER_THAN_SIGN),
  (c!"gtrapprox", .relation Sym.GREATER_THAN_OR_APPROXIMATE),
  (c!"gtreqless", .relation Sym.GREATER_THAN_EQUAL_TO_OR_LESS_THAN),
  (c!"gtreqqless", .relation Sym.GREATER_THAN_ABOVE_DOUBLE_LINE_EQUAL_ABOVE_LESS_THAN),
  (c!"gtrdot", .relation Sym.GREATER_THAN_WITH_DOT),
  (c!"gtrless", .relation Sym.GREATER_THAN_OR_LESS_THAN),
  (c!"gtrsim", .relation Sym.GREATER_THAN_OR_EQUIVALENT_TO),
  (c!"gvertneqq", .relation Sym.GREATER_THAN_BUT_NOT_EQUAL_TO_WITH_VERTICAL_STROKE),
  (c!"hArr", .relation Sym.LEFT_RIGHT_DOUBLE_ARROW),
  (c!"harr", .relation Sym.LEFT_RIGHT_ARROW),
  (c!"hat", .accent Sym.MODIFIER_LETTER_CIRCUMFLEX_ACCENT true OpAttrs.stretchyFalse),
  (c!"hbar", .letter (SuperChar.fromChar Sym.PLANCK_CONSTANT_OVER_TWO_PI) .math),
  (c!"hdashline", .hline .dashed),
  (c!"hearts", .letter (SuperChar.fromChar Sym.WHITE_HEART_SUIT) .math),
  (c!"heartsuit", .letter (SuperChar.fromChar Sym.WHITE_HEART_SUIT) .math),
  (c!"hline", .hline .solid),
  (c!"hookleftarrow", .relation Sym.LEFTWARDS_ARROW_WITH_HOOK),
  (c!"hookrightarrow", .relation Sym.RIGHTWARDS_ARROW_WITH_HOOK),
  (c!"hphantom", .phantom .h),
  (c!"hskip", .kernOrSkip .textUnits),
  (c!"hslash", .letter (SuperChar.fromChar Sym.PLANCK_CONSTANT_OVER_TWO_PI) .math),
  (c!"hspace", .customSpace .textUnits),
  (c!"huge", .textMode (.size .size200)),
  (c!"i", .textMode (.letter '\u0131')),
  (c!"iddots", .relation Sym.UP_RIGHT_DIAGONAL_ELLIPSIS),
  (c!"idotsint", .customCmd 0 Pre.IDOTSINT),
  (c!"iff", .customCmd 0 Pre.IFF),
  (c!"iiiint", .op Sym.QUADRUPLE_INTEGRAL_OPERATOR),
  (c!"iiint", .op Sym.TRIPLE_INTEGRAL),
  (c!"iint", .op Sym.DOUBLE_INTEGRAL),
  (c!"image", .letter (SuperChar.fromChar Sym.BLACK_LETTER_CAPITAL_I) .math),
  (c!"imageof", .relation Sym.IMAGE_OF),
  (c!"imath", .letter (SuperChar.fromChar Sym.LATIN_SMALL_LETTER_DOTLESS_I) .math),
  (c!"impliedby", .customCmd 0 Pre.IMPLIEDBY),
  (c!"implies", .customCmd 0 Pre.IMPLIES),
  (c!"in", .relation Sym.ELEMENT_OF),
  (c!"inf", .pseudoOperatorLimits c!"inf"),
  (c!"infin", .letter (SuperChar.fromChar Sym.INFINITY) .math),
  (c!"infty", .letter (SuperChar.fromChar Sym.INFINITY) .math),
  (c!"injlim", .pseudoOperatorLimits ['i', 'n', 'j', '\u2009', 'l', 'i', 'm']),
  (c!"int", .op Sym.INTEGRAL)]

/-- Part of `commands`. -/
def commands4 : List (Str × Token) := [
  (c!"intBar", .op Sym.INTEGRAL_WITH_DOUBLE_STROKE),
  (c!"intbar", .op Sym.FINITE_PART_INTEGRAL),
  (c!"intclockwise", .op Sym.CLOCKWISE_INTEGRAL),
  (c!"intercal", .forceBinaryOp Sym.INTERCALATE.asOp),
  (c!"iota", .letter (SuperChar.fromChar Sym.GREEK_SMALL_LETTER_IOTA) .math),
  (c!"isin", .relation Sym.ELEMENT_OF),
  (c!"it", .transformSwitch (.transform .italic)),
  (c!"j", .textMode (.letter '\u0237')),
  (c!"jmath", .letter (SuperChar.fromChar Sym.LATIN_SMALL_LETTER_DOTLESS_J) .math),
  (c!"kappa", .letter (SuperChar.fromChar Sym.GREEK_SMALL_LETTER_KAPPA) .math),
  (c!"kern", .kernOrSkip .textUnits),
  (c!"kernelcontraction", .relation Sym.HOMOTHETIC),
  (c!"ket", .customCmd 1 Pre.KET),
  (c!"l", .textMode (.letter '\u0142')),
  (c!"lAngle", .opening Sym.MATHEMATICAL_LEFT_DOUBLE_ANGLE_BRACKET),
  (c!"lArr", .relation Sym.LEFTWARDS_DOUBLE_ARROW),
  (c!"lBrace", .opening Sym.LEFT_WHITE_CURLY_BRACKET),
  (c!"lVert", .opening Sym.DOUBLE_VERTICAL_LINE),
  (c!"label", .label),
  (c!"lambda", .letter (SuperChar.fromChar Sym.GREEK_SMALL_LETTER_LAMBDA) .math),
  (c!"land", .binaryOp Sym.LOGICAL_AND),
  (c!"lang", .opening Sym.MATHEMATICAL_LEFT_ANGLE_BRACKET),
  (c!"langle", .opening Sym.MATHEMATICAL_LEFT_ANGLE_BRACKET),
  (c!"large", .textMode (.size .size120)),
  (c!"larr", .relation Sym.LEFTWARDS_ARROW),
  (c!"lbrace", .opening Sym.LEFT_CURLY_BRACKET),
  (c!"lbrack", .opening Sym.LEFT_SQUARE_BRACKET),
  (c!"lceil", .opening Sym.LEFT_CEILING),
  (c!"ldotp", .forcePunctuation Sym.FULL_STOP.asOp),
  (c!"ldots", .mathOrTextMode (.customCmd 0 Pre.DOTS) Sym.HORIZONTAL_ELLIPSIS),
  (c!"le", .relation Sym.LESS_THAN_OR_EQUAL_TO),
  (c!"leadsto", .relation Sym.RIGHTWARDS_SQUIGGLE_ARROW),
  (c!"left", .left),
  (c!"leftarrow", .relation Sym.LEFTWARDS_ARROW),
  (c!"leftarrowtail", .relation Sym.LEFTWARDS_ARROW_WITH_TAIL),
  (c!"leftharpoondown", .relation Sym.LEFTWARDS_HARPOON_WITH_BARB_DOWNWARDS),
  (c!"leftharpoonup", .relation Sym.LEFTWARDS_HARPOON_WITH_BARB_UPWARDS),
  (c!"leftleftarrows", .relation Sym.LEFTWARDS_PAIRED_ARROWS),
  (c!"leftrightarrow", .relation Sym.LEFT_RIGHT_ARROW),
  (c!"leftrightarrows", .relation Sym.LEFTWARDS_ARROW_OVER_RIGHTWARDS_ARROW),
  (c!"leftrightharpoons", .relation Sym.LEFTWARDS_HARPOON_OVER_RIGHTWARDS_HARPOON),
  (c!"leftrightsquigarrow", .relation Sym.LEFT_RIGHT_WAVE_ARROW),
  (c!"leftthreetimes", .forceBinaryOp Sym.LEFT_SEMIDIRECT_PRODUCT.asOp),
  (c!"leq", .relation Sym.LESS_THAN_OR_EQUAL_TO),
  (c!"leqq", .relation Sym.LESS_THAN_OVER_EQUAL_TO),
  (c!"leqslant", .relation Sym.LESS_THAN_OR_SLANTED_EQUAL_TO),
  (c!"lessapprox", .relation Sym.LESS_THAN_OR_APPROXIMATE),
  (c!"lessdot", .relation Sym.LESS_THAN_WITH_DOT),
  (c!"lesseqgtr", .relation Sym.LESS_THAN_EQUAL_TO_OR_GREATER_THAN),
  (c!"lesseqqgtr", .relation Sym.LESS_THAN_ABOVE_DOUBLE_LINE_EQUAL_ABOVE_GREATER_THAN),
  (c!"lessgtr", .relation Sym.LESS_THAN_OR_GREATER_THAN),
  (c!"lesssim", .relation Sym.LESS_THAN_OR_EQUIVALENT_TO),
  (c!"let", .letCmd),
  (c!"lfloor", .opening Sym.LEFT_FLOOR),
  (c!"lgroup", .opening Sym.MATHEMATICAL_LEFT_FLATTENED_PARENTHESIS),
  (c!"lhd", .relation Sym.NORMAL_SUBGROUP_OF),
  (c!"lightning", .relation Sym.DOWNWARDS_ZIGZAG_ARROW),
  (c!"lim", .pseudoOperatorLimits c!"lim"),
  (c!"liminf", .pseudoOperatorLimits ['l', 'i', 'm', '\u2009', 'i', 'n', 'f']),
  (c!"limits", .limits .always),
  (c!"limsup", .pseudoOperatorLimits ['l', 'i', 'm', '\u2009', 's', 'u', 'p']),
  (c!"ll", .relation Sym.MUCH_LESS_THAN),
  (c!"llangle", .opening Sym.Z_NOTATION_LEFT_BINDING_BRACKET),
  (c!"llbracket", .opening Sym.MATHEMATICAL_LEFT_WHITE_SQUARE_BRACKET),
  (c!"llcorner", .forceOpen Sym.BOTTOM_LEFT_CORNER .pretend),
  (c!"lll", .relation Sym.VERY_MUCH_LESS_THAN),
  (c!"llless", .relation Sym.VERY_MUCH_LESS_THAN),
  (c!"lmoustache", .forceOpen Sym.UPPER_LEFT_OR_LOWER_RIGHT_CURLY_BRACKET_SECTION .yes),
  (c!"llparenthesis", .opening Sym.Z_NOTATION_LEFT_IMAGE_BRACKET),
  (c!"lnapprox", .relation Sym.LESS_THAN_AND_NOT_APPROXIMATE),
  (c!"lneq", .relation Sym.LESS_THAN_AND_SINGLE_LINE_NOT_EQUAL_TO),
  (c!"lneqq", .relation Sym.LESS_THAN_BUT_NOT_EQUAL_TO),
  (c!"lnot", .ord Sym.NOT_SIGN),
  (c!"lnsim", .relation Sym.LESS_THAN_BUT_NOT_EQUIVALENT_TO),
  (c!"longleftarrow", .relation Sym.LONG_LEFTWARDS_ARROW),
  (c!"longleftrightarrow", .relation Sym.LONG_LEFT_RIGHT_ARROW),
  (c!"longmapsto", .relation Sym.LONG_RIGHTWARDS_ARROW_FROM_BAR),
  (c!"longrightarrow", .relation Sym.LONG_RIGHTWARDS_ARROW),
  (c!"looparrowleft", .relation Sym.LEFTWARDS_ARROW_WITH_LOOP),
  (c!"looparrowright", .relation Sym.RIGHTWARDS_ARROW_WITH_LOOP),
  (c!"lor", .binaryOp Sym.LOGICAL_OR),
  (c!"lozenge", .letter (SuperChar.fromChar Sym.LOZENGE) .math),
  (c!"lparen", .opening Sym.LEFT_PARENTHESIS),
  (c!"lq", .letter (SuperChar.fromChar Sym.LEFT_SINGLE_QUOTATION_MARK) .mathOrText),
  (c!"lrArr", .relation Sym.LEFT_RIGHT_DOUBLE_ARROW),
  (c!"lrarr", .relation Sym.LEFT_RIGHT_ARROW),
  (c!"lrcorner", .forceClose Sym.BOTTOM_RIGHT_CORNER .pretend),
  (c!"lt", .relation Sym.LESS_THAN_SIGN),
  (c!"ltimes", .forceBinaryOp Sym.LEFT_NORMAL_FACTOR_SEMIDIRECT_PRODUCT.asOp),
  (c!"lvert", .opening Sym.VERTICAL_LINE),
  (c!"lvertneqq", .relation Sym.LESS_THAN_BUT_NOT_EQUAL_TO_WITH_VERTICAL_STROKE),
  (c!"maltese", .letter (SuperChar.fromChar Sym.MALTESE_CROSS) .mathOrText),
  (c!"mapsto", .relation Sym.RIGHTWARDS_ARROW_FROM_BAR),
  (c!"mathbb", .transform (.transform .doubleStruck)),
  (c!"mathbf", .transform (.transform .bold)),
  (c!"mathbin", .mathClass .bin),
  (c!"mathcal", .transform (.transform .scriptChancery)),
  (c!"mathchoice", .mathChoice),
  (c!"mathclose", .mathClass .closing),
  (c!"mathfrak", .transform (.transform .fraktur))]

/-- Part of `commands`. -/
def commands5 : List (Str × Token) := [
  (c!"mathinner", .mathClass .inner),
  (c!"mathit", .transform (.transform .italic)),
  (c!"mathop", .mathClass .op),
  (c!"mathopen", .mathClass .opening),
  (c!"mathord", .mathClass .ord),
  (c!"mathpunct", .mathClass .punct),
  (c!"mathrel", .mathClass .rel),
  (c!"mathring", .accent Sym.RING_ABOVE true OpAttrs.empty),
  (c!"mathrm", .transform .normal),
  (c!"mathscr", .transform (.transform .scriptRoundhand)),
  (c!"mathsf", .transform (.transform .sansSerif)),
  (c!"mathsterling", .letter (SuperChar.fromChar Sym.POUND_SIGN) .math),
  (c!"mathstrut", .customCmd 0 Pre.MATHSTRUT),
  (c!"mathtt", .transform (.transform .monospace)),
  (c!"max", .pseudoOperatorLimits c!"max"),
  (c!"measeq", .relation Sym.MEASURED_BY),
  (c!"measuredangle", .letter (SuperChar.fromChar Sym.MEASURED_ANGLE) .math),
  (c!"medspace", .mathOrTextMode (.space (LatexUnit.lengthWithUnit .mu 4)) Sym.MEDIUM_MATHEMATICAL_SPACE),
  (c!"mho", .letter (SuperChar.fromChar Sym.INVERTED_OHM_SIGN) .math),
  (c!"mid", .relation Sym.DIVIDES),
  (c!"middle", .middle),
  (c!"min", .pseudoOperatorLimits c!"min"),
  (c!"minuscolon", .customCmd 0 Pre.MINUS_COLON),
  (c!"minuscoloncolon", .customCmd 0 Pre.MINUS_DOUBLE_COLON),
  (c!"minuso", .forceBinaryOp Sym.CIRCLE_WITH_HORIZONTAL_BAR),
  (c!"mkern", .kernOrSkip .mathUnits),
  (c!"mod", .customCmd 0 Pre.MOD),
  (c!"models", .relation Sym.TRUE),
  (c!"mp", .binaryOp Sym.MINUS_OR_PLUS_SIGN),
  (c!"mskip", .kernOrSkip .mathUnits),
  (c!"mspace", .customSpace .mathUnits),
  (c!"mu", .letter (SuperChar.fromChar Sym.GREEK_SMALL_LETTER_MU) .math),
  (c!"multimap", .relation Sym.MULTIMAP),
  (c!"nLeftarrow", .relation Sym.LEFTWARDS_DOUBLE_ARROW_WITH_STROKE),
  (c!"nLeftrightarrow", .relation Sym.LEFT_RIGHT_DOUBLE_ARROW_WITH_STROKE),
  (c!"nRightarrow", .relation Sym.RIGHTWARDS_DOUBLE_ARROW_WITH_STROKE),
  (c!"nVDash", .relation Sym.NEGATED_DOUBLE_VERTICAL_BAR_DOUBLE_RIGHT_TURNSTILE),
  (c!"nVdash", .relation Sym.DOES_NOT_FORCE),
  (c!"nabla", .uprightLetter (SuperChar.fromChar Sym.NABLA)),
  (c!"natnums", .letter (SuperChar.fromChar Sym.DOUBLE_STRUCK_CAPITAL_N) .math),
  (c!"natural", .letter (SuperChar.fromChar Sym.MUSIC_NATURAL_SIGN) .math),
  (c!"ncong", .relation Sym.NEITHER_APPROXIMATELY_NOR_ACTUALLY_EQUAL_TO),
  (c!"ne", .relation Sym.NOT_EQUAL_TO),
  (c!"nearrow", .relation Sym.NORTH_EAST_ARROW),
  (c!"neg", .ord Sym.NOT_SIGN),
  (c!"negmedspace", .space (LatexUnit.lengthWithUnit .mu (-4))),
  (c!"negthickspace", .space (LatexUnit.lengthWithUnit .mu (-5))),
  (c!"negthinspace", .space (LatexUnit.lengthWithUnit .mu (-3))),
  (c!"neq", .relation Sym.NOT_EQUAL_TO),
  (c!"nequiv", .relation Sym.NOT_IDENTICAL_TO),
  (c!"newcommand", .newCommand .new),
  (c!"newline", .newLine),
  (c!"nexists", .ord Sym.THERE_DOES_NOT_EXIST),
  (c!"ngeq", .relation Sym.NEITHER_GREATER_THAN_NOR_EQUAL_TO),
  (c!"ngeqq", .customCmd 0 [.overlay .solidus, .relation Sym.GREATER_THAN_OVER_EQUAL_TO]),
  (c!"ngeqslant", .customCmd 0 [.overlay .solidus, .relation Sym.GREATER_THAN_OR_SLANTED_EQUAL_TO]),
  (c!"ngtr", .relation Sym.NOT_GREATER_THAN),
  (c!"ngtrless", .relation Sym.NEITHER_GREATER_THAN_NOR_LESS_THAN),
  (c!"ngtrsim", .relation Sym.NEITHER_GREATER_THAN_NOR_EQUIVALENT_TO),
  (c!"ni", .relation Sym.CONTAINS_AS_MEMBER),
  (c!"nleftarrow", .relation Sym.LEFTWARDS_ARROW_WITH_STROKE),
  (c!"nleftrightarrow", .relation Sym.LEFT_RIGHT_ARROW_WITH_STROKE),
  (c!"nleqq", .customCmd 0 [.overlay .solidus, .relation Sym.LESS_THAN_OVER_EQUAL_TO]),
  (c!"nleqslant", .customCmd 0 [.overlay .solidus, .relation Sym.LESS_THAN_OR_SLANTED_EQUAL_TO]),
  (c!"nleq", .relation Sym.NEITHER_LESS_THAN_NOR_EQUAL_TO),
  (c!"nless", .relation Sym.NOT_LESS_THAN),
  (c!"nlessgt", .relation Sym.NEITHER_LESS_THAN_NOR_GREATER_THAN),
  (c!"nlesssim", .relation Sym.NEITHER_LESS_THAN_NOR_EQUIVALENT_TO),
  (c!"nmid", .relation Sym.DOES_NOT_DIVIDE),
  (c!"nobreakspace", .nonBreakingSpace),
  (c!"nolimits", .limits .never),
  (c!"nonumber", .noNumber),
  (c!"normalsize", .textMode (.size .size100)),
  (c!"not", .overlay .solidus),
  (c!"notag", .noNumber),
  (c!"notin", .relation Sym.NOT_AN_ELEMENT_OF),
  (c!"notni", .relation Sym.DOES_NOT_CONTAIN_AS_MEMBER),
  (c!"nparallel", .relation Sym.NOT_PARALLEL_TO),
  (c!"nprec", .relation Sym.DOES_NOT_PRECEDE),
  (c!"npreceq", .relation Sym.DOES_NOT_PRECEDE_OR_EQUAL),
  (c!"nrightarrow", .relation Sym.RIGHTWARDS_ARROW_WITH_STROKE),
  (c!"nsim", .relation Sym.NOT_TILDE),
  (c!"nsubset", .relation Sym.NOT_A_SUBSET_OF),
  (c!"nsubseteq", .relation Sym.NEITHER_A_SUBSET_OF_NOR_EQUAL_TO),
  (c!"nsubseteqq", .customCmd 0 [.overlay .solidus, .relation Sym.SUBSET_OF_ABOVE_EQUALS_SIGN]),
  (c!"nsucc", .relation Sym.DOES_NOT_SUCCEED),
  (c!"nsucceq", .relation Sym.DOES_NOT_SUCCEED_OR_EQUAL),
  (c!"nsupset", .relation Sym.NOT_A_SUPERSET_OF),
  (c!"nsupseteq", .relation Sym.NEITHER_A_SUPERSET_OF_NOR_EQUAL_TO),
  (c!"nsupseteqq", .customCmd 0 [.overlay .solidus, .relation Sym.SUPERSET_OF_ABOVE_EQUALS_SIGN]),
  (c!"ntriangleleft", .relation Sym.NOT_NORMAL_SUBGROUP_OF),
  (c!"ntrianglelefteq", .relation Sym.NOT_NORMAL_SUBGROUP_OF_OR_EQUAL_TO),
  (c!"ntriangleright", .relation Sym.DOES_NOT_CONTAIN_AS_NORMAL_SUBGROUP),
  (c!"ntrianglerighteq", .relation Sym.DOES_NOT_CONTAIN_AS_NORMAL_SUBGROUP_OR_EQUAL),
  (c!"nu", .letter (SuperChar.fromChar Sym.GREEK_SMALL_LETTER_NU) .math),
  (c!"nvDash", .relation Sym.NOT_TRUE),
  (c!"nvdash", .relation Sym.DOES_NOT_PROVE),
  (c!"nwarrow", .relation Sym.NORTH_WEST_ARROW),
  (c!"o", .textMode (.letter '\u00f8')),
  (c!"odot", .forceBinaryOp Sym.CIRCLED_DOT_OPERATOR.asOp)]

/-- Part of `commands`. -/
def commands6 : List (Str × Token) := [
  (c!"oe", .textMode (.letter '\u0153')),
  (c!"oiiint", .op Sym.VOLUME_INTEGRAL),
  (c!"oiint", .op Sym.SURFACE_INTEGRAL),
  (c!"oint", .op Sym.CONTOUR_INTEGRAL),
  (c!"ointctrclockwise", .op Sym.ANTICLOCKWISE_CONTOUR_INTEGRAL),
  (c!"omega", .letter (SuperChar.fromChar Sym.GREEK_SMALL_LETTER_OMEGA) .math),
  (c!"omicron", .letter (SuperChar.fromChar Sym.GREEK_SMALL_LETTER_OMICRON) .math),
  (c!"ominus", .binaryOp Sym.CIRCLED_MINUS),
  (c!"operatorname", .operatorName false),
  (c!"operatorname*", .operatorName true),
  (c!"operatornamewithlimits", .operatorName true),
  (c!"oplus", .binaryOp Sym.CIRCLED_PLUS),
  (c!"origof", .relation Sym.ORIGINAL_OF),
  (c!"oslash", .binaryOp Sym.CIRCLED_DIVISION_SLASH),
  (c!"otimes", .forceBinaryOp Sym.CIRCLED_TIMES.asOp),
  (c!"over", .infixGenFrac true none),
  (c!"overbrace", .overUnderBrace Sym.TOP_CURLY_BRACKET true),
  (c!"overbracket", .overUnderBrace Sym.TOP_SQUARE_BRACKET true),
  (c!"overgroup", .accent Sym.TOP_TORTOISE_SHELL_BRACKET.asBmpOp true OpAttrs.empty),
  (c!"overleftarrow", .accent Sym.LEFTWARDS_ARROW.asBmpOp true OpAttrs.empty),
  (c!"overleftharpoon", .accent Sym.LEFTWARDS_HARPOON_WITH_BARB_UPWARDS.asBmpOp true OpAttrs.empty),
  (c!"overleftrightarrow", .accent Sym.LEFT_RIGHT_ARROW.asBmpOp true OpAttrs.empty),
  (c!"overline", .accent Sym.COMBINING_LOW_LINE true OpAttrs.stretchyTrue),
  (c!"overparen", .overUnderBrace Sym.TOP_PARENTHESIS true),
  (c!"overrightarrow", .accent Sym.RIGHTWARDS_ARROW.asBmpOp true OpAttrs.empty),
  (c!"overrightharpoon", .accent Sym.RIGHTWARDS_HARPOON_WITH_BARB_UPWARDS.asBmpOp true OpAttrs.empty),
  (c!"overset", .overset),
  (c!"owns", .relation Sym.CONTAINS_AS_MEMBER),
  (c!"parallel", .relation Sym.PARALLEL_TO),
  (c!"partial", .letter (SuperChar.fromChar Sym.PARTIAL_DIFFERENTIAL) .math),
  (c!"perp", .relation Sym.PERPENDICULAR),
  (c!"phantom", .phantom .full),
  (c!"phase", .enclose Notation.phasorAngle),
  (c!"phi", .letter (SuperChar.fromChar Sym.GREEK_PHI_SYMBOL) .math),
  (c!"pi", .letter (SuperChar.fromChar Sym.GREEK_SMALL_LETTER_PI) .math),
  (c!"pitchfork", .relation Sym.PITCHFORK),
  (c!"plim", .pseudoOperatorLimits c!"plim"),
  (c!"plusmn", .binaryOp Sym.PLUS_MINUS_SIGN),
  (c!"pm", .binaryOp Sym.PLUS_MINUS_SIGN),
  (c!"pmod", .customCmd 1 Pre.PMOD),
  (c!"pod", .customCmd 1 Pre.POD),
  (c!"pounds", .letter (SuperChar.fromChar Sym.POUND_SIGN) .math),
  (c!"prec", .relation Sym.PRECEDES),
  (c!"precapprox", .relation Sym.PRECEDES_ABOVE_ALMOST_EQUAL_TO),
  (c!"preccurlyeq", .relation Sym.PRECEDES_OR_EQUAL_TO),
  (c!"preceq", .relation Sym.PRECEDES_ABOVE_SINGLE_LINE_EQUALS_SIGN),
  (c!"precnapprox", .relation Sym.PRECEDES_ABOVE_NOT_ALMOST_EQUAL_TO),
  (c!"precneqq", .relation Sym.PRECEDES_ABOVE_NOT_EQUAL_TO),
  (c!"precnsim", .relation Sym.PRECEDES_BUT_NOT_EQUIVALENT_TO),
  (c!"precsim", .relation Sym.PRECEDES_OR_EQUIVALENT_TO),
  (c!"prescript", .prescript),
  (c!"prime", .ord Sym.PRIME),
  (c!"prod", .op Sym.N_ARY_PRODUCT),
  (c!"projlim", .pseudoOperatorLimits ['p', 'r', 'o', 'j', '\u2009', 'l', 'i', 'm']),
  (c!"propto", .relation Sym.PROPORTIONAL_TO),
  (c!"providecommand", .newCommand .provide),
  (c!"psi", .letter (SuperChar.fromChar Sym.GREEK_SMALL_LETTER_PSI) .math),
  (c!"qquad", .space (LatexUnit.lengthWithUnit .em 2)),
  (c!"quad", .mathOrTextMode (.space (LatexUnit.lengthWithUnit .em 1)) Sym.EM_SPACE),
  (c!"questeq", .relation Sym.QUESTIONED_EQUAL_TO),
  (c!"r", .textMode (.accent Sym.COMBINING_RING_ABOVE)),
  (c!"rAngle", .closing Sym.MATHEMATICAL_RIGHT_DOUBLE_ANGLE_BRACKET),
  (c!"rArr", .relation Sym.RIGHTWARDS_DOUBLE_ARROW),
  (c!"rBrace", .closing Sym.RIGHT_WHITE_CURLY_BRACKET),
  (c!"rVert", .closing Sym.DOUBLE_VERTICAL_LINE),
  (c!"raisebox", .raiseBox),
  (c!"rang", .closing Sym.MATHEMATICAL_RIGHT_ANGLE_BRACKET),
  (c!"rangle", .closing Sym.MATHEMATICAL_RIGHT_ANGLE_BRACKET),
  (c!"rarr", .relation Sym.RIGHTWARDS_ARROW),
  (c!"ratio", .forceRelation Sym.RATIO.asOp),
  (c!"rbrace", .closing Sym.RIGHT_CURLY_BRACKET),
  (c!"rbrack", .closing Sym.RIGHT_SQUARE_BRACKET),
  (c!"rceil", .closing Sym.RIGHT_CEILING),
  (c!"real", .letter (SuperChar.fromChar Sym.BLACK_LETTER_CAPITAL_R) .math),
  (c!"reals", .letter (SuperChar.fromChar Sym.DOUBLE_STRUCK_CAPITAL_R) .math),
  (c!"relax", .relax),
  (c!"renewcommand", .newCommand .renew),
  (c!"restriction", .relation Sym.UPWARDS_HARPOON_WITH_BARB_RIGHTWARDS),
  (c!"rfloor", .closing Sym.RIGHT_FLOOR),
  (c!"rgroup", .closing Sym.MATHEMATICAL_RIGHT_FLATTENED_PARENTHESIS),
  (c!"rhd", .relation Sym.CONTAINS_AS_NORMAL_SUBGROUP),
  (c!"rho", .letter (SuperChar.fromChar Sym.GREEK_SMALL_LETTER_RHO) .math),
  (c!"right", .right),
  (c!"rightarrow", .relation Sym.RIGHTWARDS_ARROW),
  (c!"rightarrowtail", .relation Sym.RIGHTWARDS_ARROW_WITH_TAIL),
  (c!"rightharpoondown", .relation Sym.RIGHTWARDS_HARPOON_WITH_BARB_DOWNWARDS),
  (c!"rightharpoonup", .relation Sym.RIGHTWARDS_HARPOON_WITH_BARB_UPWARDS),
  (c!"rightleftarrows", .relation Sym.RIGHTWARDS_ARROW_OVER_LEFTWARDS_ARROW),
  (c!"rightleftharpoons", .relation Sym.RIGHTWARDS_HARPOON_OVER_LEFTWARDS_HARPOON),
  (c!"rightrightarrows", .relation Sym.RIGHTWARDS_PAIRED_ARROWS),
  (c!"rightsquigarrow", .relation Sym.RIGHTWARDS_SQUIGGLE_ARROW),
  (c!"rightthreetimes", .forceBinaryOp Sym.RIGHT_SEMIDIRECT_PRODUCT.asOp),
  (c!"risingdotseq", .relation Sym.IMAGE_OF_OR_APPROXIMATELY_EQUAL_TO),
  (c!"rm", .transformSwitch .normal),
  (c!"rmoustache", .forceClose Sym.UPPER_RIGHT_OR_LOWER_LEFT_CURLY_BRACKET_SECTION .yes),
  (c!"rparen", .closing Sym.RIGHT_PARENTHESIS),
  (c!"rq", .letter (SuperChar.fromChar Sym.RIGHT_SINGLE_QUOTATION_MARK) .mathOrText),
  (c!"rrangle", .closing Sym.Z_NOTATION_RIGHT_BINDING_BRACKET),
  (c!"rrbracket", .closing Sym.MATHEMATICAL_RIGHT_WHITE_SQUARE_BRACKET),
  (c!"rrparenthesis", .closing Sym.Z_NOTATION_RIGHT_IMAGE_BRACKET)]

/-- Part of `commands`. -/
def commands7 : List (Str × Token) := [
  (c!"rtimes", .forceBinaryOp Sym.RIGHT_NORMAL_FACTOR_SEMIDIRECT_PRODUCT.asOp),
  (c!"rupee", .letter (SuperChar.fromChar '\u20b9') .math),
  (c!"rvert", .closing Sym.VERTICAL_LINE),
  (c!"scriptscriptstyle", .style .scriptScript),
  (c!"scriptsize", .textMode (.size .size70)),
  (c!"scriptstyle", .style .script),
  (c!"searrow", .relation Sym.SOUTH_EAST_ARROW),
  (c!"sect", .letter (SuperChar.fromChar Sym.SECTION_SIGN) .mathOrText),
  (c!"set", .customCmd 1 Pre.SET),
  (c!"setminus", .binaryOp Sym.SET_MINUS),
  (c!"sf", .transformSwitch (.transform .sansSerif)),
  (c!"sideset", .sideset),
  (c!"sixptsize", .textMode (.size .size60)),
  (c!"sharp", .letter (SuperChar.fromChar Sym.MUSIC_SHARP_SIGN) .math),
  (c!"sigma", .letter (SuperChar.fromChar Sym.GREEK_SMALL_LETTER_SIGMA) .math),
  (c!"sim", .relation Sym.TILDE_OPERATOR),
  (c!"simcolon", .customCmd 0 Pre.SIM_COLON),
  (c!"simcoloncolon", .customCmd 0 Pre.SIM_DOUBLE_COLON),
  (c!"simeq", .relation Sym.ASYMPTOTICALLY_EQUAL_TO),
  (c!"slashed", .overlay .solidus),
  (c!"small", .textMode (.size .size90)),
  (c!"smile", .forceRelation Sym.SMILE.asOp),
  (c!"sout", .textMode (.style .strikethrough)),
  (c!"space", .nonBreakingSpace),
  (c!"spades", .letter (SuperChar.fromChar Sym.BLACK_SPADE_SUIT) .math),
  (c!"spadesuit", .letter (SuperChar.fromChar Sym.BLACK_SPADE_SUIT) .math),
  (c!"sphericalangle", .letter (SuperChar.fromChar Sym.SPHERICAL_ANGLE) .math),
  (c!"sqcap", .binaryOp Sym.SQUARE_CAP),
  (c!"sqcup", .binaryOp Sym.SQUARE_CUP),
  (c!"sqrt", .sqrt),
  (c!"sqsubset", .relation Sym.SQUARE_IMAGE_OF),
  (c!"sqsubseteq", .relation Sym.SQUARE_IMAGE_OF_OR_EQUAL_TO),
  (c!"sqsupset", .relation Sym.SQUARE_ORIGINAL_OF),
  (c!"sqsupseteq", .relation Sym.SQUARE_ORIGINAL_OF_OR_EQUAL_TO),
  (c!"square", .letter (SuperChar.fromChar Sym.WHITE_SQUARE) .math),
  (c!"ss", .textMode (.letter '\u00df')),
  (c!"stackrel", .overset),
  (c!"star", .forceBinaryOp Sym.STAR_OPERATOR.asOp),
  (c!"stareq", .relation Sym.STAR_EQUALS),
  (c!"sub", .relation Sym.SUBSET_OF),
  (c!"sube", .relation Sym.SUBSET_OF_OR_EQUAL_TO),
  (c!"subset", .relation Sym.SUBSET_OF),
  (c!"subseteq", .relation Sym.SUBSET_OF_OR_EQUAL_TO),
  (c!"subseteqq", .relation Sym.SUBSET_OF_ABOVE_EQUALS_SIGN),
  (c!"subsetneq", .relation Sym.SUBSET_OF_WITH_NOT_EQUAL_TO),
  (c!"subsetneqq", .relation Sym.SUBSET_OF_ABOVE_NOT_EQUAL_TO),
  (c!"succ", .relation Sym.SUCCEEDS),
  (c!"succapprox", .relation Sym.SUCCEEDS_ABOVE_ALMOST_EQUAL_TO),
  (c!"succcurlyeq", .relation Sym.SUCCEEDS_OR_EQUAL_TO),
  (c!"succeq", .relation Sym.SUCCEEDS_ABOVE_SINGLE_LINE_EQUALS_SIGN),
  (c!"succnapprox", .relation Sym.SUCCEEDS_ABOVE_NOT_ALMOST_EQUAL_TO),
  (c!"succneqq", .relation Sym.SUCCEEDS_ABOVE_NOT_EQUAL_TO),
  (c!"succnsim", .relation Sym.SUCCEEDS_BUT_NOT_EQUIVALENT_TO),
  (c!"succsim", .relation Sym.SUCCEEDS_OR_EQUIVALENT_TO),
  (c!"sum", .op Sym.N_ARY_SUMMATION),
  (c!"sumint", .op Sym.SUMMATION_WITH_INTEGRAL),
  (c!"sup", .pseudoOperatorLimits c!"sup"),
  (c!"supe", .relation Sym.SUPERSET_OF_OR_EQUAL_TO),
  (c!"supset", .relation Sym.SUPERSET_OF),
  (c!"supseteq", .relation Sym.SUPERSET_OF_OR_EQUAL_TO),
  (c!"supseteqq", .relation Sym.SUPERSET_OF_ABOVE_EQUALS_SIGN),
  (c!"supsetneq", .relation Sym.SUPERSET_OF_WITH_NOT_EQUAL_TO),
  (c!"supsetneqq", .relation Sym.SUPERSET_OF_ABOVE_NOT_EQUAL_TO),
  (c!"surd", .customCmd 0 Pre.SURD),
  (c!"swarrow", .relation Sym.SOUTH_WEST_ARROW),
  (c!"symbf", .transform (.transform .boldItalic)),
  (c!"tag", .tag true),
  (c!"tag*", .tag false),
  (c!"tau", .letter (SuperChar.fromChar Sym.GREEK_SMALL_LETTER_TAU) .math),
  (c!"tbinom", .binom (some .displayStyleFalse)),
  (c!"text", .text none),
  (c!"textasciicircum", .textMode (.letter Sym.MODIFIER_LETTER_CIRCUMFLEX_ACCENT.char)),
  (c!"textasciitilde", .textMode (.letter Sym.SMALL_TILDE.char)),
  (c!"textbackslash", .textMode (.letter '\\')),
  (c!"textbar", .textMode (.letter '|')),
  (c!"textbardbl", .textMode (.letter '\u2016')),
  (c!"textbf", .text (some .bold)),
  (c!"textbraceleft", .textMode (.letter '{')),
  (c!"textbraceright", .textMode (.letter '}')),
  (c!"textcolor", .customCmd 2 Pre.TEXTCOLOR),
  (c!"textdagger", .textMode (.letter '\u2020')),
  (c!"textdaggerdbl", .textMode (.letter '\u2021')),
  (c!"textdegree", .textMode (.letter Sym.DEGREE_SIGN)),
  (c!"textdollar", .textMode (.letter Sym.DOLLAR_SIGN)),
  (c!"textellipsis", .textMode (.letter Sym.HORIZONTAL_ELLIPSIS)),
  (c!"textemdash", .textMode (.letter '\u2014')),
  (c!"textendash", .textMode (.letter '\u2013')),
  (c!"textgreater", .textMode (.letter '>')),
  (c!"textit", .text (some .italic)),
  (c!"textless", .textMode (.letter '<')),
  (c!"textquotedblleft", .textMode (.letter '\u201c')),
  (c!"textquotedblright", .textMode (.letter Sym.RIGHT_DOUBLE_QUOTATION_MARK)),
  (c!"textquoteleft", .textMode (.letter Sym.LEFT_SINGLE_QUOTATION_MARK)),
  (c!"textquoteright", .textMode (.letter Sym.RIGHT_SINGLE_QUOTATION_MARK)),
  (c!"textregistered", .textMode (.letter '\u00ae')),
  (c!"textrm", .text (some .serif)),
  (c!"textsc", .text (some .smallCaps)),
  (c!"textsf", .text (some .sansSerif)),
  (c!"textsterling", .textMode (.letter Sym.POUND_SIGN)),
  (c!"textstyle", .style .text)]

/-- Part of `commands`. -/
def commands8 : List (Str × Token) := [
  (c!"texttt", .text (some .typewriter)),
  (c!"textunderscore", .textMode (.letter '_')),
  (c!"textyen", .textMode (.letter Sym.YEN_SIGN)),
  (c!"tfrac", .frac (some .displayStyleFalse)),
  (c!"therefore", .forceRelation Sym.THEREFORE.asOp),
  (c!"theta", .letter (SuperChar.fromChar Sym.GREEK_SMALL_LETTER_THETA) .math),
  (c!"thetasym", .letter (SuperChar.fromChar Sym.GREEK_THETA_SYMBOL) .math),
  (c!"thickspace", .mathOrTextMode (.space (LatexUnit.lengthWithUnit .mu 5)) Sym.THREE_PER_EM_SPACE),
  (c!"thinspace", .mathOrTextMode (.space (LatexUnit.lengthWithUnit .mu 3)) Sym.THIN_SPACE),
  (c!"tilde", .accent Sym.SMALL_TILDE true OpAttrs.stretchyFalse),
  (c!"times", .forceBinaryOp Sym.MULTIPLICATION_SIGN.asOp),
  (c!"tiny", .textMode (.size .size50)),
  (c!"to", .relation Sym.RIGHTWARDS_ARROW),
  (c!"top", .letter (SuperChar.fromChar Sym.DOWN_TACK) .math),
  (c!"triangle", .letter Sym.WHITE_UP_POINTING_TRIANGLE.sc .math),
  (c!"triangledown", .letter Sym.WHITE_DOWN_POINTING_TRIANGLE.sc .math),
  (c!"triangleleft", .forceBinaryOp Sym.WHITE_LEFT_POINTING_TRIANGLE),
  (c!"trianglelefteq", .relation Sym.NORMAL_SUBGROUP_OF_OR_EQUAL_TO),
  (c!"triangleq", .relation Sym.DELTA_EQUAL_TO),
  (c!"triangleright", .forceBinaryOp Sym.WHITE_RIGHT_POINTING_TRIANGLE),
  (c!"trianglerighteq", .relation Sym.CONTAINS_AS_NORMAL_SUBGROUP_OR_EQUAL_TO),
  (c!"tt", .transformSwitch (.transform .monospace)),
  (c!"twoheadleftarrow", .relation Sym.LEFTWARDS_TWO_HEADED_ARROW),
  (c!"twoheadrightarrow", .relation Sym.RIGHTWARDS_TWO_HEADED_ARROW),
  (c!"u", .textMode (.accent Sym.COMBINING_BREVE)),
  (c!"uArr", .relation Sym.UPWARDS_DOUBLE_ARROW),
  (c!"uarr", .relation Sym.UPWARDS_ARROW),
  (c!"ulcorner", .forceOpen Sym.TOP_LEFT_CORNER .pretend),
  (c!"underbar", .text (some .underline)),
  (c!"underbrace", .overUnderBrace Sym.BOTTOM_CURLY_BRACKET false),
  (c!"underbracket", .overUnderBrace Sym.BOTTOM_SQUARE_BRACKET false),
  (c!"undergroup", .accent Sym.BOTTOM_TORTOISE_SHELL_BRACKET.asBmpOp false OpAttrs.empty),
  (c!"underleftarrow", .accent Sym.LEFTWARDS_ARROW.asBmpOp false OpAttrs.empty),
  (c!"underleftrightarrow", .accent Sym.LEFT_RIGHT_ARROW.asBmpOp false OpAttrs.empty),
  (c!"underrightarrow", .accent Sym.RIGHTWARDS_ARROW.asBmpOp false OpAttrs.empty),
  (c!"underline", .accent Sym.COMBINING_LOW_LINE false OpAttrs.stretchyTrue),
  (c!"underparen", .overUnderBrace Sym.BOTTOM_PARENTHESIS false),
  (c!"underset", .underset),
  (c!"unlhd", .relation Sym.NORMAL_SUBGROUP_OF_OR_EQUAL_TO),
  (c!"unrhd", .relation Sym.CONTAINS_AS_NORMAL_SUBGROUP_OR_EQUAL_TO),
  (c!"uparrow", .relation Sym.UPWARDS_ARROW),
  (c!"updownarrow", .relation Sym.UP_DOWN_ARROW),
  (c!"upharpoonleft", .relation Sym.UPWARDS_HARPOON_WITH_BARB_LEFTWARDS),
  (c!"upharpoonright", .relation Sym.UPWARDS_HARPOON_WITH_BARB_RIGHTWARDS),
  (c!"uplus", .binaryOp Sym.MULTISET_UNION),
  (c!"upsilon", .letter (SuperChar.fromChar Sym.GREEK_SMALL_LETTER_UPSILON) .math),
  (c!"upuparrows", .relation Sym.UPWARDS_PAIRED_ARROWS),
  (c!"urcorner", .forceClose Sym.TOP_RIGHT_CORNER .pretend),
  (c!"v", .textMode (.accent Sym.COMBINING_CARON)),
  (c!"vDash", .relation Sym.TRUE),
  (c!"varDelta", .letter (SuperChar.fromChar Sym.GREEK_CAPITAL_LETTER_DELTA) .math),
  (c!"varGamma", .letter (SuperChar.fromChar Sym.GREEK_CAPITAL_LETTER_GAMMA) .math),
  (c!"varLambda", .letter (SuperChar.fromChar Sym.GREEK_CAPITAL_LETTER_LAMBDA) .math),
  (c!"varOmega", .letter (SuperChar.fromChar Sym.GREEK_CAPITAL_LETTER_OMEGA) .math),
  (c!"varPhi", .letter (SuperChar.fromChar Sym.GREEK_CAPITAL_LETTER_PHI) .math),
  (c!"varPi", .letter (SuperChar.fromChar Sym.GREEK_CAPITAL_LETTER_PI) .math),
  (c!"varPsi", .letter (SuperChar.fromChar Sym.GREEK_CAPITAL_LETTER_PSI) .math),
  (c!"varSigma", .letter (SuperChar.fromChar Sym.GREEK_CAPITAL_LETTER_SIGMA) .math),
  (c!"varTheta", .letter (SuperChar.fromChar Sym.GREEK_CAPITAL_LETTER_THETA) .math),
  (c!"varUpsilon", .letter (SuperChar.fromChar Sym.GREEK_CAPITAL_LETTER_UPSILON) .math),
  (c!"varXi", .letter (SuperChar.fromChar Sym.GREEK_CAPITAL_LETTER_XI) .math),
  (c!"varepsilon", .letter (SuperChar.fromChar Sym.GREEK_SMALL_LETTER_EPSILON) .math),
  (c!"varkappa", .letter (SuperChar.fromChar Sym.GREEK_KAPPA_SYMBOL) .math),
  (c!"varnothing", .letter (SuperChar.fromChar Sym.EMPTY_SET) .math),
  (c!"varointclockwise", .op Sym.CLOCKWISE_CONTOUR_INTEGRAL),
  (c!"varphi", .letter (SuperChar.fromChar Sym.GREEK_SMALL_LETTER_PHI) .math),
  (c!"varpi", .letter (SuperChar.fromChar Sym.GREEK_PI_SYMBOL) .math),
  (c!"varrho", .letter (SuperChar.fromChar Sym.GREEK_RHO_SYMBOL) .math),
  (c!"varsigma", .letter (SuperChar.fromChar Sym.GREEK_SMALL_LETTER_FINAL_SIGMA) .math),
  (c!"varsubsetneq", .relation Sym.SUBSET_OF_WITH_NOT_EQUAL_TO_WITH_STROKE_THROUGH_BOTTOM_MEMBERS),
  (c!"varsubsetneqq", .relation Sym.SUBSET_OF_ABOVE_NOT_EQUAL_TO_WITH_STROKE_THROUGH_BOTTOM_MEMBERS),
  (c!"varsupsetneq", .relation Sym.SUPERSET_OF_WITH_NOT_EQUAL_TO_WITH_STROKE_THROUGH_BOTTOM_MEMBERS),
  (c!"varsupsetneqq", .relation Sym.SUPERSET_OF_ABOVE_NOT_EQUAL_TO_WITH_STROKE_THROUGH_BOTTOM_MEMBERS),
  (c!"vartheta", .letter (SuperChar.fromChar Sym.GREEK_THETA_SYMBOL) .math),
  (c!"vartriangle", .forceRelation Sym.WHITE_UP_POINTING_TRIANGLE),
  (c!"vartriangleleft", .relation Sym.NORMAL_SUBGROUP_OF),
  (c!"vartriangleright", .relation Sym.CONTAINS_AS_NORMAL_SUBGROUP),
  (c!"vcentcolon", .forceRelation Sym.RATIO.asOp),
  (c!"vdash", .relation Sym.RIGHT_TACK),
  (c!"vdots", .relation Sym.VERTICAL_ELLIPSIS),
  (c!"vec", .accent Sym.COMBINING_RIGHT_ARROW_ABOVE true OpAttrs.stretchyFalse),
  (c!"vee", .binaryOp Sym.LOGICAL_OR),
  (c!"veebar", .binaryOp Sym.XOR),
  (c!"veeeq", .relation Sym.EQUIANGULAR_TO),
  (c!"vert", .ord Sym.VERTICAL_LINE),
  (c!"vertoverlay", .overlay .verticalLine),
  (c!"vphantom", .phantom .v),
  (c!"wedge", .binaryOp Sym.LOGICAL_AND),
  (c!"wedgeq", .relation Sym.ESTIMATES),
  (c!"weierp", .letter (SuperChar.fromChar Sym.SCRIPT_CAPITAL_P) .math),
  (c!"widehat", .accent Sym.COMBINING_CIRCUMFLEX_ACCENT true OpAttrs.stretchyTrue),
  (c!"wp", .letter (SuperChar.fromChar Sym.SCRIPT_CAPITAL_P) .math),
  (c!"wr", .forceBinaryOp Sym.WREATH_PRODUCT.asOp),
  (c!"xLeftarrow", .xarrow Sym.LEFTWARDS_DOUBLE_ARROW),
  (c!"xLeftrightarrow", .xarrow Sym.LEFT_RIGHT_DOUBLE_ARROW),
  (c!"xRightarrow", .xarrow Sym.RIGHTWARDS_DOUBLE_ARROW),
  (c!"xcancel", .enclose (Notation.upDiagonal ||| Notation.downDiagonal)),
  (c!"xhookleftarrow", .xarrow Sym.LEFTWARDS_ARROW_WITH_HOOK),
  (c!"xhookrightarrow", .xarrow Sym.RIGHTWARDS_ARROW_WITH_HOOK),
  (c!"xi", .letter (SuperChar.fromChar Sym.GREEK_SMALL_LETTER_XI) .math)]

/-- Part of `commands`. -/
def commands9 : List (Str × Token) := [
  (c!"xleftarrow", .xarrow Sym.LEFTWARDS_ARROW),
  (c!"xleftharpoondown", .xarrow Sym.LEFTWARDS_HARPOON_WITH_BARB_DOWNWARDS),
  (c!"xleftharpoonup", .xarrow Sym.LEFTWARDS_HARPOON_WITH_BARB_UPWARDS),
  (c!"xleftrightarrow", .xarrow Sym.LEFT_RIGHT_ARROW),
  (c!"xleftrightharpoons", .xarrow Sym.LEFTWARDS_HARPOON_OVER_RIGHTWARDS_HARPOON),
  (c!"xlongequal", .xarrow Sym.EQUALS_SIGN),
  (c!"xmapsto", .xarrow Sym.RIGHTWARDS_ARROW_FROM_BAR),
  (c!"xrightarrow", .xarrow Sym.RIGHTWARDS_ARROW),
  (c!"xrightharpoondown", .xarrow Sym.RIGHTWARDS_HARPOON_WITH_BARB_DOWNWARDS),
  (c!"xrightharpoonup", .xarrow Sym.RIGHTWARDS_HARPOON_WITH_BARB_UPWARDS),
  (c!"xrightleftharpoons", .xarrow Sym.RIGHTWARDS_HARPOON_OVER_LEFTWARDS_HARPOON),
  (c!"xtofrom", .xarrow Sym.RIGHTWARDS_ARROW_OVER_LEFTWARDS_ARROW),
  (c!"xtwoheadleftarrow", .xarrow Sym.LEFTWARDS_TWO_HEADED_ARROW),
  (c!"xtwoheadrightarrow", .xarrow Sym.RIGHTWARDS_TWO_HEADED_ARROW),
  (c!"yen", .letter (SuperChar.fromChar Sym.YEN_SIGN) .mathOrText),
  (c!"zeta", .letter (SuperChar.fromChar Sym.GREEK_SMALL_LETTER_ZETA) .math),
  (c!"{", .mathOrTextMode (.opening Sym.LEFT_CURLY_BRACKET) '{'),
  (c!"|", .ord Sym.DOUBLE_VERTICAL_LINE),
  (c!"}", .mathOrTextMode (.closing Sym.RIGHT_CURLY_BRACKET) '}'),
  (c!"~", .textMode (.accent Sym.COMBINING_TILDE))]

/-- commands.rs:29-950 `COMMANDS` -/
def commands : List (Str × Token) :=
  commands0 ++ commands1 ++ commands2 ++ commands3 ++ commands4 ++ commands5 ++ commands6 ++ commands7 ++ commands8 ++ commands9

/-- Part of `unicodeOperators`. -/
def unicodeOperators0 : List (Char × Token) := [
  ('\u2308', .opening Sym.LEFT_CEILING),
  ('\u230a', .opening Sym.LEFT_FLOOR),
  ('\u231c', .forceOpen Sym.TOP_LEFT_CORNER .pretend),
  ('\u231e', .forceOpen Sym.BOTTOM_LEFT_CORNER .pretend),
  ('\u23b0', .forceOpen Sym.UPPER_LEFT_OR_LOWER_RIGHT_CURLY_BRACKET_SECTION .yes),
  ('\u2772', .opening Sym.LIGHT_LEFT_TORTOISE_SHELL_BRACKET_ORNAMENT),
  ('\u27c5', .forceOpen Sym.LEFT_S_SHAPED_BAG_DELIMITER .yes),
  ('\u27e6', .opening Sym.MATHEMATICAL_LEFT_WHITE_SQUARE_BRACKET),
  ('\u27e8', .opening Sym.MATHEMATICAL_LEFT_ANGLE_BRACKET),
  ('\u27ea', .opening Sym.MATHEMATICAL_LEFT_DOUBLE_ANGLE_BRACKET),
  ('\u27ec', .opening Sym.MATHEMATICAL_LEFT_WHITE_TORTOISE_SHELL_BRACKET),
  ('\u27ee', .opening Sym.MATHEMATICAL_LEFT_FLATTENED_PARENTHESIS),
  ('\u2983', .opening Sym.LEFT_WHITE_CURLY_BRACKET),
  ('\u2985', .opening Sym.LEFT_WHITE_PARENTHESIS),
  ('\u2987', .opening Sym.Z_NOTATION_LEFT_IMAGE_BRACKET),
  ('\u2989', .opening Sym.Z_NOTATION_LEFT_BINDING_BRACKET),
  ('\u298b', .opening Sym.LEFT_SQUARE_BRACKET_WITH_UNDERBAR),
  ('\u298d', .opening Sym.LEFT_SQUARE_BRACKET_WITH_TICK_IN_TOP_CORNER),
  ('\u298f', .opening Sym.LEFT_SQUARE_BRACKET_WITH_TICK_IN_BOTTOM_CORNER),
  ('\u2991', .opening Sym.LEFT_ANGLE_BRACKET_WITH_DOT),
  ('\u2993', .opening Sym.LEFT_ARC_LESS_THAN_BRACKET),
  ('\u2995', .opening Sym.DOUBLE_LEFT_ARC_GREATER_THAN_BRACKET),
  ('\u2997', .opening Sym.LEFT_BLACK_TORTOISE_SHELL_BRACKET),
  ('\u29d8', .opening Sym.LEFT_WIGGLY_FENCE),
  ('\u29da', .opening Sym.LEFT_DOUBLE_WIGGLY_FENCE),
  ('\u29fc', .opening Sym.LEFT_POINTING_CURVED_ANGLE_BRACKET),
  ('\u2309', .closing Sym.RIGHT_CEILING),
  ('\u230b', .closing Sym.RIGHT_FLOOR),
  ('\u231d', .forceClose Sym.TOP_RIGHT_CORNER .pretend),
  ('\u231f', .forceClose Sym.BOTTOM_RIGHT_CORNER .pretend),
  ('\u23b1', .forceClose Sym.UPPER_RIGHT_OR_LOWER_LEFT_CURLY_BRACKET_SECTION .yes),
  ('\u2773', .closing Sym.LIGHT_RIGHT_TORTOISE_SHELL_BRACKET_ORNAMENT),
  ('\u27c6', .forceClose Sym.RIGHT_S_SHAPED_BAG_DELIMITER .yes),
  ('\u27e7', .closing Sym.MATHEMATICAL_RIGHT_WHITE_SQUARE_BRACKET),
  ('\u27e9', .closing Sym.MATHEMATICAL_RIGHT_ANGLE_BRACKET),
  ('\u27eb', .closing Sym.MATHEMATICAL_RIGHT_DOUBLE_ANGLE_BRACKET),
  ('\u27ed', .closing Sym.MATHEMATICAL_RIGHT_WHITE_TORTOISE_SHELL_BRACKET),
  ('\u27ef', .closing Sym.MATHEMATICAL_RIGHT_FLATTENED_PARENTHESIS),
  ('\u2984', .closing Sym.RIGHT_WHITE_CURLY_BRACKET),
  ('\u2986', .closing Sym.RIGHT_WHITE_PARENTHESIS),
  ('\u2988', .closing Sym.Z_NOTATION_RIGHT_IMAGE_BRACKET),
  ('\u298a', .closing Sym.Z_NOTATION_RIGHT_BINDING_BRACKET),
  ('\u298c', .closing Sym.RIGHT_SQUARE_BRACKET_WITH_UNDERBAR),
  ('\u298e', .closing Sym.RIGHT_SQUARE_BRACKET_WITH_TICK_IN_BOTTOM_CORNER),
  ('\u2990', .closing Sym.RIGHT_SQUARE_BRACKET_WITH_TICK_IN_TOP_CORNER),
  ('\u2992', .closing Sym.RIGHT_ANGLE_BRACKET_WITH_DOT),
  ('\u2994', .closing Sym.RIGHT_ARC_GREATER_THAN_BRACKET),
  ('\u2996', .closing Sym.DOUBLE_RIGHT_ARC_LESS_THAN_BRACKET),
  ('\u2998', .closing Sym.RIGHT_BLACK_TORTOISE_SHELL_BRACKET),
  ('\u29d9', .closing Sym.RIGHT_WIGGLY_FENCE),
  ('\u29db', .closing Sym.RIGHT_DOUBLE_WIGGLY_FENCE),
  ('\u29fd', .closing Sym.RIGHT_POINTING_CURVED_ANGLE_BRACKET),
  ('|', .ord Sym.VERTICAL_LINE),
  ('\u2016', .ord Sym.DOUBLE_VERTICAL_LINE),
  ('\u2980', .ord Sym.TRIPLE_VERTICAL_BAR_DELIMITER),
  ('\u2140', .forceLargeOp Sym.DOUBLE_STRUCK_N_ARY_SUMMATION),
  ('\u220f', .op Sym.N_ARY_PRODUCT),
  ('\u2210', .op Sym.N_ARY_COPRODUCT),
  ('\u2211', .op Sym.N_ARY_SUMMATION),
  ('\u222b', .op Sym.INTEGRAL),
  ('\u222c', .op Sym.DOUBLE_INTEGRAL),
  ('\u222d', .op Sym.TRIPLE_INTEGRAL),
  ('\u222e', .op Sym.CONTOUR_INTEGRAL),
  ('\u222f', .op Sym.SURFACE_INTEGRAL),
  ('\u2230', .op Sym.VOLUME_INTEGRAL),
  ('\u2231', .op Sym.CLOCKWISE_INTEGRAL),
  ('\u2232', .op Sym.CLOCKWISE_CONTOUR_INTEGRAL),
  ('\u2233', .op Sym.ANTICLOCKWISE_CONTOUR_INTEGRAL),
  ('\u22c0', .op Sym.N_ARY_LOGICAL_AND),
  ('\u22c1', .op Sym.N_ARY_LOGICAL_OR),
  ('\u22c2', .op Sym.N_ARY_INTERSECTION),
  ('\u22c3', .op Sym.N_ARY_UNION),
  ('\u27d5', .forceLargeOp Sym.LEFT_OUTER_JOIN),
  ('\u27d6', .forceLargeOp Sym.RIGHT_OUTER_JOIN),
  ('\u27d7', .forceLargeOp Sym.FULL_OUTER_JOIN),
  ('\u27d8', .forceLargeOp Sym.LARGE_UP_TACK),
  ('\u27d9', .forceLargeOp Sym.LARGE_DOWN_TACK),
  ('\u29f8', .forceLargeOp Sym.BIG_SOLIDUS.asOp),
  ('\u29f9', .forceLargeOp Sym.BIG_REVERSE_SOLIDUS.asOp),
  ('\u2a00', .op Sym.N_ARY_CIRCLED_DOT_OPERATOR),
  ('\u2a01', .op Sym.N_ARY_CIRCLED_PLUS_OPERATOR),
  ('\u2a02', .op Sym.N_ARY_CIRCLED_TIMES_OPERATOR),
  ('\u2a03', .op Sym.N_ARY_UNION_OPERATOR_WITH_DOT),
  ('\u2a04', .op Sym.N_ARY_UNION_OPERATOR_WITH_PLUS),
  ('\u2a05', .op Sym.N_ARY_SQUARE_INTERSECTION_OPERATOR),
  ('\u2a06', .op Sym.N_ARY_SQUARE_UNION_OPERATOR),
  ('\u2a07', .op Sym.TWO_LOGICAL_AND_OPERATOR),
  ('\u2a08', .op Sym.TWO_LOGICAL_OR_OPERATOR),
  ('\u2a09', .op Sym.N_ARY_TIMES_OPERATOR),
  ('\u2a0a', .op Sym.MODULO_TWO_SUM),
  ('\u2a0b', .op Sym.SUMMATION_WITH_INTEGRAL),
  ('\u2a0c', .op Sym.QUADRUPLE_INTEGRAL_OPERATOR),
  ('\u2a0d', .op Sym.FINITE_PART_INTEGRAL),
  ('\u2a0e', .op Sym.INTEGRAL_WITH_DOUBLE_STROKE),
  ('\u2a0f', .op Sym.INTEGRAL_AVERAGE_WITH_SLASH),
  ('\u2a10', .op Sym.CIRCULATION_FUNCTION),
  ('\u2a11', .op Sym.ANTICLOCKWISE_INTEGRATION),
  ('\u2a12', .op Sym.LINE_INTEGRATION_WITH_RECTANGULAR_PATH_AROUND_POLE),
  ('\u2a13', .op Sym.LINE_INTEGRATION_WITH_SEMICIRCULAR_PATH_AROUND_POLE),
  ('\u2a14', .op Sym.LINE_INTEGRATION_NOT_INCLUDING_THE_POLE)]

/-- Part of `unicodeOperators`. -/
def unicodeOperators1 : List (Char × Token) := [
  ('\u2a15', .op Sym.INTEGRAL_AROUND_A_POINT_OPERATOR),
  ('\u2a16', .op Sym.QUATERNION_INTEGRAL_OPERATOR),
  ('\u2a17', .op Sym.INTEGRAL_WITH_LEFTWARDS_ARROW_WITH_HOOK),
  ('\u2a18', .op Sym.INTEGRAL_WITH_TIMES_SIGN),
  ('\u2a19', .op Sym.INTEGRAL_WITH_INTERSECTION),
  ('\u2a1a', .op Sym.INTEGRAL_WITH_UNION),
  ('\u2a1b', .op Sym.INTEGRAL_WITH_OVERBAR),
  ('\u2a1c', .op Sym.INTEGRAL_WITH_UNDERBAR),
  ('\u2a1d', .forceLargeOp Sym.JOIN),
  ('\u2a1e', .forceLargeOp Sym.LARGE_LEFT_TRIANGLE_OPERATOR),
  ('\u2afc', .op Sym.LARGE_TRIPLE_VERTICAL_BAR_OPERATOR),
  ('\u2aff', .op Sym.N_ARY_WHITE_VERTICAL_BAR),
  ('\u00b1', .binaryOp Sym.PLUS_MINUS_SIGN),
  ('\u00b7', .forcePunctuation Sym.MIDDLE_DOT.asOp),
  ('\u00d7', .forceBinaryOp Sym.MULTIPLICATION_SIGN.asOp),
  ('\u00f7', .binaryOp Sym.DIVISION_SIGN),
  ('\u2020', .forceBinaryOp Sym.DAGGER),
  ('\u2021', .forceBinaryOp Sym.DOUBLE_DAGGER),
  ('\u2022', .forceBinaryOp Sym.BULLET),
  ('\u2040', .forceBinaryOp Sym.CHARACTER_TIE),
  ('\u2044', .binaryOp Sym.FRACTION_SLASH),
  ('\u214b', .forceBinaryOp Sym.TURNED_AMPERSAND),
  ('\u2212', .binaryOp Sym.MINUS_SIGN),
  ('\u2213', .binaryOp Sym.MINUS_OR_PLUS_SIGN),
  ('\u2214', .binaryOp Sym.DOT_PLUS),
  ('\u2215', .binaryOp Sym.DIVISION_SLASH),
  ('\u2216', .binaryOp Sym.SET_MINUS),
  ('\u2217', .forceBinaryOp Sym.ASTERISK_OPERATOR.asOp),
  ('\u2218', .forceBinaryOp Sym.RING_OPERATOR.asOp),
  ('\u2219', .forceBinaryOp Sym.BULLET_OPERATOR.asOp),
  ('\u2227', .binaryOp Sym.LOGICAL_AND),
  ('\u2228', .binaryOp Sym.LOGICAL_OR),
  ('\u2229', .binaryOp Sym.INTERSECTION),
  ('\u222a', .binaryOp Sym.UNION),
  ('\u2238', .binaryOp Sym.DOT_MINUS),
  ('\u223e', .forceBinaryOp Sym.INVERTED_LAZY_S),
  ('\u2240', .forceBinaryOp Sym.WREATH_PRODUCT.asOp),
  ('\u228c', .binaryOp Sym.MULTISET),
  ('\u228d', .binaryOp Sym.MULTISET_MULTIPLICATION),
  ('\u228e', .binaryOp Sym.MULTISET_UNION),
  ('\u2293', .binaryOp Sym.SQUARE_CAP),
  ('\u2294', .binaryOp Sym.SQUARE_CUP),
  ('\u2295', .binaryOp Sym.CIRCLED_PLUS),
  ('\u2296', .binaryOp Sym.CIRCLED_MINUS),
  ('\u2297', .forceBinaryOp Sym.CIRCLED_TIMES.asOp),
  ('\u2298', .binaryOp Sym.CIRCLED_DIVISION_SLASH),
  ('\u2299', .forceBinaryOp Sym.CIRCLED_DOT_OPERATOR.asOp),
  ('\u229a', .forceBinaryOp Sym.CIRCLED_RING_OPERATOR.asOp),
  ('\u229b', .forceBinaryOp Sym.CIRCLED_ASTERISK_OPERATOR.asOp),
  ('\u229c', .forceBinaryOp Sym.CIRCLED_EQUALS.asOp),
  ('\u229d', .binaryOp Sym.CIRCLED_DASH),
  ('\u229e', .binaryOp Sym.SQUARED_PLUS),
  ('\u229f', .binaryOp Sym.SQUARED_MINUS),
  ('\u22a0', .forceBinaryOp Sym.SQUARED_TIMES.asOp),
  ('\u22a1', .forceBinaryOp Sym.SQUARED_DOT_OPERATOR.asOp),
  ('\u22ba', .forceBinaryOp Sym.INTERCALATE.asOp),
  ('\u22bb', .binaryOp Sym.XOR),
  ('\u22bc', .binaryOp Sym.NAND),
  ('\u22bd', .binaryOp Sym.NOR),
  ('\u22c4', .forceBinaryOp Sym.DIAMOND_OPERATOR.asOp),
  ('\u22c5', .forceBinaryOp Sym.DOT_OPERATOR.asOp),
  ('\u22c6', .forceBinaryOp Sym.STAR_OPERATOR.asOp),
  ('\u22c7', .forceBinaryOp Sym.DIVISION_TIMES.asOp),
  ('\u22c9', .forceBinaryOp Sym.LEFT_NORMAL_FACTOR_SEMIDIRECT_PRODUCT.asOp),
  ('\u22ca', .forceBinaryOp Sym.RIGHT_NORMAL_FACTOR_SEMIDIRECT_PRODUCT.asOp),
  ('\u22cb', .forceBinaryOp Sym.LEFT_SEMIDIRECT_PRODUCT.asOp),
  ('\u22cc', .forceBinaryOp Sym.RIGHT_SEMIDIRECT_PRODUCT.asOp),
  ('\u22ce', .binaryOp Sym.CURLY_LOGICAL_OR),
  ('\u22cf', .binaryOp Sym.CURLY_LOGICAL_AND),
  ('\u22d2', .binaryOp Sym.DOUBLE_INTERSECTION),
  ('\u22d3', .binaryOp Sym.DOUBLE_UNION),
  ('\u25b3', .forceBinaryOp Sym.WHITE_UP_POINTING_TRIANGLE),
  ('\u25b7', .forceBinaryOp Sym.WHITE_RIGHT_POINTING_TRIANGLE),
  ('\u25c1', .forceBinaryOp Sym.WHITE_LEFT_POINTING_TRIANGLE),
  ('\u25cb', .forceBinaryOp Sym.WHITE_CIRCLE),
  ('\u25eb', .forceBinaryOp Sym.WHITE_SQUARE_WITH_VERTICAL_BISECTING_LINE),
  ('\u27c7', .forceBinaryOp Sym.OR_WITH_DOT_INSIDE),
  ('\u27d1', .forceBinaryOp Sym.AND_WITH_DOT),
  ('\u29b5', .forceBinaryOp Sym.CIRCLE_WITH_HORIZONTAL_BAR),
  ('\u29b6', .forceBinaryOp Sym.CIRCLED_VERTICAL_BAR.asOp),
  ('\u29b7', .forceBinaryOp Sym.CIRCLED_PARALLEL.asOp),
  ('\u29b8', .forceBinaryOp Sym.CIRCLED_REVERSE_SOLIDUS.asOp),
  ('\u29b9', .forceBinaryOp Sym.CIRCLED_PERPENDICULAR.asOp),
  ('\u29c0', .forceBinaryOp Sym.CIRCLED_LESS_THAN.asOp),
  ('\u29c1', .forceBinaryOp Sym.CIRCLED_GREATER_THAN.asOp),
  ('\u29c4', .binaryOp Sym.SQUARED_RISING_DIAGONAL_SLASH),
  ('\u29c5', .binaryOp Sym.SQUARED_FALLING_DIAGONAL_SLASH),
  ('\u29c6', .forceBinaryOp Sym.SQUARED_ASTERISK.asOp),
  ('\u29c7', .forceBinaryOp Sym.SQUARED_SMALL_CIRCLE.asOp),
  ('\u29c8', .forceBinaryOp Sym.SQUARED_SQUARE.asOp),
  ('\u29e2', .forceBinaryOp Sym.SHUFFLE_PRODUCT.asOp),
  ('\u29f5', .binaryOp Sym.REVERSE_SOLIDUS_OPERATOR),
  ('\u29f6', .binaryOp Sym.SOLIDUS_WITH_OVERBAR),
  ('\u29f7', .binaryOp Sym.REVERSE_SOLIDUS_WITH_HORIZONTAL_STROKE),
  ('\u29fa', .binaryOp Sym.DOUBLE_PLUS),
  ('\u29fb', .binaryOp Sym.TRIPLE_PLUS),
  ('\u2a22', .binaryOp Sym.PLUS_SIGN_WITH_SMALL_CIRCLE_ABOVE),
  ('\u2a23', .binaryOp Sym.PLUS_SIGN_WITH_CIRCUMFLEX_ACCENT_ABOVE),
  ('\u2a24', .binaryOp Sym.PLUS_SIGN_WITH_TILDE_ABOVE),
  ('\u2a25', .binaryOp Sym.PLUS_SIGN_WITH_DOT_BELOW)]

/-- Part of `unicodeOperators`. -/
def unicodeOperators2 : List (Char × Token) := [
  ('\u2a26', .binaryOp Sym.PLUS_SIGN_WITH_TILDE_BELOW),
  ('\u2a27', .binaryOp Sym.PLUS_SIGN_WITH_SUBSCRIPT_TWO),
  ('\u2a28', .binaryOp Sym.PLUS_SIGN_WITH_BLACK_TRIANGLE),
  ('\u2a29', .binaryOp Sym.MINUS_SIGN_WITH_COMMA_ABOVE),
  ('\u2a2a', .binaryOp Sym.MINUS_SIGN_WITH_DOT_BELOW),
  ('\u2a2b', .binaryOp Sym.MINUS_SIGN_WITH_FALLING_DOTS),
  ('\u2a2c', .binaryOp Sym.MINUS_SIGN_WITH_RISING_DOTS),
  ('\u2a2d', .binaryOp Sym.PLUS_SIGN_IN_LEFT_HALF_CIRCLE),
  ('\u2a2e', .binaryOp Sym.PLUS_SIGN_IN_RIGHT_HALF_CIRCLE),
  ('\u2a2f', .forceBinaryOp Sym.VECTOR_OR_CROSS_PRODUCT.asOp),
  ('\u2a30', .forceBinaryOp Sym.MULTIPLICATION_SIGN_WITH_DOT_ABOVE.asOp),
  ('\u2a31', .forceBinaryOp Sym.MULTIPLICATION_SIGN_WITH_UNDERBAR.asOp),
  ('\u2a32', .forceBinaryOp Sym.SEMIDIRECT_PRODUCT_WITH_BOTTOM_CLOSED.asOp),
  ('\u2a33', .forceBinaryOp Sym.SMASH_PRODUCT.asOp),
  ('\u2a34', .forceBinaryOp Sym.MULTIPLICATION_SIGN_IN_LEFT_HALF_CIRCLE.asOp),
  ('\u2a35', .forceBinaryOp Sym.MULTIPLICATION_SIGN_IN_RIGHT_HALF_CIRCLE.asOp),
  ('\u2a36', .forceBinaryOp Sym.CIRCLED_MULTIPLICATION_SIGN_WITH_CIRCUMFLEX_ACCENT.asOp),
  ('\u2a37', .forceBinaryOp Sym.MULTIPLICATION_SIGN_IN_DOUBLE_CIRCLE.asOp),
  ('\u2a38', .binaryOp Sym.CIRCLED_DIVISION_SIGN),
  ('\u2a39', .binaryOp Sym.PLUS_SIGN_IN_TRIANGLE),
  ('\u2a3a', .binaryOp Sym.MINUS_SIGN_IN_TRIANGLE),
  ('\u2a3b', .forceBinaryOp Sym.MULTIPLICATION_SIGN_IN_TRIANGLE.asOp),
  ('\u2a3c', .forceBinaryOp Sym.INTERIOR_PRODUCT.asOp),
  ('\u2a3d', .forceBinaryOp Sym.RIGHTHAND_INTERIOR_PRODUCT.asOp),
  ('\u2a3e', .binaryOp Sym.Z_NOTATION_RELATIONAL_COMPOSITION),
  ('\u2a3f', .forceBinaryOp Sym.AMALGAMATION_OR_COPRODUCT.asOp),
  ('\u2a40', .binaryOp Sym.INTERSECTION_WITH_DOT),
  ('\u2a41', .binaryOp Sym.UNION_WITH_MINUS_SIGN),
  ('\u2a42', .binaryOp Sym.UNION_WITH_OVERBAR),
  ('\u2a43', .binaryOp Sym.INTERSECTION_WITH_OVERBAR),
  ('\u2a44', .binaryOp Sym.INTERSECTION_WITH_LOGICAL_AND),
  ('\u2a45', .binaryOp Sym.UNION_WITH_LOGICAL_OR),
  ('\u2a46', .binaryOp Sym.UNION_ABOVE_INTERSECTION),
  ('\u2a47', .binaryOp Sym.INTERSECTION_ABOVE_UNION),
  ('\u2a48', .binaryOp Sym.UNION_ABOVE_BAR_ABOVE_INTERSECTION),
  ('\u2a49', .binaryOp Sym.INTERSECTION_ABOVE_BAR_ABOVE_UNION),
  ('\u2a4a', .binaryOp Sym.UNION_BESIDE_AND_JOINED_WITH_UNION),
  ('\u2a4b', .binaryOp Sym.INTERSECTION_BESIDE_AND_JOINED_WITH_INTERSECTION),
  ('\u2a4c', .binaryOp Sym.CLOSED_UNION_WITH_SERIFS),
  ('\u2a4d', .binaryOp Sym.CLOSED_INTERSECTION_WITH_SERIFS),
  ('\u2a4e', .binaryOp Sym.DOUBLE_SQUARE_INTERSECTION),
  ('\u2a4f', .binaryOp Sym.DOUBLE_SQUARE_UNION),
  ('\u2a50', .forceBinaryOp Sym.CLOSED_UNION_WITH_SERIFS_AND_SMASH_PRODUCT.asOp),
  ('\u2a51', .binaryOp Sym.LOGICAL_AND_WITH_DOT_ABOVE),
  ('\u2a52', .binaryOp Sym.LOGICAL_OR_WITH_DOT_ABOVE),
  ('\u2a53', .binaryOp Sym.DOUBLE_LOGICAL_AND),
  ('\u2a54', .binaryOp Sym.DOUBLE_LOGICAL_OR),
  ('\u2a55', .binaryOp Sym.TWO_INTERSECTING_LOGICAL_AND),
  ('\u2a56', .binaryOp Sym.TWO_INTERSECTING_LOGICAL_OR),
  ('\u2a57', .binaryOp Sym.SLOPING_LARGE_OR),
  ('\u2a58', .binaryOp Sym.SLOPING_LARGE_AND),
  ('\u2a59', .binaryOp Sym.LOGICAL_OR_OVERLAPPING_LOGICAL_AND),
  ('\u2a5a', .binaryOp Sym.LOGICAL_AND_WITH_MIDDLE_STEM),
  ('\u2a5b', .binaryOp Sym.LOGICAL_OR_WITH_MIDDLE_STEM),
  ('\u2a5c', .binaryOp Sym.LOGICAL_AND_WITH_HORIZONTAL_DASH),
  ('\u2a5d', .binaryOp Sym.LOGICAL_OR_WITH_HORIZONTAL_DASH),
  ('\u2a5e', .binaryOp Sym.LOGICAL_AND_WITH_DOUBLE_OVERBAR),
  ('\u2a5f', .binaryOp Sym.LOGICAL_AND_WITH_UNDERBAR),
  ('\u2a60', .binaryOp Sym.LOGICAL_AND_WITH_DOUBLE_UNDERBAR),
  ('\u2a62', .binaryOp Sym.LOGICAL_OR_WITH_DOUBLE_OVERBAR),
  ('\u2a63', .binaryOp Sym.LOGICAL_OR_WITH_DOUBLE_UNDERBAR),
  ('\u2a64', .forceBinaryOp Sym.Z_NOTATION_DOMAIN_ANTIRESTRICTION.asOp),
  ('\u2a65', .forceBinaryOp Sym.Z_NOTATION_RANGE_ANTIRESTRICTION.asOp),
  ('\u2af6', .binaryOp Sym.TRIPLE_COLON_OPERATOR),
  ('\u2afd', .binaryOp Sym.DOUBLE_SOLIDUS_OPERATOR),
  ('\u2afe', .forceBinaryOp Sym.WHITE_VERTICAL_BAR.asOp),
  ('\u00ac', .ord Sym.NOT_SIGN),
  ('\u2032', .prime .single),
  ('\u2033', .prime .double),
  ('\u2034', .prime .triple),
  ('\u2035', .prime .reversed),
  ('\u2036', .prime .reversedDouble),
  ('\u2037', .prime .reversedTriple),
  ('\u2057', .prime .quadruple),
  ('\u2200', .ord Sym.FOR_ALL),
  ('\u2201', .ord Sym.COMPLEMENT),
  ('\u2203', .ord Sym.THERE_EXISTS),
  ('\u2204', .ord Sym.THERE_DOES_NOT_EXIST),
  ('\u2190', .relation Sym.LEFTWARDS_ARROW),
  ('\u2191', .relation Sym.UPWARDS_ARROW),
  ('\u2192', .relation Sym.RIGHTWARDS_ARROW),
  ('\u2193', .relation Sym.DOWNWARDS_ARROW),
  ('\u2194', .relation Sym.LEFT_RIGHT_ARROW),
  ('\u2195', .relation Sym.UP_DOWN_ARROW),
  ('\u2196', .relation Sym.NORTH_WEST_ARROW),
  ('\u2197', .relation Sym.NORTH_EAST_ARROW),
  ('\u2198', .relation Sym.SOUTH_EAST_ARROW),
  ('\u2199', .relation Sym.SOUTH_WEST_ARROW),
  ('\u219a', .relation Sym.LEFTWARDS_ARROW_WITH_STROKE),
  ('\u219b', .relation Sym.RIGHTWARDS_ARROW_WITH_STROKE),
  ('\u219c', .relation Sym.LEFTWARDS_WAVE_ARROW),
  ('\u219d', .relation Sym.RIGHTWARDS_WAVE_ARROW),
  ('\u219e', .relation Sym.LEFTWARDS_TWO_HEADED_ARROW),
  ('\u219f', .relation Sym.UPWARDS_TWO_HEADED_ARROW),
  ('\u21a0', .relation Sym.RIGHTWARDS_TWO_HEADED_ARROW),
  ('\u21a1', .relation Sym.DOWNWARDS_TWO_HEADED_ARROW),
  ('\u21a2', .relation Sym.LEFTWARDS_ARROW_WITH_TAIL),
  ('\u21a3', .relation Sym.RIGHTWARDS_ARROW_WITH_TAIL),
  ('\u21a4', .relation Sym.LEFTWARDS_ARROW_FROM_BAR),
  ('\u21a5', .relation Sym.UPWARDS_ARROW_FROM_BAR)]

/-- Part of `unicodeOperators`. -/
def unicodeOperators3 : List (Char × Token) := [
  ('\u21a6', .relation Sym.RIGHTWARDS_ARROW_FROM_BAR),
  ('\u21a7', .relation Sym.DOWNWARDS_ARROW_FROM_BAR),
  ('\u21a9', .relation Sym.LEFTWARDS_ARROW_WITH_HOOK),
  ('\u21aa', .relation Sym.RIGHTWARDS_ARROW_WITH_HOOK),
  ('\u21ab', .relation Sym.LEFTWARDS_ARROW_WITH_LOOP),
  ('\u21ac', .relation Sym.RIGHTWARDS_ARROW_WITH_LOOP),
  ('\u21ad', .relation Sym.LEFT_RIGHT_WAVE_ARROW),
  ('\u21ae', .relation Sym.LEFT_RIGHT_ARROW_WITH_STROKE),
  ('\u21af', .relation Sym.DOWNWARDS_ZIGZAG_ARROW),
  ('\u21b0', .relation Sym.UPWARDS_ARROW_WITH_TIP_LEFTWARDS),
  ('\u21b1', .relation Sym.UPWARDS_ARROW_WITH_TIP_RIGHTWARDS),
  ('\u21b2', .relation Sym.DOWNWARDS_ARROW_WITH_TIP_LEFTWARDS),
  ('\u21b3', .relation Sym.DOWNWARDS_ARROW_WITH_TIP_RIGHTWARDS),
  ('\u21b6', .relation Sym.ANTICLOCKWISE_TOP_SEMICIRCLE_ARROW),
  ('\u21b7', .relation Sym.CLOCKWISE_TOP_SEMICIRCLE_ARROW),
  ('\u21bc', .relation Sym.LEFTWARDS_HARPOON_WITH_BARB_UPWARDS),
  ('\u21bd', .relation Sym.LEFTWARDS_HARPOON_WITH_BARB_DOWNWARDS),
  ('\u21be', .relation Sym.UPWARDS_HARPOON_WITH_BARB_RIGHTWARDS),
  ('\u21bf', .relation Sym.UPWARDS_HARPOON_WITH_BARB_LEFTWARDS),
  ('\u21c0', .relation Sym.RIGHTWARDS_HARPOON_WITH_BARB_UPWARDS),
  ('\u21c1', .relation Sym.RIGHTWARDS_HARPOON_WITH_BARB_DOWNWARDS),
  ('\u21c2', .relation Sym.DOWNWARDS_HARPOON_WITH_BARB_RIGHTWARDS),
  ('\u21c3', .relation Sym.DOWNWARDS_HARPOON_WITH_BARB_LEFTWARDS),
  ('\u21c4', .relation Sym.RIGHTWARDS_ARROW_OVER_LEFTWARDS_ARROW),
  ('\u21c5', .relation Sym.UPWARDS_ARROW_LEFTWARDS_OF_DOWNWARDS_ARROW),
  ('\u21c6', .relation Sym.LEFTWARDS_ARROW_OVER_RIGHTWARDS_ARROW),
  ('\u21c7', .relation Sym.LEFTWARDS_PAIRED_ARROWS),
  ('\u21c8', .relation Sym.UPWARDS_PAIRED_ARROWS),
  ('\u21c9', .relation Sym.RIGHTWARDS_PAIRED_ARROWS),
  ('\u21ca', .relation Sym.DOWNWARDS_PAIRED_ARROWS),
  ('\u21cb', .relation Sym.LEFTWARDS_HARPOON_OVER_RIGHTWARDS_HARPOON),
  ('\u21cc', .relation Sym.RIGHTWARDS_HARPOON_OVER_LEFTWARDS_HARPOON),
  ('\u21cd', .relation Sym.LEFTWARDS_DOUBLE_ARROW_WITH_STROKE),
  ('\u21ce', .relation Sym.LEFT_RIGHT_DOUBLE_ARROW_WITH_STROKE),
  ('\u21cf', .relation Sym.RIGHTWARDS_DOUBLE_ARROW_WITH_STROKE),
  ('\u21d0', .relation Sym.LEFTWARDS_DOUBLE_ARROW),
  ('\u21d1', .relation Sym.UPWARDS_DOUBLE_ARROW),
  ('\u21d2', .relation Sym.RIGHTWARDS_DOUBLE_ARROW),
  ('\u21d3', .relation Sym.DOWNWARDS_DOUBLE_ARROW),
  ('\u21d4', .relation Sym.LEFT_RIGHT_DOUBLE_ARROW),
  ('\u21d5', .relation Sym.UP_DOWN_DOUBLE_ARROW),
  ('\u21d6', .relation Sym.NORTH_WEST_DOUBLE_ARROW),
  ('\u21d7', .relation Sym.NORTH_EAST_DOUBLE_ARROW),
  ('\u21d8', .relation Sym.SOUTH_EAST_DOUBLE_ARROW),
  ('\u21d9', .relation Sym.SOUTH_WEST_DOUBLE_ARROW),
  ('\u21da', .relation Sym.LEFTWARDS_TRIPLE_ARROW),
  ('\u21db', .relation Sym.RIGHTWARDS_TRIPLE_ARROW),
  ('\u21dc', .relation Sym.LEFTWARDS_SQUIGGLE_ARROW),
  ('\u21dd', .relation Sym.RIGHTWARDS_SQUIGGLE_ARROW),
  ('\u21e4', .relation Sym.LEFTWARDS_ARROW_TO_BAR),
  ('\u21e5', .relation Sym.RIGHTWARDS_ARROW_TO_BAR),
  ('\u21f4', .relation Sym.RIGHT_ARROW_WITH_SMALL_CIRCLE),
  ('\u21f5', .relation Sym.DOWNWARDS_ARROW_LEFTWARDS_OF_UPWARDS_ARROW),
  ('\u21f6', .relation Sym.THREE_RIGHTWARDS_ARROWS),
  ('\u21f7', .relation Sym.LEFTWARDS_ARROW_WITH_VERTICAL_STROKE),
  ('\u21f8', .relation Sym.RIGHTWARDS_ARROW_WITH_VERTICAL_STROKE),
  ('\u21f9', .relation Sym.LEFT_RIGHT_ARROW_WITH_VERTICAL_STROKE),
  ('\u21fa', .relation Sym.LEFTWARDS_ARROW_WITH_DOUBLE_VERTICAL_STROKE),
  ('\u21fb', .relation Sym.RIGHTWARDS_ARROW_WITH_DOUBLE_VERTICAL_STROKE),
  ('\u21fc', .relation Sym.LEFT_RIGHT_ARROW_WITH_DOUBLE_VERTICAL_STROKE),
  ('\u21fd', .relation Sym.LEFTWARDS_OPEN_HEADED_ARROW),
  ('\u21fe', .relation Sym.RIGHTWARDS_OPEN_HEADED_ARROW),
  ('\u21ff', .relation Sym.LEFT_RIGHT_OPEN_HEADED_ARROW),
  ('\u2208', .relation Sym.ELEMENT_OF),
  ('\u2209', .relation Sym.NOT_AN_ELEMENT_OF),
  ('\u220a', .relation Sym.SMALL_ELEMENT_OF),
  ('\u220b', .relation Sym.CONTAINS_AS_MEMBER),
  ('\u220c', .relation Sym.DOES_NOT_CONTAIN_AS_MEMBER),
  ('\u220d', .relation Sym.SMALL_CONTAINS_AS_MEMBER),
  ('\u221d', .relation Sym.PROPORTIONAL_TO),
  ('\u2223', .relation Sym.DIVIDES),
  ('\u2224', .relation Sym.DOES_NOT_DIVIDE),
  ('\u2225', .relation Sym.PARALLEL_TO),
  ('\u2226', .relation Sym.NOT_PARALLEL_TO),
  ('\u2236', .forceRelation Sym.RATIO.asOp),
  ('\u2237', .relation Sym.PROPORTION),
  ('\u2239', .relation Sym.EXCESS),
  ('\u223a', .relation Sym.GEOMETRIC_PROPORTION),
  ('\u223b', .relation Sym.HOMOTHETIC),
  ('\u223c', .relation Sym.TILDE_OPERATOR),
  ('\u223d', .relation Sym.REVERSED_TILDE),
  ('\u2241', .relation Sym.NOT_TILDE),
  ('\u2242', .relation Sym.MINUS_TILDE),
  ('\u2243', .relation Sym.ASYMPTOTICALLY_EQUAL_TO),
  ('\u2244', .relation Sym.NOT_ASYMPTOTICALLY_EQUAL_TO),
  ('\u2245', .relation Sym.APPROXIMATELY_EQUAL_TO),
  ('\u2246', .relation Sym.APPROXIMATELY_BUT_NOT_ACTUALLY_EQUAL_TO),
  ('\u2247', .relation Sym.NEITHER_APPROXIMATELY_NOR_ACTUALLY_EQUAL_TO),
  ('\u2248', .relation Sym.ALMOST_EQUAL_TO),
  ('\u2249', .relation Sym.NOT_ALMOST_EQUAL_TO),
  ('\u224a', .relation Sym.ALMOST_EQUAL_OR_EQUAL_TO),
  ('\u224b', .relation Sym.TRIPLE_TILDE),
  ('\u224c', .relation Sym.ALL_EQUAL_TO),
  ('\u224d', .relation Sym.EQUIVALENT_TO),
  ('\u224e', .relation Sym.GEOMETRICALLY_EQUIVALENT_TO),
  ('\u224f', .relation Sym.DIFFERENCE_BETWEEN),
  ('\u2250', .relation Sym.APPROACHES_THE_LIMIT),
  ('\u2251', .relation Sym.GEOMETRICALLY_EQUAL_TO),
  ('\u2252', .relation Sym.APPROXIMATELY_EQUAL_TO_OR_THE_IMAGE_OF),
  ('\u2253', .relation Sym.IMAGE_OF_OR_APPROXIMATELY_EQUAL_TO)]

/-- Part of `unicodeOperators`. -/
def unicodeOperators4 : List (Char × Token) := [
  ('\u2254', .relation Sym.COLON_EQUALS),
  ('\u2255', .relation Sym.EQUALS_COLON),
  ('\u2256', .relation Sym.RING_IN_EQUAL_TO),
  ('\u2257', .relation Sym.RING_EQUAL_TO),
  ('\u2258', .relation Sym.CORRESPONDS_TO),
  ('\u2259', .relation Sym.ESTIMATES),
  ('\u225a', .relation Sym.EQUIANGULAR_TO),
  ('\u225b', .relation Sym.STAR_EQUALS),
  ('\u225c', .relation Sym.DELTA_EQUAL_TO),
  ('\u225d', .relation Sym.EQUAL_TO_BY_DEFINITION),
  ('\u225e', .relation Sym.MEASURED_BY),
  ('\u225f', .relation Sym.QUESTIONED_EQUAL_TO),
  ('\u2260', .relation Sym.NOT_EQUAL_TO),
  ('\u2261', .relation Sym.IDENTICAL_TO),
  ('\u2262', .relation Sym.NOT_IDENTICAL_TO),
  ('\u2263', .relation Sym.STRICTLY_EQUIVALENT_TO),
  ('\u2264', .relation Sym.LESS_THAN_OR_EQUAL_TO),
  ('\u2265', .relation Sym.GREATER_THAN_OR_EQUAL_TO),
  ('\u2266', .relation Sym.LESS_THAN_OVER_EQUAL_TO),
  ('\u2267', .relation Sym.GREATER_THAN_OVER_EQUAL_TO),
  ('\u2268', .relation Sym.LESS_THAN_BUT_NOT_EQUAL_TO),
  ('\u2269', .relation Sym.GREATER_THAN_BUT_NOT_EQUAL_TO),
  ('\u226a', .relation Sym.MUCH_LESS_THAN),
  ('\u226b', .relation Sym.MUCH_GREATER_THAN),
  ('\u226c', .relation Sym.BETWEEN),
  ('\u226d', .relation Sym.NOT_EQUIVALENT_TO),
  ('\u226e', .relation Sym.NOT_LESS_THAN),
  ('\u226f', .relation Sym.NOT_GREATER_THAN),
  ('\u2270', .relation Sym.NEITHER_LESS_THAN_NOR_EQUAL_TO),
  ('\u2271', .relation Sym.NEITHER_GREATER_THAN_NOR_EQUAL_TO),
  ('\u2272', .relation Sym.LESS_THAN_OR_EQUIVALENT_TO),
  ('\u2273', .relation Sym.GREATER_THAN_OR_EQUIVALENT_TO),
  ('\u2274', .relation Sym.NEITHER_LESS_THAN_NOR_EQUIVALENT_TO),
  ('\u2275', .relation Sym.NEITHER_GREATER_THAN_NOR_EQUIVALENT_TO),
  ('\u2276', .relation Sym.LESS_THAN_OR_GREATER_THAN),
  ('\u2277', .relation Sym.GREATER_THAN_OR_LESS_THAN),
  ('\u2278', .relation Sym.NEITHER_LESS_THAN_NOR_GREATER_THAN),
  ('\u2279', .relation Sym.NEITHER_GREATER_THAN_NOR_LESS_THAN),
  ('\u227a', .relation Sym.PRECEDES),
  ('\u227b', .relation Sym.SUCCEEDS),
  ('\u227c', .relation Sym.PRECEDES_OR_EQUAL_TO),
  ('\u227d', .relation Sym.SUCCEEDS_OR_EQUAL_TO),
  ('\u227e', .relation Sym.PRECEDES_OR_EQUIVALENT_TO),
  ('\u227f', .relation Sym.SUCCEEDS_OR_EQUIVALENT_TO),
  ('\u2280', .relation Sym.DOES_NOT_PRECEDE),
  ('\u2281', .relation Sym.DOES_NOT_SUCCEED),
  ('\u2282', .relation Sym.SUBSET_OF),
  ('\u2283', .relation Sym.SUPERSET_OF),
  ('\u2284', .relation Sym.NOT_A_SUBSET_OF),
  ('\u2285', .relation Sym.NOT_A_SUPERSET_OF),
  ('\u2286', .relation Sym.SUBSET_OF_OR_EQUAL_TO),
  ('\u2287', .relation Sym.SUPERSET_OF_OR_EQUAL_TO),
  ('\u2288', .relation Sym.NEITHER_A_SUBSET_OF_NOR_EQUAL_TO),
  ('\u2289', .relation Sym.NEITHER_A_SUPERSET_OF_NOR_EQUAL_TO),
  ('\u228a', .relation Sym.SUBSET_OF_WITH_NOT_EQUAL_TO),
  ('\u228b', .relation Sym.SUPERSET_OF_WITH_NOT_EQUAL_TO),
  ('\u228f', .relation Sym.SQUARE_IMAGE_OF),
  ('\u2290', .relation Sym.SQUARE_ORIGINAL_OF),
  ('\u2291', .relation Sym.SQUARE_IMAGE_OF_OR_EQUAL_TO),
  ('\u2292', .relation Sym.SQUARE_ORIGINAL_OF_OR_EQUAL_TO),
  ('\u22a2', .relation Sym.RIGHT_TACK),
  ('\u22a3', .relation Sym.LEFT_TACK),
  ('\u22a6', .relation Sym.ASSERTION),
  ('\u22a7', .relation Sym.MODELS),
  ('\u22a8', .relation Sym.TRUE),
  ('\u22a9', .relation Sym.FORCES),
  ('\u22aa', .relation Sym.TRIPLE_VERTICAL_BAR_RIGHT_TURNSTILE),
  ('\u22ab', .relation Sym.DOUBLE_VERTICAL_BAR_DOUBLE_RIGHT_TURNSTILE),
  ('\u22ac', .relation Sym.DOES_NOT_PROVE),
  ('\u22ad', .relation Sym.NOT_TRUE),
  ('\u22ae', .relation Sym.DOES_NOT_FORCE),
  ('\u22af', .relation Sym.NEGATED_DOUBLE_VERTICAL_BAR_DOUBLE_RIGHT_TURNSTILE),
  ('\u22b0', .relation Sym.PRECEDES_UNDER_RELATION),
  ('\u22b1', .relation Sym.SUCCEEDS_UNDER_RELATION),
  ('\u22b2', .relation Sym.NORMAL_SUBGROUP_OF),
  ('\u22b3', .relation Sym.CONTAINS_AS_NORMAL_SUBGROUP),
  ('\u22b4', .relation Sym.NORMAL_SUBGROUP_OF_OR_EQUAL_TO),
  ('\u22b5', .relation Sym.CONTAINS_AS_NORMAL_SUBGROUP_OR_EQUAL_TO),
  ('\u22b6', .relation Sym.ORIGINAL_OF),
  ('\u22b7', .relation Sym.IMAGE_OF),
  ('\u22b8', .relation Sym.MULTIMAP),
  ('\u22c8', .relation Sym.BOWTIE),
  ('\u22cd', .relation Sym.REVERSED_TILDE_EQUALS),
  ('\u22d0', .relation Sym.DOUBLE_SUBSET),
  ('\u22d1', .relation Sym.DOUBLE_SUPERSET),
  ('\u22d4', .relation Sym.PITCHFORK),
  ('\u22d5', .relation Sym.EQUAL_AND_PARALLEL_TO),
  ('\u22d6', .relation Sym.LESS_THAN_WITH_DOT),
  ('\u22d7', .relation Sym.GREATER_THAN_WITH_DOT),
  ('\u22d8', .relation Sym.VERY_MUCH_LESS_THAN),
  ('\u22d9', .relation Sym.VERY_MUCH_GREATER_THAN),
  ('\u22da', .relation Sym.LESS_THAN_EQUAL_TO_OR_GREATER_THAN),
  ('\u22db', .relation Sym.GREATER_THAN_EQUAL_TO_OR_LESS_THAN),
  ('\u22dc', .relation Sym.EQUAL_TO_OR_LESS_THAN),
  ('\u22dd', .relation Sym.EQUAL_TO_OR_GREATER_THAN),
  ('\u22de', .relation Sym.EQUAL_TO_OR_PRECEDES),
  ('\u22df', .relation Sym.EQUAL_TO_OR_SUCCEEDS),
  ('\u22e0', .relation Sym.DOES_NOT_PRECEDE_OR_EQUAL),
  ('\u22e1', .relation Sym.DOES_NOT_SUCCEED_OR_EQUAL),
  ('\u22e2', .relation Sym.NOT_SQUARE_IMAGE_OF_OR_EQUAL_TO)]

/-- Part of `unicodeOperators`. -/
def unicodeOperators5 : List (Char × Token) := [
  ('\u22e3', .relation Sym.NOT_SQUARE_ORIGINAL_OF_OR_EQUAL_TO),
  ('\u22e4', .relation Sym.SQUARE_IMAGE_OF_OR_NOT_EQUAL_TO),
  ('\u22e5', .relation Sym.SQUARE_ORIGINAL_OF_OR_NOT_EQUAL_TO),
  ('\u22e6', .relation Sym.LESS_THAN_BUT_NOT_EQUIVALENT_TO),
  ('\u22e7', .relation Sym.GREATER_THAN_BUT_NOT_EQUIVALENT_TO),
  ('\u22e8', .relation Sym.PRECEDES_BUT_NOT_EQUIVALENT_TO),
  ('\u22e9', .relation Sym.SUCCEEDS_BUT_NOT_EQUIVALENT_TO),
  ('\u22ea', .relation Sym.NOT_NORMAL_SUBGROUP_OF),
  ('\u22eb', .relation Sym.DOES_NOT_CONTAIN_AS_NORMAL_SUBGROUP),
  ('\u22ec', .relation Sym.NOT_NORMAL_SUBGROUP_OF_OR_EQUAL_TO),
  ('\u22ed', .relation Sym.DOES_NOT_CONTAIN_AS_NORMAL_SUBGROUP_OR_EQUAL),
  ('\u22ee', .relation Sym.VERTICAL_ELLIPSIS),
  ('\u22f0', .relation Sym.UP_RIGHT_DIAGONAL_ELLIPSIS),
  ('\u22f1', .relation Sym.DOWN_RIGHT_DIAGONAL_ELLIPSIS),
  ('\u22f2', .relation Sym.ELEMENT_OF_WITH_LONG_HORIZONTAL_STROKE),
  ('\u22f3', .relation Sym.ELEMENT_OF_WITH_VERTICAL_BAR_AT_END_OF_HORIZONTAL_STROKE),
  ('\u22f4', .relation Sym.SMALL_ELEMENT_OF_WITH_VERTICAL_BAR_AT_END_OF_HORIZONTAL_STROKE),
  ('\u22f5', .relation Sym.ELEMENT_OF_WITH_DOT_ABOVE),
  ('\u22f6', .relation Sym.ELEMENT_OF_WITH_OVERBAR),
  ('\u22f7', .relation Sym.SMALL_ELEMENT_OF_WITH_OVERBAR),
  ('\u22f8', .relation Sym.ELEMENT_OF_WITH_UNDERBAR),
  ('\u22f9', .relation Sym.ELEMENT_OF_WITH_TWO_HORIZONTAL_STROKES),
  ('\u22fa', .relation Sym.CONTAINS_WITH_LONG_HORIZONTAL_STROKE),
  ('\u22fb', .relation Sym.CONTAINS_WITH_VERTICAL_BAR_AT_END_OF_HORIZONTAL_STROKE),
  ('\u22fc', .relation Sym.SMALL_CONTAINS_WITH_VERTICAL_BAR_AT_END_OF_HORIZONTAL_STROKE),
  ('\u22fd', .relation Sym.CONTAINS_WITH_OVERBAR),
  ('\u22fe', .relation Sym.SMALL_CONTAINS_WITH_OVERBAR),
  ('\u22ff', .relation Sym.Z_NOTATION_BAG_MEMBERSHIP),
  ('\u2322', .forceRelation Sym.FROWN.asOp),
  ('\u2323', .forceRelation Sym.SMILE.asOp),
  ('\u27c2', .relation Sym.PERPENDICULAR),
  ('\u27c8', .relation Sym.REVERSE_SOLIDUS_PRECEDING_SUPERSET),
  ('\u27c9', .relation Sym.SUPERSET_PRECEDING_SOLIDUS),
  ('\u27d2', .relation Sym.ELEMENT_OF_OPENING_UPWARDS),
  ('\u27da', .relation Sym.LEFT_AND_RIGHT_DOUBLE_TURNSTILE),
  ('\u27db', .relation Sym.LEFT_AND_RIGHT_TACK),
  ('\u27dc', .relation Sym.LEFT_MULTIMAP),
  ('\u27dd', .relation Sym.LONG_RIGHT_TACK),
  ('\u27de', .relation Sym.LONG_LEFT_TACK),
  ('\u27df', .relation Sym.UP_TACK_WITH_CIRCLE_ABOVE),
  ('\u27f0', .relation Sym.UPWARDS_QUADRUPLE_ARROW),
  ('\u27f1', .relation Sym.DOWNWARDS_QUADRUPLE_ARROW),
  ('\u27f2', .relation Sym.ANTICLOCKWISE_GAPPED_CIRCLE_ARROW),
  ('\u27f3', .relation Sym.CLOCKWISE_GAPPED_CIRCLE_ARROW),
  ('\u27f4', .relation Sym.RIGHT_ARROW_WITH_CIRCLED_PLUS),
  ('\u27f5', .relation Sym.LONG_LEFTWARDS_ARROW),
  ('\u27f6', .relation Sym.LONG_RIGHTWARDS_ARROW),
  ('\u27f7', .relation Sym.LONG_LEFT_RIGHT_ARROW),
  ('\u27f8', .relation Sym.LONG_LEFTWARDS_DOUBLE_ARROW),
  ('\u27f9', .relation Sym.LONG_RIGHTWARDS_DOUBLE_ARROW),
  ('\u27fa', .relation Sym.LONG_LEFT_RIGHT_DOUBLE_ARROW),
  ('\u27fb', .relation Sym.LONG_LEFTWARDS_ARROW_FROM_BAR),
  ('\u27fc', .relation Sym.LONG_RIGHTWARDS_ARROW_FROM_BAR),
  ('\u27fd', .relation Sym.LONG_LEFTWARDS_DOUBLE_ARROW_FROM_BAR),
  ('\u27fe', .relation Sym.LONG_RIGHTWARDS_DOUBLE_ARROW_FROM_BAR),
  ('\u27ff', .relation Sym.LONG_RIGHTWARDS_SQUIGGLE_ARROW),
  ('\u2900', .relation Sym.RIGHTWARDS_TWO_HEADED_ARROW_WITH_VERTICAL_STROKE),
  ('\u2901', .relation Sym.RIGHTWARDS_TWO_HEADED_ARROW_WITH_DOUBLE_VERTICAL_STROKE),
  ('\u2902', .relation Sym.LEFTWARDS_DOUBLE_ARROW_WITH_VERTICAL_STROKE),
  ('\u2903', .relation Sym.RIGHTWARDS_DOUBLE_ARROW_WITH_VERTICAL_STROKE),
  ('\u2904', .relation Sym.LEFT_RIGHT_DOUBLE_ARROW_WITH_VERTICAL_STROKE),
  ('\u2905', .relation Sym.RIGHTWARDS_TWO_HEADED_ARROW_FROM_BAR),
  ('\u2906', .relation Sym.LEFTWARDS_DOUBLE_ARROW_FROM_BAR),
  ('\u2907', .relation Sym.RIGHTWARDS_DOUBLE_ARROW_FROM_BAR),
  ('\u2908', .relation Sym.DOWNWARDS_ARROW_WITH_HORIZONTAL_STROKE),
  ('\u2909', .relation Sym.UPWARDS_ARROW_WITH_HORIZONTAL_STROKE),
  ('\u290a', .relation Sym.UPWARDS_TRIPLE_ARROW),
  ('\u290b', .relation Sym.DOWNWARDS_TRIPLE_ARROW),
  ('\u290c', .relation Sym.LEFTWARDS_DOUBLE_DASH_ARROW),
  ('\u290d', .relation Sym.RIGHTWARDS_DOUBLE_DASH_ARROW),
  ('\u290e', .relation Sym.LEFTWARDS_TRIPLE_DASH_ARROW),
  ('\u290f', .relation Sym.RIGHTWARDS_TRIPLE_DASH_ARROW),
  ('\u2910', .relation Sym.RIGHTWARDS_TWO_HEADED_TRIPLE_DASH_ARROW),
  ('\u2911', .relation Sym.RIGHTWARDS_ARROW_WITH_DOTTED_STEM),
  ('\u2912', .relation Sym.UPWARDS_ARROW_TO_BAR),
  ('\u2913', .relation Sym.DOWNWARDS_ARROW_TO_BAR),
  ('\u2914', .relation Sym.RIGHTWARDS_ARROW_WITH_TAIL_WITH_VERTICAL_STROKE),
  ('\u2915', .relation Sym.RIGHTWARDS_ARROW_WITH_TAIL_WITH_DOUBLE_VERTICAL_STROKE),
  ('\u2916', .relation Sym.RIGHTWARDS_TWO_HEADED_ARROW_WITH_TAIL),
  ('\u2917', .relation Sym.RIGHTWARDS_TWO_HEADED_ARROW_WITH_TAIL_WITH_VERTICAL_STROKE),
  ('\u2918', .relation Sym.RIGHTWARDS_TWO_HEADED_ARROW_WITH_TAIL_WITH_DOUBLE_VERTICAL_STROKE),
  ('\u291b', .relation Sym.LEFTWARDS_DOUBLE_ARROW_TAIL),
  ('\u291c', .relation Sym.RIGHTWARDS_DOUBLE_ARROW_TAIL),
  ('\u291d', .relation Sym.LEFTWARDS_ARROW_TO_BLACK_DIAMOND),
  ('\u291e', .relation Sym.RIGHTWARDS_ARROW_TO_BLACK_DIAMOND),
  ('\u291f', .relation Sym.LEFTWARDS_ARROW_FROM_BAR_TO_BLACK_DIAMOND),
  ('\u2920', .relation Sym.RIGHTWARDS_ARROW_FROM_BAR_TO_BLACK_DIAMOND),
  ('\u2921', .relation Sym.NORTH_WEST_AND_SOUTH_EAST_ARROW),
  ('\u2922', .relation Sym.NORTH_EAST_AND_SOUTH_WEST_ARROW),
  ('\u2923', .relation Sym.NORTH_WEST_ARROW_WITH_HOOK),
  ('\u2924', .relation Sym.NORTH_EAST_ARROW_WITH_HOOK),
  ('\u2925', .relation Sym.SOUTH_EAST_ARROW_WITH_HOOK),
  ('\u2926', .relation Sym.SOUTH_WEST_ARROW_WITH_HOOK),
  ('\u2927', .relation Sym.NORTH_WEST_ARROW_AND_NORTH_EAST_ARROW),
  ('\u2928', .relation Sym.NORTH_EAST_ARROW_AND_SOUTH_EAST_ARROW),
  ('\u2929', .relation Sym.SOUTH_EAST_ARROW_AND_SOUTH_WEST_ARROW),
  ('\u292a', .relation Sym.SOUTH_WEST_ARROW_AND_NORTH_WEST_ARROW),
  ('\u292b', .relation Sym.RISING_DIAGONAL_CROSSING_FALLING_DIAGONAL),
  ('\u292c', .relation Sym.FALLING_DIAGONAL_CROSSING_RISING_DIAGONAL),
  ('\u292d', .relation Sym.SOUTH_EAST_ARROW_CROSSING_NORTH_EAST_ARROW)]

/-- Part of `unicodeOperators`. -/
def unicodeOperators6 : List (Char × Token) := [
  ('\u292e', .relation Sym.NORTH_EAST_ARROW_CROSSING_SOUTH_EAST_ARROW),
  ('\u292f', .relation Sym.FALLING_DIAGONAL_CROSSING_NORTH_EAST_ARROW),
  ('\u2930', .relation Sym.RISING_DIAGONAL_CROSSING_SOUTH_EAST_ARROW),
  ('\u2931', .relation Sym.NORTH_EAST_ARROW_CROSSING_NORTH_WEST_ARROW),
  ('\u2932', .relation Sym.NORTH_WEST_ARROW_CROSSING_NORTH_EAST_ARROW),
  ('\u2933', .relation Sym.WAVE_ARROW_POINTING_DIRECTLY_RIGHT),
  ('\u2934', .relation Sym.ARROW_POINTING_RIGHTWARDS_THEN_CURVING_UPWARDS),
  ('\u2935', .relation Sym.ARROW_POINTING_RIGHTWARDS_THEN_CURVING_DOWNWARDS),
  ('\u2936', .relation Sym.ARROW_POINTING_DOWNWARDS_THEN_CURVING_LEFTWARDS),
  ('\u2937', .relation Sym.ARROW_POINTING_DOWNWARDS_THEN_CURVING_RIGHTWARDS),
  ('\u2938', .relation Sym.RIGHT_SIDE_ARC_CLOCKWISE_ARROW),
  ('\u2939', .relation Sym.LEFT_SIDE_ARC_ANTICLOCKWISE_ARROW),
  ('\u293a', .relation Sym.TOP_ARC_ANTICLOCKWISE_ARROW),
  ('\u293b', .relation Sym.BOTTOM_ARC_ANTICLOCKWISE_ARROW),
  ('\u293c', .relation Sym.TOP_ARC_CLOCKWISE_ARROW_WITH_MINUS),
  ('\u293d', .relation Sym.TOP_ARC_ANTICLOCKWISE_ARROW_WITH_PLUS),
  ('\u293e', .relation Sym.LOWER_RIGHT_SEMICIRCULAR_CLOCKWISE_ARROW),
  ('\u293f', .relation Sym.LOWER_LEFT_SEMICIRCULAR_ANTICLOCKWISE_ARROW),
  ('\u2940', .relation Sym.ANTICLOCKWISE_CLOSED_CIRCLE_ARROW),
  ('\u2941', .relation Sym.CLOCKWISE_CLOSED_CIRCLE_ARROW),
  ('\u2942', .relation Sym.RIGHTWARDS_ARROW_ABOVE_SHORT_LEFTWARDS_ARROW),
  ('\u2943', .relation Sym.LEFTWARDS_ARROW_ABOVE_SHORT_RIGHTWARDS_ARROW),
  ('\u2944', .relation Sym.SHORT_RIGHTWARDS_ARROW_ABOVE_LEFTWARDS_ARROW),
  ('\u2945', .relation Sym.RIGHTWARDS_ARROW_WITH_PLUS_BELOW),
  ('\u2946', .relation Sym.LEFTWARDS_ARROW_WITH_PLUS_BELOW),
  ('\u2947', .relation Sym.RIGHTWARDS_ARROW_THROUGH_X),
  ('\u2948', .relation Sym.LEFT_RIGHT_ARROW_THROUGH_SMALL_CIRCLE),
  ('\u2949', .relation Sym.UPWARDS_TWO_HEADED_ARROW_FROM_SMALL_CIRCLE),
  ('\u294a', .relation Sym.LEFT_BARB_UP_RIGHT_BARB_DOWN_HARPOON),
  ('\u294b', .relation Sym.LEFT_BARB_DOWN_RIGHT_BARB_UP_HARPOON),
  ('\u294c', .relation Sym.UP_BARB_RIGHT_DOWN_BARB_LEFT_HARPOON),
  ('\u294d', .relation Sym.UP_BARB_LEFT_DOWN_BARB_RIGHT_HARPOON),
  ('\u294e', .relation Sym.LEFT_BARB_UP_RIGHT_BARB_UP_HARPOON),
  ('\u294f', .relation Sym.UP_BARB_RIGHT_DOWN_BARB_RIGHT_HARPOON),
  ('\u2950', .relation Sym.LEFT_BARB_DOWN_RIGHT_BARB_DOWN_HARPOON),
  ('\u2951', .relation Sym.UP_BARB_LEFT_DOWN_BARB_LEFT_HARPOON),
  ('\u2952', .relation Sym.LEFTWARDS_HARPOON_WITH_BARB_UP_TO_BAR),
  ('\u2953', .relation Sym.RIGHTWARDS_HARPOON_WITH_BARB_UP_TO_BAR),
  ('\u2954', .relation Sym.UPWARDS_HARPOON_WITH_BARB_RIGHT_TO_BAR),
  ('\u2955', .relation Sym.DOWNWARDS_HARPOON_WITH_BARB_RIGHT_TO_BAR),
  ('\u2956', .relation Sym.LEFTWARDS_HARPOON_WITH_BARB_DOWN_TO_BAR),
  ('\u2957', .relation Sym.RIGHTWARDS_HARPOON_WITH_BARB_DOWN_TO_BAR),
  ('\u2958', .relation Sym.UPWARDS_HARPOON_WITH_BARB_LEFT_TO_BAR),
  ('\u2959', .relation Sym.DOWNWARDS_HARPOON_WITH_BARB_LEFT_TO_BAR),
  ('\u295a', .relation Sym.LEFTWARDS_HARPOON_WITH_BARB_UP_FROM_BAR),
  ('\u295b', .relation Sym.RIGHTWARDS_HARPOON_WITH_BARB_UP_FROM_BAR),
  ('\u295c', .relation Sym.UPWARDS_HARPOON_WITH_BARB_RIGHT_FROM_BAR),
  ('\u295d', .relation Sym.DOWNWARDS_HARPOON_WITH_BARB_RIGHT_FROM_BAR),
  ('\u295e', .relation Sym.LEFTWARDS_HARPOON_WITH_BARB_DOWN_FROM_BAR),
  ('\u295f', .relation Sym.RIGHTWARDS_HARPOON_WITH_BARB_DOWN_FROM_BAR),
  ('\u2960', .relation Sym.UPWARDS_HARPOON_WITH_BARB_LEFT_FROM_BAR),
  ('\u2961', .relation Sym.DOWNWARDS_HARPOON_WITH_BARB_LEFT_FROM_BAR),
  ('\u2962', .relation Sym.LEFTWARDS_HARPOON_WITH_BARB_UP_ABOVE_LEFTWARDS_HARPOON_WITH_BARB_DOWN),
  ('\u2963', .relation Sym.UPWARDS_HARPOON_WITH_BARB_LEFT_BESIDE_UPWARDS_HARPOON_WITH_BARB_RIGHT),
  ('\u2964', .relation Sym.RIGHTWARDS_HARPOON_WITH_BARB_UP_ABOVE_RIGHTWARDS_HARPOON_WITH_BARB_DOWN),
  ('\u2965', .relation Sym.DOWNWARDS_HARPOON_WITH_BARB_LEFT_BESIDE_DOWNWARDS_HARPOON_WITH_BARB_RIGHT),
  ('\u2966', .relation Sym.LEFTWARDS_HARPOON_WITH_BARB_UP_ABOVE_RIGHTWARDS_HARPOON_WITH_BARB_UP),
  ('\u2967', .relation Sym.LEFTWARDS_HARPOON_WITH_BARB_DOWN_ABOVE_RIGHTWARDS_HARPOON_WITH_BARB_DOWN),
  ('\u2968', .relation Sym.RIGHTWARDS_HARPOON_WITH_BARB_UP_ABOVE_LEFTWARDS_HARPOON_WITH_BARB_UP),
  ('\u2969', .relation Sym.RIGHTWARDS_HARPOON_WITH_BARB_DOWN_ABOVE_LEFTWARDS_HARPOON_WITH_BARB_DOWN),
  ('\u296a', .relation Sym.LEFTWARDS_HARPOON_WITH_BARB_UP_ABOVE_LONG_DASH),
  ('\u296b', .relation Sym.LEFTWARDS_HARPOON_WITH_BARB_DOWN_BELOW_LONG_DASH),
  ('\u296c', .relation Sym.RIGHTWARDS_HARPOON_WITH_BARB_UP_ABOVE_LONG_DASH),
  ('\u296d', .relation Sym.RIGHTWARDS_HARPOON_WITH_BARB_DOWN_BELOW_LONG_DASH),
  ('\u296e', .relation Sym.UPWARDS_HARPOON_WITH_BARB_LEFT_BESIDE_DOWNWARDS_HARPOON_WITH_BARB_RIGHT),
  ('\u296f', .relation Sym.DOWNWARDS_HARPOON_WITH_BARB_LEFT_BESIDE_UPWARDS_HARPOON_WITH_BARB_RIGHT),
  ('\u2970', .relation Sym.RIGHT_DOUBLE_ARROW_WITH_ROUNDED_HEAD),
  ('\u2971', .relation Sym.EQUALS_SIGN_ABOVE_RIGHTWARDS_ARROW),
  ('\u2972', .relation Sym.TILDE_OPERATOR_ABOVE_RIGHTWARDS_ARROW),
  ('\u2973', .relation Sym.LEFTWARDS_ARROW_ABOVE_TILDE_OPERATOR),
  ('\u2974', .relation Sym.RIGHTWARDS_ARROW_ABOVE_TILDE_OPERATOR),
  ('\u2975', .relation Sym.RIGHTWARDS_ARROW_ABOVE_ALMOST_EQUAL_TO),
  ('\u2976', .relation Sym.LESS_THAN_ABOVE_LEFTWARDS_ARROW),
  ('\u2977', .relation Sym.LEFTWARDS_ARROW_THROUGH_LESS_THAN),
  ('\u2978', .relation Sym.GREATER_THAN_ABOVE_RIGHTWARDS_ARROW),
  ('\u2979', .relation Sym.SUBSET_ABOVE_RIGHTWARDS_ARROW),
  ('\u297a', .relation Sym.LEFTWARDS_ARROW_THROUGH_SUBSET),
  ('\u297b', .relation Sym.SUPERSET_ABOVE_LEFTWARDS_ARROW),
  ('\u297c', .relation Sym.LEFT_FISH_TAIL),
  ('\u297d', .relation Sym.RIGHT_FISH_TAIL),
  ('\u297e', .relation Sym.UP_FISH_TAIL),
  ('\u297f', .relation Sym.DOWN_FISH_TAIL),
  ('\u2982', .relation Sym.Z_NOTATION_TYPE_COLON),
  ('\u29ce', .relation Sym.RIGHT_TRIANGLE_ABOVE_LEFT_TRIANGLE),
  ('\u29cf', .relation Sym.LEFT_TRIANGLE_BESIDE_VERTICAL_BAR),
  ('\u29d0', .relation Sym.VERTICAL_BAR_BESIDE_RIGHT_TRIANGLE),
  ('\u29d1', .relation Sym.BOWTIE_WITH_LEFT_HALF_BLACK),
  ('\u29d2', .relation Sym.BOWTIE_WITH_RIGHT_HALF_BLACK),
  ('\u29d3', .relation Sym.BLACK_BOWTIE),
  ('\u29d4', .forceRelation Sym.TIMES_WITH_LEFT_HALF_BLACK.asOp),
  ('\u29d5', .forceRelation Sym.TIMES_WITH_RIGHT_HALF_BLACK.asOp),
  ('\u29df', .relation Sym.DOUBLE_ENDED_MULTIMAP),
  ('\u29e0', .relation Sym.SQUARE_WITH_CONTOURED_OUTLINE),
  ('\u29e1', .relation Sym.INCREASES_AS),
  ('\u29e3', .relation Sym.EQUALS_SIGN_AND_SLANTED_PARALLEL),
  ('\u29e4', .relation Sym.EQUALS_SIGN_AND_SLANTED_PARALLEL_WITH_TILDE_ABOVE),
  ('\u29e5', .relation Sym.IDENTICAL_TO_AND_SLANTED_PARALLEL),
  ('\u29e6', .relation Sym.GLEICH_STARK),
  ('\u29f4', .relation Sym.RULE_DELAYED),
  ('\u2a66', .relation Sym.EQUALS_SIGN_WITH_DOT_BELOW)]

/-- Part of `unicodeOperators`. -/
def unicodeOperators7 : List (Char × Token) := [
  ('\u2a67', .relation Sym.IDENTICAL_WITH_DOT_ABOVE),
  ('\u2a68', .relation Sym.TRIPLE_HORIZONTAL_BAR_WITH_DOUBLE_VERTICAL_STROKE),
  ('\u2a69', .relation Sym.TRIPLE_HORIZONTAL_BAR_WITH_TRIPLE_VERTICAL_STROKE),
  ('\u2a6a', .relation Sym.TILDE_OPERATOR_WITH_DOT_ABOVE),
  ('\u2a6b', .relation Sym.TILDE_OPERATOR_WITH_RISING_DOTS),
  ('\u2a6c', .relation Sym.SIMILAR_MINUS_SIMILAR),
  ('\u2a6d', .relation Sym.CONGRUENT_WITH_DOT_ABOVE),
  ('\u2a6e', .relation Sym.EQUALS_WITH_ASTERISK),
  ('\u2a6f', .relation Sym.ALMOST_EQUAL_TO_WITH_CIRCUMFLEX_ACCENT),
  ('\u2a70', .relation Sym.APPROXIMATELY_EQUAL_OR_EQUAL_TO),
  ('\u2a71', .relation Sym.EQUALS_SIGN_ABOVE_PLUS_SIGN),
  ('\u2a72', .relation Sym.PLUS_SIGN_ABOVE_EQUALS_SIGN),
  ('\u2a73', .relation Sym.EQUALS_SIGN_ABOVE_TILDE_OPERATOR),
  ('\u2a74', .relation Sym.DOUBLE_COLON_EQUAL),
  ('\u2a75', .relation Sym.TWO_CONSECUTIVE_EQUALS_SIGNS),
  ('\u2a76', .relation Sym.THREE_CONSECUTIVE_EQUALS_SIGNS),
  ('\u2a77', .relation Sym.EQUALS_SIGN_WITH_TWO_DOTS_ABOVE_AND_TWO_DOTS_BELOW),
  ('\u2a78', .relation Sym.EQUIVALENT_WITH_FOUR_DOTS_ABOVE),
  ('\u2a79', .relation Sym.LESS_THAN_WITH_CIRCLE_INSIDE),
  ('\u2a7a', .relation Sym.GREATER_THAN_WITH_CIRCLE_INSIDE),
  ('\u2a7b', .relation Sym.LESS_THAN_WITH_QUESTION_MARK_ABOVE),
  ('\u2a7c', .relation Sym.GREATER_THAN_WITH_QUESTION_MARK_ABOVE),
  ('\u2a7d', .relation Sym.LESS_THAN_OR_SLANTED_EQUAL_TO),
  ('\u2a7e', .relation Sym.GREATER_THAN_OR_SLANTED_EQUAL_TO),
  ('\u2a7f', .relation Sym.LESS_THAN_OR_SLANTED_EQUAL_TO_WITH_DOT_INSIDE),
  ('\u2a80', .relation Sym.GREATER_THAN_OR_SLANTED_EQUAL_TO_WITH_DOT_INSIDE),
  ('\u2a81', .relation Sym.LESS_THAN_OR_SLANTED_EQUAL_TO_WITH_DOT_ABOVE),
  ('\u2a82', .relation Sym.GREATER_THAN_OR_SLANTED_EQUAL_TO_WITH_DOT_ABOVE),
  ('\u2a83', .relation Sym.LESS_THAN_OR_SLANTED_EQUAL_TO_WITH_DOT_ABOVE_RIGHT),
  ('\u2a84', .relation Sym.GREATER_THAN_OR_SLANTED_EQUAL_TO_WITH_DOT_ABOVE_LEFT),
  ('\u2a85', .relation Sym.LESS_THAN_OR_APPROXIMATE),
  ('\u2a86', .relation Sym.GREATER_THAN_OR_APPROXIMATE),
  ('\u2a87', .relation Sym.LESS_THAN_AND_SINGLE_LINE_NOT_EQUAL_TO),
  ('\u2a88', .relation Sym.GREATER_THAN_AND_SINGLE_LINE_NOT_EQUAL_TO),
  ('\u2a89', .relation Sym.LESS_THAN_AND_NOT_APPROXIMATE),
  ('\u2a8a', .relation Sym.GREATER_THAN_AND_NOT_APPROXIMATE),
  ('\u2a8b', .relation Sym.LESS_THAN_ABOVE_DOUBLE_LINE_EQUAL_ABOVE_GREATER_THAN),
  ('\u2a8c', .relation Sym.GREATER_THAN_ABOVE_DOUBLE_LINE_EQUAL_ABOVE_LESS_THAN),
  ('\u2a8d', .relation Sym.LESS_THAN_ABOVE_SIMILAR_OR_EQUAL),
  ('\u2a8e', .relation Sym.GREATER_THAN_ABOVE_SIMILAR_OR_EQUAL),
  ('\u2a8f', .relation Sym.LESS_THAN_ABOVE_SIMILAR_ABOVE_GREATER_THAN),
  ('\u2a90', .relation Sym.GREATER_THAN_ABOVE_SIMILAR_ABOVE_LESS_THAN),
  ('\u2a91', .relation Sym.LESS_THAN_ABOVE_GREATER_THAN_ABOVE_DOUBLE_LINE_EQUAL),
  ('\u2a92', .relation Sym.GREATER_THAN_ABOVE_LESS_THAN_ABOVE_DOUBLE_LINE_EQUAL),
  ('\u2a93', .relation Sym.LESS_THAN_ABOVE_SLANTED_EQUAL_ABOVE_GREATER_THAN_ABOVE_SLANTED_EQUAL),
  ('\u2a94', .relation Sym.GREATER_THAN_ABOVE_SLANTED_EQUAL_ABOVE_LESS_THAN_ABOVE_SLANTED_EQUAL),
  ('\u2a95', .relation Sym.SLANTED_EQUAL_TO_OR_LESS_THAN),
  ('\u2a96', .relation Sym.SLANTED_EQUAL_TO_OR_GREATER_THAN),
  ('\u2a97', .relation Sym.SLANTED_EQUAL_TO_OR_LESS_THAN_WITH_DOT_INSIDE),
  ('\u2a98', .relation Sym.SLANTED_EQUAL_TO_OR_GREATER_THAN_WITH_DOT_INSIDE),
  ('\u2a99', .relation Sym.DOUBLE_LINE_EQUAL_TO_OR_LESS_THAN),
  ('\u2a9a', .relation Sym.DOUBLE_LINE_EQUAL_TO_OR_GREATER_THAN),
  ('\u2a9b', .relation Sym.DOUBLE_LINE_SLANTED_EQUAL_TO_OR_LESS_THAN),
  ('\u2a9c', .relation Sym.DOUBLE_LINE_SLANTED_EQUAL_TO_OR_GREATER_THAN),
  ('\u2a9d', .relation Sym.SIMILAR_OR_LESS_THAN),
  ('\u2a9e', .relation Sym.SIMILAR_OR_GREATER_THAN),
  ('\u2a9f', .relation Sym.SIMILAR_ABOVE_LESS_THAN_ABOVE_EQUALS_SIGN),
  ('\u2aa0', .relation Sym.SIMILAR_ABOVE_GREATER_THAN_ABOVE_EQUALS_SIGN),
  ('\u2aa1', .relation Sym.DOUBLE_NESTED_LESS_THAN),
  ('\u2aa2', .relation Sym.DOUBLE_NESTED_GREATER_THAN),
  ('\u2aa3', .relation Sym.DOUBLE_NESTED_LESS_THAN_WITH_UNDERBAR),
  ('\u2aa4', .relation Sym.GREATER_THAN_OVERLAPPING_LESS_THAN),
  ('\u2aa5', .relation Sym.GREATER_THAN_BESIDE_LESS_THAN),
  ('\u2aa6', .relation Sym.LESS_THAN_CLOSED_BY_CURVE),
  ('\u2aa7', .relation Sym.GREATER_THAN_CLOSED_BY_CURVE),
  ('\u2aa8', .relation Sym.LESS_THAN_CLOSED_BY_CURVE_ABOVE_SLANTED_EQUAL),
  ('\u2aa9', .relation Sym.GREATER_THAN_CLOSED_BY_CURVE_ABOVE_SLANTED_EQUAL),
  ('\u2aaa', .relation Sym.SMALLER_THAN),
  ('\u2aab', .relation Sym.LARGER_THAN),
  ('\u2aac', .relation Sym.SMALLER_THAN_OR_EQUAL_TO),
  ('\u2aad', .relation Sym.LARGER_THAN_OR_EQUAL_TO),
  ('\u2aae', .relation Sym.EQUALS_SIGN_WITH_BUMPY_ABOVE),
  ('\u2aaf', .relation Sym.PRECEDES_ABOVE_SINGLE_LINE_EQUALS_SIGN),
  ('\u2ab0', .relation Sym.SUCCEEDS_ABOVE_SINGLE_LINE_EQUALS_SIGN),
  ('\u2ab1', .relation Sym.PRECEDES_ABOVE_SINGLE_LINE_NOT_EQUAL_TO),
  ('\u2ab2', .relation Sym.SUCCEEDS_ABOVE_SINGLE_LINE_NOT_EQUAL_TO),
  ('\u2ab3', .relation Sym.PRECEDES_ABOVE_EQUALS_SIGN),
  ('\u2ab4', .relation Sym.SUCCEEDS_ABOVE_EQUALS_SIGN),
  ('\u2ab5', .relation Sym.PRECEDES_ABOVE_NOT_EQUAL_TO),
  ('\u2ab6', .relation Sym.SUCCEEDS_ABOVE_NOT_EQUAL_TO),
  ('\u2ab7', .relation Sym.PRECEDES_ABOVE_ALMOST_EQUAL_TO),
  ('\u2ab8', .relation Sym.SUCCEEDS_ABOVE_ALMOST_EQUAL_TO),
  ('\u2ab9', .relation Sym.PRECEDES_ABOVE_NOT_ALMOST_EQUAL_TO),
  ('\u2aba', .relation Sym.SUCCEEDS_ABOVE_NOT_ALMOST_EQUAL_TO),
  ('\u2abb', .relation Sym.DOUBLE_PRECEDES),
  ('\u2abc', .relation Sym.DOUBLE_SUCCEEDS),
  ('\u2abd', .relation Sym.SUBSET_WITH_DOT),
  ('\u2abe', .relation Sym.SUPERSET_WITH_DOT),
  ('\u2abf', .relation Sym.SUBSET_WITH_PLUS_SIGN_BELOW),
  ('\u2ac0', .relation Sym.SUPERSET_WITH_PLUS_SIGN_BELOW),
  ('\u2ac1', .relation Sym.SUBSET_WITH_MULTIPLICATION_SIGN_BELOW),
  ('\u2ac2', .relation Sym.SUPERSET_WITH_MULTIPLICATION_SIGN_BELOW),
  ('\u2ac3', .relation Sym.SUBSET_OF_OR_EQUAL_TO_WITH_DOT_ABOVE),
  ('\u2ac4', .relation Sym.SUPERSET_OF_OR_EQUAL_TO_WITH_DOT_ABOVE),
  ('\u2ac5', .relation Sym.SUBSET_OF_ABOVE_EQUALS_SIGN),
  ('\u2ac6', .relation Sym.SUPERSET_OF_ABOVE_EQUALS_SIGN),
  ('\u2ac7', .relation Sym.SUBSET_OF_ABOVE_TILDE_OPERATOR),
  ('\u2ac8', .relation Sym.SUPERSET_OF_ABOVE_TILDE_OPERATOR),
  ('\u2ac9', .relation Sym.SUBSET_OF_ABOVE_ALMOST_EQUAL_TO),
  ('\u2aca', .relation Sym.SUPERSET_OF_ABOVE_ALMOST_EQUAL_TO)]

/-- Part of `unicodeOperators`. -/
def unicodeOperators8 : List (Char × Token) := [
  ('\u2acb', .relation Sym.SUBSET_OF_ABOVE_NOT_EQUAL_TO),
  ('\u2acc', .relation Sym.SUPERSET_OF_ABOVE_NOT_EQUAL_TO),
  ('\u2acd', .relation Sym.SQUARE_LEFT_OPEN_BOX_OPERATOR),
  ('\u2ace', .relation Sym.SQUARE_RIGHT_OPEN_BOX_OPERATOR),
  ('\u2acf', .relation Sym.CLOSED_SUBSET),
  ('\u2ad0', .relation Sym.CLOSED_SUPERSET),
  ('\u2ad1', .relation Sym.CLOSED_SUBSET_OR_EQUAL_TO),
  ('\u2ad2', .relation Sym.CLOSED_SUPERSET_OR_EQUAL_TO),
  ('\u2ad3', .relation Sym.SUBSET_ABOVE_SUPERSET),
  ('\u2ad4', .relation Sym.SUPERSET_ABOVE_SUBSET),
  ('\u2ad5', .relation Sym.SUBSET_ABOVE_SUBSET),
  ('\u2ad6', .relation Sym.SUPERSET_ABOVE_SUPERSET),
  ('\u2ad7', .relation Sym.SUPERSET_BESIDE_SUBSET),
  ('\u2ad8', .relation Sym.SUPERSET_BESIDE_AND_JOINED_BY_DASH_WITH_SUBSET),
  ('\u2ade', .relation Sym.SHORT_LEFT_TACK),
  ('\u2adf', .relation Sym.SHORT_DOWN_TACK),
  ('\u2ae0', .relation Sym.SHORT_UP_TACK),
  ('\u2ae1', .relation Sym.PERPENDICULAR_WITH_S),
  ('\u2ae2', .relation Sym.VERTICAL_BAR_TRIPLE_RIGHT_TURNSTILE),
  ('\u2ae3', .relation Sym.DOUBLE_VERTICAL_BAR_LEFT_TURNSTILE),
  ('\u2ae4', .relation Sym.VERTICAL_BAR_DOUBLE_LEFT_TURNSTILE),
  ('\u2ae5', .relation Sym.DOUBLE_VERTICAL_BAR_DOUBLE_LEFT_TURNSTILE),
  ('\u2ae6', .relation Sym.LONG_DASH_FROM_LEFT_MEMBER_OF_DOUBLE_VERTICAL),
  ('\u2ae7', .relation Sym.SHORT_DOWN_TACK_WITH_OVERBAR),
  ('\u2ae8', .relation Sym.SHORT_UP_TACK_WITH_UNDERBAR),
  ('\u2ae9', .relation Sym.SHORT_UP_TACK_ABOVE_SHORT_DOWN_TACK),
  ('\u2aea', .relation Sym.DOUBLE_DOWN_TACK),
  ('\u2aeb', .relation Sym.DOUBLE_UP_TACK),
  ('\u2aee', .relation Sym.DOES_NOT_DIVIDE_WITH_REVERSED_NEGATION_SLASH),
  ('\u2af2', .relation Sym.PARALLEL_WITH_HORIZONTAL_STROKE),
  ('\u2af3', .relation Sym.PARALLEL_WITH_TILDE_OPERATOR),
  ('\u2af7', .relation Sym.TRIPLE_NESTED_LESS_THAN),
  ('\u2af8', .relation Sym.TRIPLE_NESTED_GREATER_THAN),
  ('\u2af9', .relation Sym.DOUBLE_LINE_SLANTED_LESS_THAN_OR_EQUAL_TO),
  ('\u2afa', .relation Sym.DOUBLE_LINE_SLANTED_GREATER_THAN_OR_EQUAL_TO),
  ('\u2b30', .relation Sym.LEFT_ARROW_WITH_SMALL_CIRCLE),
  ('\u2b31', .relation Sym.THREE_LEFTWARDS_ARROWS),
  ('\u2b32', .relation Sym.LEFT_ARROW_WITH_CIRCLED_PLUS),
  ('\u2b33', .relation Sym.LONG_LEFTWARDS_SQUIGGLE_ARROW),
  ('\u2b34', .relation Sym.LEFTWARDS_TWO_HEADED_ARROW_WITH_VERTICAL_STROKE),
  ('\u2b35', .relation Sym.LEFTWARDS_TWO_HEADED_ARROW_WITH_DOUBLE_VERTICAL_STROKE),
  ('\u2b36', .relation Sym.LEFTWARDS_TWO_HEADED_ARROW_FROM_BAR),
  ('\u2b37', .relation Sym.LEFTWARDS_TWO_HEADED_TRIPLE_DASH_ARROW),
  ('\u2b38', .relation Sym.LEFTWARDS_ARROW_WITH_DOTTED_STEM),
  ('\u2b39', .relation Sym.LEFTWARDS_ARROW_WITH_TAIL_WITH_VERTICAL_STROKE),
  ('\u2b3a', .relation Sym.LEFTWARDS_ARROW_WITH_TAIL_WITH_DOUBLE_VERTICAL_STROKE),
  ('\u2b3b', .relation Sym.LEFTWARDS_TWO_HEADED_ARROW_WITH_TAIL),
  ('\u2b3c', .relation Sym.LEFTWARDS_TWO_HEADED_ARROW_WITH_TAIL_WITH_VERTICAL_STROKE),
  ('\u2b3d', .relation Sym.LEFTWARDS_TWO_HEADED_ARROW_WITH_TAIL_WITH_DOUBLE_VERTICAL_STROKE),
  ('\u2b3e', .relation Sym.LEFTWARDS_ARROW_THROUGH_X),
  ('\u2b3f', .relation Sym.WAVE_ARROW_POINTING_DIRECTLY_LEFT),
  ('\u2b40', .relation Sym.EQUALS_SIGN_ABOVE_LEFTWARDS_ARROW),
  ('\u2b41', .relation Sym.REVERSE_TILDE_OPERATOR_ABOVE_LEFTWARDS_ARROW),
  ('\u2b42', .relation Sym.LEFTWARDS_ARROW_ABOVE_REVERSE_ALMOST_EQUAL_TO),
  ('\u2b43', .relation Sym.RIGHTWARDS_ARROW_THROUGH_GREATER_THAN),
  ('\u2b44', .relation Sym.RIGHTWARDS_ARROW_THROUGH_SUPERSET),
  ('\u2b45', .relation Sym.LEFTWARDS_QUADRUPLE_ARROW),
  ('\u2b46', .relation Sym.RIGHTWARDS_QUADRUPLE_ARROW),
  ('\u2b47', .relation Sym.REVERSE_TILDE_OPERATOR_ABOVE_RIGHTWARDS_ARROW),
  ('\u2b48', .relation Sym.RIGHTWARDS_ARROW_ABOVE_REVERSE_ALMOST_EQUAL_TO),
  ('\u2b49', .relation Sym.TILDE_OPERATOR_ABOVE_LEFTWARDS_ARROW),
  ('\u2b4a', .relation Sym.LEFTWARDS_ARROW_ABOVE_ALMOST_EQUAL_TO),
  ('\u2b4b', .relation Sym.LEFTWARDS_ARROW_ABOVE_REVERSE_TILDE_OPERATOR),
  ('\u2b4c', .relation Sym.RIGHTWARDS_ARROW_ABOVE_REVERSE_TILDE_OPERATOR)]

/-- commands.rs:1000-1927 `UNICODE_OPERATORS` -/
def unicodeOperators : List (Char × Token) :=
  unicodeOperators0 ++ unicodeOperators1 ++ unicodeOperators2 ++ unicodeOperators3 ++ unicodeOperators4 ++ unicodeOperators5 ++ unicodeOperators6 ++ unicodeOperators7 ++ unicodeOperators8

end Verif.Model

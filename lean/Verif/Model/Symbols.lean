import Verif.Model.Attrs
/-! Generated from the constants of crates/mathml-renderer/src/symbol.rs (lines 262-1679). Each
definition cites its line. -/
namespace Verif.Model.Sym

/-- symbol.rs:265 -/
def EXCLAMATION_MARK : OrdLike := ⟨'!', .DE, false⟩
/-- symbol.rs:267 -/
def NUMBER_SIGN : Char := '#'
/-- symbol.rs:268 -/
def DOLLAR_SIGN : Char := '$'
/-- symbol.rs:269 -/
def PERCENT_SIGN : Char := '%'
/-- symbol.rs:270 -/
def AMPERSAND : OrdLike := ⟨'&', .E, false⟩
/-- symbol.rs:272 -/
def LEFT_PARENTHESIS : OrdLike := ⟨'(', .F, false⟩
/-- symbol.rs:273 -/
def RIGHT_PARENTHESIS : OrdLike := ⟨')', .G, false⟩
/-- symbol.rs:275 -/
def PLUS_SIGN : Bin := ⟨'+', .BD, false⟩
/-- symbol.rs:276 -/
def COMMA : Punct := ⟨','⟩
/-- symbol.rs:277 -/
def FULL_STOP : Op := ⟨'.', .C, false⟩
/-- symbol.rs:278 -/
def SOLIDUS : OrdLike := ⟨'/', .KButUsedToBeB, false⟩
/-- symbol.rs:280 -/
def COLON : Punct := ⟨':'⟩
/-- symbol.rs:281 -/
def SEMICOLON : Punct := ⟨';'⟩
/-- symbol.rs:282 -/
def LESS_THAN_SIGN : Rel := ⟨'<', .default, false⟩
/-- symbol.rs:283 -/
def EQUALS_SIGN : Rel := ⟨'=', .default, false⟩
/-- symbol.rs:284 -/
def GREATER_THAN_SIGN : Rel := ⟨'>', .default, false⟩
/-- symbol.rs:288 -/
def LEFT_SQUARE_BRACKET : OrdLike := ⟨'[', .F, false⟩
/-- symbol.rs:289 -/
def REVERSE_SOLIDUS : OrdLike := ⟨'\\', .K, false⟩
/-- symbol.rs:290 -/
def RIGHT_SQUARE_BRACKET : OrdLike := ⟨']', .G, false⟩
/-- symbol.rs:292 -/
def LOW_LINE : OrdLike := ⟨'_', .IK, false⟩
/-- symbol.rs:293 -/
def GRAVE_ACCENT : BMPOperator := ⟨'`'⟩
/-- symbol.rs:295 -/
def LEFT_CURLY_BRACKET : OrdLike := ⟨'{', .F, false⟩
/-- symbol.rs:296 -/
def VERTICAL_LINE : OrdLike := ⟨'|', .FGandForceDefault, false⟩
/-- symbol.rs:297 -/
def RIGHT_CURLY_BRACKET : OrdLike := ⟨'}', .G, false⟩
/-- symbol.rs:298 -/
def TILDE : OrdLike := ⟨'~', .I, false⟩
/-- symbol.rs:303 -/
def NO_BREAK_SPACE : Char := '\u00a0'
/-- symbol.rs:306 -/
def POUND_SIGN : Char := '\u00a3'
/-- symbol.rs:308 -/
def YEN_SIGN : Char := '\u00a5'
/-- symbol.rs:310 -/
def SECTION_SIGN : Char := '\u00a7'
/-- symbol.rs:311 -/
def DIAERESIS : BMPOperator := ⟨'\u00a8'⟩
/-- symbol.rs:312 -/
def COPYRIGHT_SIGN : Char := '\u00a9'
/-- symbol.rs:314 -/
def NOT_SIGN : OrdLike := ⟨'\u00ac', .D, false⟩
/-- symbol.rs:315 -/
def DEGREE_SIGN : Char := '\u00b0'
/-- symbol.rs:317 -/
def MACRON : BMPOperator := ⟨'\u00af'⟩
/-- symbol.rs:319 -/
def PLUS_MINUS_SIGN : Bin := ⟨'\u00b1', .BD, false⟩
/-- symbol.rs:321 -/
def ACUTE_ACCENT : BMPOperator := ⟨'\u00b4'⟩
/-- symbol.rs:323 -/
def PILCROW_SIGN : Char := '\u00b6'
/-- symbol.rs:324 -/
def MIDDLE_DOT : Op := ⟨'\u00b7', .C, false⟩
/-- symbol.rs:326 -/
def MULTIPLICATION_SIGN : Op := ⟨'\u00d7', .C, false⟩
/-- symbol.rs:328 -/
def LATIN_SMALL_LETTER_ETH : Char := '\u00f0'
/-- symbol.rs:330 -/
def DIVISION_SIGN : Bin := ⟨'\u00f7', .B, false⟩
/-- symbol.rs:335 -/
def LATIN_SMALL_LETTER_DOTLESS_I : Char := '\u0131'
/-- symbol.rs:340 -/
def LATIN_SMALL_LETTER_DOTLESS_J : Char := '\u0237'
/-- symbol.rs:345 -/
def MODIFIER_LETTER_CIRCUMFLEX_ACCENT : BMPOperator := ⟨'\u02c6'⟩
/-- symbol.rs:346 -/
def CARON : BMPOperator := ⟨'\u02c7'⟩
/-- symbol.rs:348 -/
def BREVE : BMPOperator := ⟨'\u02d8'⟩
/-- symbol.rs:349 -/
def DOT_ABOVE : BMPOperator := ⟨'\u02d9'⟩
/-- symbol.rs:350 -/
def RING_ABOVE : BMPOperator := ⟨'\u02da'⟩
/-- symbol.rs:352 -/
def SMALL_TILDE : BMPOperator := ⟨'\u02dc'⟩
/-- symbol.rs:357 -/
def COMBINING_GRAVE_ACCENT : Char := '\u0300'
/-- symbol.rs:358 -/
def COMBINING_ACUTE_ACCENT : Char := '\u0301'
/-- symbol.rs:359 -/
def COMBINING_CIRCUMFLEX_ACCENT : BMPOperator := ⟨'\u0302'⟩
/-- symbol.rs:360 -/
def COMBINING_TILDE : Char := '\u0303'
/-- symbol.rs:361 -/
def COMBINING_MACRON : Char := '\u0304'
/-- symbol.rs:363 -/
def COMBINING_BREVE : Char := '\u0306'
/-- symbol.rs:364 -/
def COMBINING_DOT_ABOVE : Char := '\u0307'
/-- symbol.rs:365 -/
def COMBINING_DIAERESIS : Char := '\u0308'
/-- symbol.rs:367 -/
def COMBINING_RING_ABOVE : Char := '\u030a'
/-- symbol.rs:368 -/
def COMBINING_DOUBLE_ACUTE_ACCENT : Char := '\u030b'
/-- symbol.rs:369 -/
def COMBINING_CARON : Char := '\u030c'
/-- symbol.rs:371 -/
def COMBINING_CEDILLA : Char := '\u0327'
/-- symbol.rs:373 -/
def COMBINING_LOW_LINE : BMPOperator := ⟨'\u0332'⟩
/-- symbol.rs:375 -/
def COMBINING_LONG_SOLIDUS_OVERLAY : Char := '\u0338'
/-- symbol.rs:380 -/
def GREEK_CAPITAL_LETTER_ALPHA : Char := '\u0391'
/-- symbol.rs:381 -/
def GREEK_CAPITAL_LETTER_BETA : Char := '\u0392'
/-- symbol.rs:382 -/
def GREEK_CAPITAL_LETTER_GAMMA : Char := '\u0393'
/-- symbol.rs:383 -/
def GREEK_CAPITAL_LETTER_DELTA : Char := '\u0394'
/-- symbol.rs:384 -/
def GREEK_CAPITAL_LETTER_EPSILON : Char := '\u0395'
/-- symbol.rs:385 -/
def GREEK_CAPITAL_LETTER_ZETA : Char := '\u0396'
/-- symbol.rs:386 -/
def GREEK_CAPITAL_LETTER_ETA : Char := '\u0397'
/-- symbol.rs:387 -/
def GREEK_CAPITAL_LETTER_THETA : Char := '\u0398'
/-- symbol.rs:388 -/
def GREEK_CAPITAL_LETTER_IOTA : Char := '\u0399'
/-- symbol.rs:389 -/
def GREEK_CAPITAL_LETTER_KAPPA : Char := '\u039a'
/-- symbol.rs:390 -/
def GREEK_CAPITAL_LETTER_LAMBDA : Char := '\u039b'
/-- symbol.rs:391 -/
def GREEK_CAPITAL_LETTER_MU : Char := '\u039c'
/-- symbol.rs:392 -/
def GREEK_CAPITAL_LETTER_NU : Char := '\u039d'
/-- symbol.rs:393 -/
def GREEK_CAPITAL_LETTER_XI : Char := '\u039e'
/-- symbol.rs:394 -/
def GREEK_CAPITAL_LETTER_OMICRON : Char := '\u039f'
/-- symbol.rs:395 -/
def GREEK_CAPITAL_LETTER_PI : Char := '\u03a0'
/-- symbol.rs:396 -/
def GREEK_CAPITAL_LETTER_RHO : Char := '\u03a1'
/-- symbol.rs:397 -/
def GREEK_CAPITAL_LETTER_SIGMA : Char := '\u03a3'
/-- symbol.rs:398 -/
def GREEK_CAPITAL_LETTER_TAU : Char := '\u03a4'
/-- symbol.rs:399 -/
def GREEK_CAPITAL_LETTER_UPSILON : Char := '\u03a5'
/-- symbol.rs:400 -/
def GREEK_CAPITAL_LETTER_PHI : Char := '\u03a6'
/-- symbol.rs:401 -/
def GREEK_CAPITAL_LETTER_CHI : Char := '\u03a7'
/-- symbol.rs:402 -/
def GREEK_CAPITAL_LETTER_PSI : Char := '\u03a8'
/-- symbol.rs:403 -/
def GREEK_CAPITAL_LETTER_OMEGA : Char := '\u03a9'
/-- symbol.rs:405 -/
def GREEK_SMALL_LETTER_ALPHA : Char := '\u03b1'
/-- symbol.rs:406 -/
def GREEK_SMALL_LETTER_BETA : Char := '\u03b2'
/-- symbol.rs:407 -/
def GREEK_SMALL_LETTER_GAMMA : Char := '\u03b3'
/-- symbol.rs:408 -/
def GREEK_SMALL_LETTER_DELTA : Char := '\u03b4'
/-- symbol.rs:409 -/
def GREEK_SMALL_LETTER_EPSILON : Char := '\u03b5'
/-- symbol.rs:410 -/
def GREEK_SMALL_LETTER_ZETA : Char := '\u03b6'
/-- symbol.rs:411 -/
def GREEK_SMALL_LETTER_ETA : Char := '\u03b7'
/-- symbol.rs:412 -/
def GREEK_SMALL_LETTER_THETA : Char := '\u03b8'
/-- symbol.rs:413 -/
def GREEK_SMALL_LETTER_IOTA : Char := '\u03b9'
/-- symbol.rs:414 -/
def GREEK_SMALL_LETTER_KAPPA : Char := '\u03ba'
/-- symbol.rs:415 -/
def GREEK_SMALL_LETTER_LAMBDA : Char := '\u03bb'
/-- symbol.rs:416 -/
def GREEK_SMALL_LETTER_MU : Char := '\u03bc'
/-- symbol.rs:417 -/
def GREEK_SMALL_LETTER_NU : Char := '\u03bd'
/-- symbol.rs:418 -/
def GREEK_SMALL_LETTER_XI : Char := '\u03be'
/-- symbol.rs:419 -/
def GREEK_SMALL_LETTER_OMICRON : Char := '\u03bf'
/-- symbol.rs:420 -/
def GREEK_SMALL_LETTER_PI : Char := '\u03c0'
/-- symbol.rs:421 -/
def GREEK_SMALL_LETTER_RHO : Char := '\u03c1'
/-- symbol.rs:422 -/
def GREEK_SMALL_LETTER_FINAL_SIGMA : Char := '\u03c2'
/-- symbol.rs:423 -/
def GREEK_SMALL_LETTER_SIGMA : Char := '\u03c3'
/-- symbol.rs:424 -/
def GREEK_SMALL_LETTER_TAU : Char := '\u03c4'
/-- symbol.rs:425 -/
def GREEK_SMALL_LETTER_UPSILON : Char := '\u03c5'
/-- symbol.rs:426 -/
def GREEK_SMALL_LETTER_PHI : Char := '\u03c6'
/-- symbol.rs:427 -/
def GREEK_SMALL_LETTER_CHI : Char := '\u03c7'
/-- symbol.rs:428 -/
def GREEK_SMALL_LETTER_PSI : Char := '\u03c8'
/-- symbol.rs:429 -/
def GREEK_SMALL_LETTER_OMEGA : Char := '\u03c9'
/-- symbol.rs:431 -/
def GREEK_THETA_SYMBOL : Char := '\u03d1'
/-- symbol.rs:434 -/
def GREEK_PHI_SYMBOL : Char := '\u03d5'
/-- symbol.rs:435 -/
def GREEK_PI_SYMBOL : Char := '\u03d6'
/-- symbol.rs:438 -/
def GREEK_SMALL_LETTER_DIGAMMA : Char := '\u03dd'
/-- symbol.rs:440 -/
def GREEK_KAPPA_SYMBOL : Char := '\u03f0'
/-- symbol.rs:441 -/
def GREEK_RHO_SYMBOL : Char := '\u03f1'
/-- symbol.rs:445 -/
def GREEK_LUNATE_EPSILON_SYMBOL : Char := '\u03f5'
/-- symbol.rs:446 -/
def GREEK_REVERSED_LUNATE_EPSILON_SYMBOL : Char := '\u03f6'
/-- symbol.rs:452 -/
def EN_SPACE : Char := '\u2002'
/-- symbol.rs:453 -/
def EM_SPACE : Char := '\u2003'
/-- symbol.rs:454 -/
def THREE_PER_EM_SPACE : Char := '\u2004'
/-- symbol.rs:455 -/
def THIN_SPACE : Char := '\u2009'
/-- symbol.rs:457 -/
def DOUBLE_VERTICAL_LINE : OrdLike := ⟨'\u2016', .FGandForceDefault, false⟩
/-- symbol.rs:460 -/
def LEFT_SINGLE_QUOTATION_MARK : Char := '\u2018'
/-- symbol.rs:461 -/
def RIGHT_SINGLE_QUOTATION_MARK : Char := '\u2019'
/-- symbol.rs:465 -/
def RIGHT_DOUBLE_QUOTATION_MARK : Char := '\u201d'
/-- symbol.rs:469 -/
def DAGGER : MathMLOperator := .fromChar '\u2020'
/-- symbol.rs:470 -/
def DOUBLE_DAGGER : MathMLOperator := .fromChar '\u2021'
/-- symbol.rs:471 -/
def BULLET : MathMLOperator := .fromChar '\u2022'
/-- symbol.rs:472 -/
def HORIZONTAL_ELLIPSIS : Char := '\u2026'
/-- symbol.rs:474 -/
def PRIME : OrdLike := ⟨'\u2032', .E, false⟩
/-- symbol.rs:475 -/
def DOUBLE_PRIME : OrdLike := ⟨'\u2033', .E, false⟩
/-- symbol.rs:476 -/
def TRIPLE_PRIME : OrdLike := ⟨'\u2034', .E, false⟩
/-- symbol.rs:477 -/
def REVERSED_PRIME : OrdLike := ⟨'\u2035', .E, false⟩
/-- symbol.rs:478 -/
def REVERSED_DOUBLE_PRIME : OrdLike := ⟨'\u2036', .E, false⟩
/-- symbol.rs:479 -/
def REVERSED_TRIPLE_PRIME : OrdLike := ⟨'\u2037', .E, false⟩
/-- symbol.rs:490 -/
def OVERLINE : BMPOperator := ⟨'\u203e'⟩
/-- symbol.rs:491 -/
def CHARACTER_TIE : MathMLOperator := .fromChar '\u2040'
/-- symbol.rs:492 -/
def FRACTION_SLASH : Bin := ⟨'\u2044', .B, false⟩
/-- symbol.rs:494 -/
def QUADRUPLE_PRIME : OrdLike := ⟨'\u2057', .E, false⟩
/-- symbol.rs:496 -/
def MEDIUM_MATHEMATICAL_SPACE : Char := '\u205f'
/-- symbol.rs:498 -/
def INVISIBLE_SEPARATOR : OrdLike := ⟨'\u2063', .K, false⟩
/-- symbol.rs:503 -/
def COMBINING_LONG_VERTICAL_LINE_OVERLAY : Char := '\u20d2'
/-- symbol.rs:505 -/
def COMBINING_RIGHT_ARROW_ABOVE : BMPOperator := ⟨'\u20d7'⟩
/-- symbol.rs:507 -/
def COMBINING_THREE_DOTS_ABOVE : BMPOperator := ⟨'\u20db'⟩
/-- symbol.rs:508 -/
def COMBINING_FOUR_DOTS_ABOVE : BMPOperator := ⟨'\u20dc'⟩
/-- symbol.rs:513 -/
def PLANCK_CONSTANT_OVER_TWO_PI : Char := '\u210f'
/-- symbol.rs:515 -/
def BLACK_LETTER_CAPITAL_I : Char := '\u2111'
/-- symbol.rs:517 -/
def SCRIPT_SMALL_L : Char := '\u2113'
/-- symbol.rs:519 -/
def DOUBLE_STRUCK_CAPITAL_C : Char := '\u2102'
/-- symbol.rs:521 -/
def DOUBLE_STRUCK_CAPITAL_N : Char := '\u2115'
/-- symbol.rs:523 -/
def SCRIPT_CAPITAL_P : Char := '\u2118'
/-- symbol.rs:525 -/
def BLACK_LETTER_CAPITAL_R : Char := '\u211c'
/-- symbol.rs:526 -/
def DOUBLE_STRUCK_CAPITAL_R : Char := '\u211d'
/-- symbol.rs:528 -/
def DOUBLE_STRUCK_CAPITAL_Z : Char := '\u2124'
/-- symbol.rs:530 -/
def INVERTED_OHM_SIGN : Char := '\u2127'
/-- symbol.rs:532 -/
def TURNED_CAPITAL_F : Char := '\u2132'
/-- symbol.rs:534 -/
def ALEF_SYMBOL : Char := '\u2135'
/-- symbol.rs:535 -/
def BET_SYMBOL : Char := '\u2136'
/-- symbol.rs:536 -/
def GIMEL_SYMBOL : Char := '\u2137'
/-- symbol.rs:537 -/
def DALET_SYMBOL : Char := '\u2138'
/-- symbol.rs:539 -/
def DOUBLE_STRUCK_N_ARY_SUMMATION : MathMLOperator := .fromChar '\u2140'
/-- symbol.rs:541 -/
def TURNED_SANS_SERIF_CAPITAL_G : Char := '\u2141'
/-- symbol.rs:543 -/
def TURNED_AMPERSAND : MathMLOperator := .fromChar '\u214b'
/-- symbol.rs:548 -/
def LEFTWARDS_ARROW : Rel := ⟨'\u2190', .A, false⟩
/-- symbol.rs:549 -/
def UPWARDS_ARROW : Rel := ⟨'\u2191', .A, false⟩
/-- symbol.rs:550 -/
def RIGHTWARDS_ARROW : Rel := ⟨'\u2192', .A, false⟩
/-- symbol.rs:551 -/
def DOWNWARDS_ARROW : Rel := ⟨'\u2193', .A, false⟩
/-- symbol.rs:552 -/
def LEFT_RIGHT_ARROW : Rel := ⟨'\u2194', .A, false⟩
/-- symbol.rs:553 -/
def UP_DOWN_ARROW : Rel := ⟨'\u2195', .A, false⟩
/-- symbol.rs:554 -/
def NORTH_WEST_ARROW : Rel := ⟨'\u2196', .default, false⟩
/-- symbol.rs:555 -/
def NORTH_EAST_ARROW : Rel := ⟨'\u2197', .default, false⟩
/-- symbol.rs:556 -/
def SOUTH_EAST_ARROW : Rel := ⟨'\u2198', .default, false⟩
/-- symbol.rs:557 -/
def SOUTH_WEST_ARROW : Rel := ⟨'\u2199', .default, false⟩
/-- symbol.rs:558 -/
def LEFTWARDS_ARROW_WITH_STROKE : Rel := ⟨'\u219a', .A, false⟩
/-- symbol.rs:559 -/
def RIGHTWARDS_ARROW_WITH_STROKE : Rel := ⟨'\u219b', .A, false⟩
/-- symbol.rs:560 -/
def LEFTWARDS_WAVE_ARROW : Rel := ⟨'\u219c', .A, false⟩
/-- symbol.rs:561 -/
def RIGHTWARDS_WAVE_ARROW : Rel := ⟨'\u219d', .A, false⟩
/-- symbol.rs:562 -/
def LEFTWARDS_TWO_HEADED_ARROW : Rel := ⟨'\u219e', .A, false⟩
/-- symbol.rs:563 -/
def UPWARDS_TWO_HEADED_ARROW : Rel := ⟨'\u219f', .A, false⟩
/-- symbol.rs:564 -/
def RIGHTWARDS_TWO_HEADED_ARROW : Rel := ⟨'\u21a0', .A, false⟩
/-- symbol.rs:565 -/
def DOWNWARDS_TWO_HEADED_ARROW : Rel := ⟨'\u21a1', .A, false⟩
/-- symbol.rs:566 -/
def LEFTWARDS_ARROW_WITH_TAIL : Rel := ⟨'\u21a2', .A, false⟩
/-- symbol.rs:567 -/
def RIGHTWARDS_ARROW_WITH_TAIL : Rel := ⟨'\u21a3', .A, false⟩
/-- symbol.rs:568 -/
def LEFTWARDS_ARROW_FROM_BAR : Rel := ⟨'\u21a4', .A, false⟩
/-- symbol.rs:569 -/
def UPWARDS_ARROW_FROM_BAR : Rel := ⟨'\u21a5', .A, false⟩
/-- symbol.rs:570 -/
def RIGHTWARDS_ARROW_FROM_BAR : Rel := ⟨'\u21a6', .A, false⟩
/-- symbol.rs:571 -/
def DOWNWARDS_ARROW_FROM_BAR : Rel := ⟨'\u21a7', .A, false⟩
/-- symbol.rs:573 -/
def LEFTWARDS_ARROW_WITH_HOOK : Rel := ⟨'\u21a9', .A, false⟩
/-- symbol.rs:574 -/
def RIGHTWARDS_ARROW_WITH_HOOK : Rel := ⟨'\u21aa', .A, false⟩
/-- symbol.rs:575 -/
def LEFTWARDS_ARROW_WITH_LOOP : Rel := ⟨'\u21ab', .A, false⟩
/-- symbol.rs:576 -/
def RIGHTWARDS_ARROW_WITH_LOOP : Rel := ⟨'\u21ac', .A, false⟩
/-- symbol.rs:577 -/
def LEFT_RIGHT_WAVE_ARROW : Rel := ⟨'\u21ad', .A, false⟩
/-- symbol.rs:578 -/
def LEFT_RIGHT_ARROW_WITH_STROKE : Rel := ⟨'\u21ae', .A, false⟩
/-- symbol.rs:579 -/
def DOWNWARDS_ZIGZAG_ARROW : Rel := ⟨'\u21af', .default, false⟩
/-- symbol.rs:580 -/
def UPWARDS_ARROW_WITH_TIP_LEFTWARDS : Rel := ⟨'\u21b0', .A, false⟩
/-- symbol.rs:581 -/
def UPWARDS_ARROW_WITH_TIP_RIGHTWARDS : Rel := ⟨'\u21b1', .A, false⟩
/-- symbol.rs:582 -/
def DOWNWARDS_ARROW_WITH_TIP_LEFTWARDS : Rel := ⟨'\u21b2', .A, false⟩
/-- symbol.rs:583 -/
def DOWNWARDS_ARROW_WITH_TIP_RIGHTWARDS : Rel := ⟨'\u21b3', .A, false⟩
/-- symbol.rs:586 -/
def ANTICLOCKWISE_TOP_SEMICIRCLE_ARROW : Rel := ⟨'\u21b6', .default, false⟩
/-- symbol.rs:587 -/
def CLOCKWISE_TOP_SEMICIRCLE_ARROW : Rel := ⟨'\u21b7', .default, false⟩
/-- symbol.rs:590 -/
def ANTICLOCKWISE_OPEN_CIRCLE_ARROW : Rel := ⟨'\u21ba', .default, false⟩
/-- symbol.rs:591 -/
def CLOCKWISE_OPEN_CIRCLE_ARROW : Rel := ⟨'\u21bb', .default, false⟩
/-- symbol.rs:592 -/
def LEFTWARDS_HARPOON_WITH_BARB_UPWARDS : Rel := ⟨'\u21bc', .A, false⟩
/-- symbol.rs:593 -/
def LEFTWARDS_HARPOON_WITH_BARB_DOWNWARDS : Rel := ⟨'\u21bd', .A, false⟩
/-- symbol.rs:594 -/
def UPWARDS_HARPOON_WITH_BARB_RIGHTWARDS : Rel := ⟨'\u21be', .A, false⟩
/-- symbol.rs:595 -/
def UPWARDS_HARPOON_WITH_BARB_LEFTWARDS : Rel := ⟨'\u21bf', .A, false⟩
/-- symbol.rs:596 -/
def RIGHTWARDS_HARPOON_WITH_BARB_UPWARDS : Rel := ⟨'\u21c0', .A, false⟩
/-- symbol.rs:597 -/
def RIGHTWARDS_HARPOON_WITH_BARB_DOWNWARDS : Rel := ⟨'\u21c1', .A, false⟩
/-- symbol.rs:598 -/
def DOWNWARDS_HARPOON_WITH_BARB_RIGHTWARDS : Rel := ⟨'\u21c2', .A, false⟩
/-- symbol.rs:599 -/
def DOWNWARDS_HARPOON_WITH_BARB_LEFTWARDS : Rel := ⟨'\u21c3', .A, false⟩
/-- symbol.rs:600 -/
def RIGHTWARDS_ARROW_OVER_LEFTWARDS_ARROW : Rel := ⟨'\u21c4', .A, false⟩
/-- symbol.rs:601 -/
def UPWARDS_ARROW_LEFTWARDS_OF_DOWNWARDS_ARROW : Rel := ⟨'\u21c5', .A, false⟩
/-- symbol.rs:602 -/
def LEFTWARDS_ARROW_OVER_RIGHTWARDS_ARROW : Rel := ⟨'\u21c6', .A, false⟩
/-- symbol.rs:603 -/
def LEFTWARDS_PAIRED_ARROWS : Rel := ⟨'\u21c7', .A, false⟩
/-- symbol.rs:604 -/
def UPWARDS_PAIRED_ARROWS : Rel := ⟨'\u21c8', .A, false⟩
/-- symbol.rs:605 -/
def RIGHTWARDS_PAIRED_ARROWS : Rel := ⟨'\u21c9', .A, false⟩
/-- symbol.rs:606 -/
def DOWNWARDS_PAIRED_ARROWS : Rel := ⟨'\u21ca', .A, false⟩
/-- symbol.rs:607 -/
def LEFTWARDS_HARPOON_OVER_RIGHTWARDS_HARPOON : Rel := ⟨'\u21cb', .A, false⟩
/-- symbol.rs:608 -/
def RIGHTWARDS_HARPOON_OVER_LEFTWARDS_HARPOON : Rel := ⟨'\u21cc', .A, false⟩
/-- symbol.rs:609 -/
def LEFTWARDS_DOUBLE_ARROW_WITH_STROKE : Rel := ⟨'\u21cd', .A, false⟩
/-- symbol.rs:610 -/
def LEFT_RIGHT_DOUBLE_ARROW_WITH_STROKE : Rel := ⟨'\u21ce', .A, false⟩
/-- symbol.rs:611 -/
def RIGHTWARDS_DOUBLE_ARROW_WITH_STROKE : Rel := ⟨'\u21cf', .A, false⟩
/-- symbol.rs:612 -/
def LEFTWARDS_DOUBLE_ARROW : Rel := ⟨'\u21d0', .A, false⟩
/-- symbol.rs:613 -/
def UPWARDS_DOUBLE_ARROW : Rel := ⟨'\u21d1', .A, false⟩
/-- symbol.rs:614 -/
def RIGHTWARDS_DOUBLE_ARROW : Rel := ⟨'\u21d2', .A, false⟩
/-- symbol.rs:615 -/
def DOWNWARDS_DOUBLE_ARROW : Rel := ⟨'\u21d3', .A, false⟩
/-- symbol.rs:616 -/
def LEFT_RIGHT_DOUBLE_ARROW : Rel := ⟨'\u21d4', .A, false⟩
/-- symbol.rs:617 -/
def UP_DOWN_DOUBLE_ARROW : Rel := ⟨'\u21d5', .A, false⟩
/-- symbol.rs:618 -/
def NORTH_WEST_DOUBLE_ARROW : Rel := ⟨'\u21d6', .default, false⟩
/-- symbol.rs:619 -/
def NORTH_EAST_DOUBLE_ARROW : Rel := ⟨'\u21d7', .default, false⟩
/-- symbol.rs:620 -/
def SOUTH_EAST_DOUBLE_ARROW : Rel := ⟨'\u21d8', .default, false⟩
/-- symbol.rs:621 -/
def SOUTH_WEST_DOUBLE_ARROW : Rel := ⟨'\u21d9', .default, false⟩
/-- symbol.rs:622 -/
def LEFTWARDS_TRIPLE_ARROW : Rel := ⟨'\u21da', .A, false⟩
/-- symbol.rs:623 -/
def RIGHTWARDS_TRIPLE_ARROW : Rel := ⟨'\u21db', .A, false⟩
/-- symbol.rs:624 -/
def LEFTWARDS_SQUIGGLE_ARROW : Rel := ⟨'\u21dc', .A, false⟩
/-- symbol.rs:625 -/
def RIGHTWARDS_SQUIGGLE_ARROW : Rel := ⟨'\u21dd', .A, false⟩
/-- symbol.rs:628 -/
def LEFTWARDS_DASHED_ARROW : Rel := ⟨'\u21e0', .A, false⟩
/-- symbol.rs:630 -/
def RIGHTWARDS_DASHED_ARROW : Rel := ⟨'\u21e2', .A, false⟩
/-- symbol.rs:632 -/
def LEFTWARDS_ARROW_TO_BAR : Rel := ⟨'\u21e4', .A, false⟩
/-- symbol.rs:633 -/
def RIGHTWARDS_ARROW_TO_BAR : Rel := ⟨'\u21e5', .A, false⟩
/-- symbol.rs:648 -/
def RIGHT_ARROW_WITH_SMALL_CIRCLE : Rel := ⟨'\u21f4', .A, false⟩
/-- symbol.rs:649 -/
def DOWNWARDS_ARROW_LEFTWARDS_OF_UPWARDS_ARROW : Rel := ⟨'\u21f5', .A, false⟩
/-- symbol.rs:650 -/
def THREE_RIGHTWARDS_ARROWS : Rel := ⟨'\u21f6', .A, false⟩
/-- symbol.rs:651 -/
def LEFTWARDS_ARROW_WITH_VERTICAL_STROKE : Rel := ⟨'\u21f7', .A, false⟩
/-- symbol.rs:652 -/
def RIGHTWARDS_ARROW_WITH_VERTICAL_STROKE : Rel := ⟨'\u21f8', .A, false⟩
/-- symbol.rs:653 -/
def LEFT_RIGHT_ARROW_WITH_VERTICAL_STROKE : Rel := ⟨'\u21f9', .A, false⟩
/-- symbol.rs:654 -/
def LEFTWARDS_ARROW_WITH_DOUBLE_VERTICAL_STROKE : Rel := ⟨'\u21fa', .A, false⟩
/-- symbol.rs:655 -/
def RIGHTWARDS_ARROW_WITH_DOUBLE_VERTICAL_STROKE : Rel := ⟨'\u21fb', .A, false⟩
/-- symbol.rs:656 -/
def LEFT_RIGHT_ARROW_WITH_DOUBLE_VERTICAL_STROKE : Rel := ⟨'\u21fc', .A, false⟩
/-- symbol.rs:657 -/
def LEFTWARDS_OPEN_HEADED_ARROW : Rel := ⟨'\u21fd', .A, false⟩
/-- symbol.rs:658 -/
def RIGHTWARDS_OPEN_HEADED_ARROW : Rel := ⟨'\u21fe', .A, false⟩
/-- symbol.rs:659 -/
def LEFT_RIGHT_OPEN_HEADED_ARROW : Rel := ⟨'\u21ff', .A, false⟩
/-- symbol.rs:664 -/
def FOR_ALL : OrdLike := ⟨'\u2200', .D, false⟩
/-- symbol.rs:665 -/
def COMPLEMENT : OrdLike := ⟨'\u2201', .D, false⟩
/-- symbol.rs:666 -/
def PARTIAL_DIFFERENTIAL : Char := '\u2202'
/-- symbol.rs:667 -/
def THERE_EXISTS : OrdLike := ⟨'\u2203', .D, false⟩
/-- symbol.rs:668 -/
def THERE_DOES_NOT_EXIST : OrdLike := ⟨'\u2204', .D, false⟩
/-- symbol.rs:669 -/
def EMPTY_SET : Char := '\u2205'
/-- symbol.rs:670 -/
def EMPTY_SET_ZERO_WITH_LONG_DIAGONAL_STROKE_OVERLAY_FORM : SuperChar := SuperChar.fromCharWithVs EMPTY_SET 0
/-- symbol.rs:674 -/
def NABLA : Char := '\u2207'
/-- symbol.rs:675 -/
def ELEMENT_OF : Rel := ⟨'\u2208', .default, false⟩
/-- symbol.rs:676 -/
def NOT_AN_ELEMENT_OF : Rel := ⟨'\u2209', .default, false⟩
/-- symbol.rs:677 -/
def SMALL_ELEMENT_OF : Rel := ⟨'\u220a', .default, false⟩
/-- symbol.rs:678 -/
def CONTAINS_AS_MEMBER : Rel := ⟨'\u220b', .default, false⟩
/-- symbol.rs:679 -/
def DOES_NOT_CONTAIN_AS_MEMBER : Rel := ⟨'\u220c', .default, false⟩
/-- symbol.rs:680 -/
def SMALL_CONTAINS_AS_MEMBER : Rel := ⟨'\u220d', .default, false⟩
/-- symbol.rs:682 -/
def N_ARY_PRODUCT : Op := ⟨'\u220f', .J, false⟩
/-- symbol.rs:683 -/
def N_ARY_COPRODUCT : Op := ⟨'\u2210', .J, false⟩
/-- symbol.rs:684 -/
def N_ARY_SUMMATION : Op := ⟨'\u2211', .J, false⟩
/-- symbol.rs:685 -/
def MINUS_SIGN : Bin := ⟨'\u2212', .BD, false⟩
/-- symbol.rs:686 -/
def MINUS_OR_PLUS_SIGN : Bin := ⟨'\u2213', .BD, false⟩
/-- symbol.rs:687 -/
def DOT_PLUS : Bin := ⟨'\u2214', .B, false⟩
/-- symbol.rs:688 -/
def DIVISION_SLASH : Bin := ⟨'\u2215', .B, false⟩
/-- symbol.rs:689 -/
def SET_MINUS : Bin := ⟨'\u2216', .B, false⟩
/-- symbol.rs:690 -/
def ASTERISK_OPERATOR : Op := ⟨'\u2217', .C, false⟩
/-- symbol.rs:691 -/
def RING_OPERATOR : Op := ⟨'\u2218', .C, false⟩
/-- symbol.rs:692 -/
def BULLET_OPERATOR : Op := ⟨'\u2219', .C, false⟩
/-- symbol.rs:696 -/
def PROPORTIONAL_TO : Rel := ⟨'\u221d', .default, false⟩
/-- symbol.rs:697 -/
def INFINITY : Char := '\u221e'
/-- symbol.rs:699 -/
def ANGLE : Char := '\u2220'
/-- symbol.rs:700 -/
def MEASURED_ANGLE : Char := '\u2221'
/-- symbol.rs:701 -/
def SPHERICAL_ANGLE : Char := '\u2222'
/-- symbol.rs:702 -/
def DIVIDES : Rel := ⟨'\u2223', .default, false⟩
/-- symbol.rs:703 -/
def DOES_NOT_DIVIDE : Rel := ⟨'\u2224', .default, false⟩
/-- symbol.rs:704 -/
def PARALLEL_TO : Rel := ⟨'\u2225', .default, false⟩
/-- symbol.rs:705 -/
def NOT_PARALLEL_TO : Rel := ⟨'\u2226', .default, false⟩
/-- symbol.rs:706 -/
def LOGICAL_AND : Bin := ⟨'\u2227', .B, false⟩
/-- symbol.rs:707 -/
def LOGICAL_OR : Bin := ⟨'\u2228', .B, false⟩
/-- symbol.rs:708 -/
def INTERSECTION : Bin := ⟨'\u2229', .B, false⟩
/-- symbol.rs:709 -/
def UNION : Bin := ⟨'\u222a', .B, false⟩
/-- symbol.rs:710 -/
def INTEGRAL : Op := ⟨'\u222b', .H, false⟩
/-- symbol.rs:711 -/
def DOUBLE_INTEGRAL : Op := ⟨'\u222c', .H, false⟩
/-- symbol.rs:712 -/
def TRIPLE_INTEGRAL : Op := ⟨'\u222d', .H, false⟩
/-- symbol.rs:713 -/
def CONTOUR_INTEGRAL : Op := ⟨'\u222e', .H, false⟩
/-- symbol.rs:714 -/
def SURFACE_INTEGRAL : Op := ⟨'\u222f', .H, false⟩
/-- symbol.rs:715 -/
def VOLUME_INTEGRAL : Op := ⟨'\u2230', .H, false⟩
/-- symbol.rs:716 -/
def CLOCKWISE_INTEGRAL : Op := ⟨'\u2231', .H, false⟩
/-- symbol.rs:717 -/
def CLOCKWISE_CONTOUR_INTEGRAL : Op := ⟨'\u2232', .H, false⟩
/-- symbol.rs:718 -/
def ANTICLOCKWISE_CONTOUR_INTEGRAL : Op := ⟨'\u2233', .H, false⟩
/-- symbol.rs:719 -/
def THEREFORE : OrdLike := ⟨'\u2234', .D, false⟩
/-- symbol.rs:720 -/
def BECAUSE : OrdLike := ⟨'\u2235', .D, false⟩
/-- symbol.rs:721 -/
def RATIO : Bin := ⟨'\u2236', .B, false⟩
/-- symbol.rs:722 -/
def PROPORTION : Rel := ⟨'\u2237', .default, false⟩
/-- symbol.rs:723 -/
def DOT_MINUS : Bin := ⟨'\u2238', .B, false⟩
/-- symbol.rs:724 -/
def EXCESS : Rel := ⟨'\u2239', .default, false⟩
/-- symbol.rs:725 -/
def GEOMETRIC_PROPORTION : Rel := ⟨'\u223a', .default, false⟩
/-- symbol.rs:726 -/
def HOMOTHETIC : Rel := ⟨'\u223b', .default, false⟩
/-- symbol.rs:727 -/
def TILDE_OPERATOR : Rel := ⟨'\u223c', .DandForceDefault, false⟩
/-- symbol.rs:728 -/
def REVERSED_TILDE : Rel := ⟨'\u223d', .default, false⟩
/-- symbol.rs:729 -/
def INVERTED_LAZY_S : MathMLOperator := .fromChar '\u223e'
/-- symbol.rs:731 -/
def WREATH_PRODUCT : Op := ⟨'\u2240', .C, false⟩
/-- symbol.rs:732 -/
def NOT_TILDE : Rel := ⟨'\u2241', .default, false⟩
/-- symbol.rs:733 -/
def MINUS_TILDE : Rel := ⟨'\u2242', .default, false⟩
/-- symbol.rs:734 -/
def ASYMPTOTICALLY_EQUAL_TO : Rel := ⟨'\u2243', .default, false⟩
/-- symbol.rs:735 -/
def NOT_ASYMPTOTICALLY_EQUAL_TO : Rel := ⟨'\u2244', .default, false⟩
/-- symbol.rs:736 -/
def APPROXIMATELY_EQUAL_TO : Rel := ⟨'\u2245', .default, false⟩
/-- symbol.rs:737 -/
def APPROXIMATELY_BUT_NOT_ACTUALLY_EQUAL_TO : Rel := ⟨'\u2246', .default, false⟩
/-- symbol.rs:738 -/
def NEITHER_APPROXIMATELY_NOR_ACTUALLY_EQUAL_TO : Rel := ⟨'\u2247', .default, false⟩
/-- symbol.rs:739 -/
def ALMOST_EQUAL_TO : Rel := ⟨'\u2248', .default, false⟩
/-- symbol.rs:740 -/
def NOT_ALMOST_EQUAL_TO : Rel := ⟨'\u2249', .default, false⟩
/-- symbol.rs:741 -/
def ALMOST_EQUAL_OR_EQUAL_TO : Rel := ⟨'\u224a', .default, false⟩
/-- symbol.rs:742 -/
def TRIPLE_TILDE : Rel := ⟨'\u224b', .default, false⟩
/-- symbol.rs:743 -/
def ALL_EQUAL_TO : Rel := ⟨'\u224c', .default, false⟩
/-- symbol.rs:744 -/
def EQUIVALENT_TO : Rel := ⟨'\u224d', .default, false⟩
/-- symbol.rs:745 -/
def GEOMETRICALLY_EQUIVALENT_TO : Rel := ⟨'\u224e', .default, false⟩
/-- symbol.rs:746 -/
def DIFFERENCE_BETWEEN : Rel := ⟨'\u224f', .default, false⟩
/-- symbol.rs:747 -/
def APPROACHES_THE_LIMIT : Rel := ⟨'\u2250', .default, false⟩
/-- symbol.rs:748 -/
def GEOMETRICALLY_EQUAL_TO : Rel := ⟨'\u2251', .default, false⟩
/-- symbol.rs:749 -/
def APPROXIMATELY_EQUAL_TO_OR_THE_IMAGE_OF : Rel := ⟨'\u2252', .default, false⟩
/-- symbol.rs:750 -/
def IMAGE_OF_OR_APPROXIMATELY_EQUAL_TO : Rel := ⟨'\u2253', .default, false⟩
/-- symbol.rs:751 -/
def COLON_EQUALS : Rel := ⟨'\u2254', .default, false⟩
/-- symbol.rs:752 -/
def EQUALS_COLON : Rel := ⟨'\u2255', .default, false⟩
/-- symbol.rs:753 -/
def RING_IN_EQUAL_TO : Rel := ⟨'\u2256', .default, false⟩
/-- symbol.rs:754 -/
def RING_EQUAL_TO : Rel := ⟨'\u2257', .default, false⟩
/-- symbol.rs:755 -/
def CORRESPONDS_TO : Rel := ⟨'\u2258', .default, false⟩
/-- symbol.rs:756 -/
def ESTIMATES : Rel := ⟨'\u2259', .default, false⟩
/-- symbol.rs:757 -/
def EQUIANGULAR_TO : Rel := ⟨'\u225a', .default, false⟩
/-- symbol.rs:758 -/
def STAR_EQUALS : Rel := ⟨'\u225b', .default, false⟩
/-- symbol.rs:759 -/
def DELTA_EQUAL_TO : Rel := ⟨'\u225c', .default, false⟩
/-- symbol.rs:760 -/
def EQUAL_TO_BY_DEFINITION : Rel := ⟨'\u225d', .default, false⟩
/-- symbol.rs:761 -/
def MEASURED_BY : Rel := ⟨'\u225e', .default, false⟩
/-- symbol.rs:762 -/
def QUESTIONED_EQUAL_TO : Rel := ⟨'\u225f', .default, false⟩
/-- symbol.rs:763 -/
def NOT_EQUAL_TO : Rel := ⟨'\u2260', .default, false⟩
/-- symbol.rs:764 -/
def IDENTICAL_TO : Rel := ⟨'\u2261', .default, false⟩
/-- symbol.rs:765 -/
def NOT_IDENTICAL_TO : Rel := ⟨'\u2262', .default, false⟩
/-- symbol.rs:766 -/
def STRICTLY_EQUIVALENT_TO : Rel := ⟨'\u2263', .default, false⟩
/-- symbol.rs:767 -/
def LESS_THAN_OR_EQUAL_TO : Rel := ⟨'\u2264', .default, false⟩
/-- symbol.rs:768 -/
def GREATER_THAN_OR_EQUAL_TO : Rel := ⟨'\u2265', .default, false⟩
/-- symbol.rs:769 -/
def LESS_THAN_OVER_EQUAL_TO : Rel := ⟨'\u2266', .default, false⟩
/-- symbol.rs:770 -/
def GREATER_THAN_OVER_EQUAL_TO : Rel := ⟨'\u2267', .default, false⟩
/-- symbol.rs:771 -/
def LESS_THAN_BUT_NOT_EQUAL_TO : Rel := ⟨'\u2268', .default, false⟩
/-- symbol.rs:772 -/
def LESS_THAN_BUT_NOT_EQUAL_TO_WITH_VERTICAL_STROKE : Rel := ⟨'\u2268', .default, true⟩
/-- symbol.rs:774 -/
def GREATER_THAN_BUT_NOT_EQUAL_TO : Rel := ⟨'\u2269', .default, false⟩
/-- symbol.rs:775 -/
def GREATER_THAN_BUT_NOT_EQUAL_TO_WITH_VERTICAL_STROKE : Rel := ⟨'\u2269', .default, true⟩
/-- symbol.rs:777 -/
def MUCH_LESS_THAN : Rel := ⟨'\u226a', .default, false⟩
/-- symbol.rs:778 -/
def MUCH_GREATER_THAN : Rel := ⟨'\u226b', .default, false⟩
/-- symbol.rs:779 -/
def BETWEEN : Rel := ⟨'\u226c', .default, false⟩
/-- symbol.rs:780 -/
def NOT_EQUIVALENT_TO : Rel := ⟨'\u226d', .default, false⟩
/-- symbol.rs:781 -/
def NOT_LESS_THAN : Rel := ⟨'\u226e', .default, false⟩
/-- symbol.rs:782 -/
def NOT_GREATER_THAN : Rel := ⟨'\u226f', .default, false⟩
/-- symbol.rs:783 -/
def NEITHER_LESS_THAN_NOR_EQUAL_TO : Rel := ⟨'\u2270', .default, false⟩
/-- symbol.rs:784 -/
def NEITHER_GREATER_THAN_NOR_EQUAL_TO : Rel := ⟨'\u2271', .default, false⟩
/-- symbol.rs:785 -/
def LESS_THAN_OR_EQUIVALENT_TO : Rel := ⟨'\u2272', .default, false⟩
/-- symbol.rs:786 -/
def GREATER_THAN_OR_EQUIVALENT_TO : Rel := ⟨'\u2273', .default, false⟩
/-- symbol.rs:787 -/
def NEITHER_LESS_THAN_NOR_EQUIVALENT_TO : Rel := ⟨'\u2274', .default, false⟩
/-- symbol.rs:788 -/
def NEITHER_GREATER_THAN_NOR_EQUIVALENT_TO : Rel := ⟨'\u2275', .default, false⟩
/-- symbol.rs:789 -/
def LESS_THAN_OR_GREATER_THAN : Rel := ⟨'\u2276', .default, false⟩
/-- symbol.rs:790 -/
def GREATER_THAN_OR_LESS_THAN : Rel := ⟨'\u2277', .default, false⟩
/-- symbol.rs:791 -/
def NEITHER_LESS_THAN_NOR_GREATER_THAN : Rel := ⟨'\u2278', .default, false⟩
/-- symbol.rs:792 -/
def NEITHER_GREATER_THAN_NOR_LESS_THAN : Rel := ⟨'\u2279', .default, false⟩
/-- symbol.rs:793 -/
def PRECEDES : Rel := ⟨'\u227a', .default, false⟩
/-- symbol.rs:794 -/
def SUCCEEDS : Rel := ⟨'\u227b', .default, false⟩
/-- symbol.rs:795 -/
def PRECEDES_OR_EQUAL_TO : Rel := ⟨'\u227c', .default, false⟩
/-- symbol.rs:796 -/
def SUCCEEDS_OR_EQUAL_TO : Rel := ⟨'\u227d', .default, false⟩
/-- symbol.rs:797 -/
def PRECEDES_OR_EQUIVALENT_TO : Rel := ⟨'\u227e', .default, false⟩
/-- symbol.rs:798 -/
def SUCCEEDS_OR_EQUIVALENT_TO : Rel := ⟨'\u227f', .default, false⟩
/-- symbol.rs:799 -/
def DOES_NOT_PRECEDE : Rel := ⟨'\u2280', .default, false⟩
/-- symbol.rs:800 -/
def DOES_NOT_SUCCEED : Rel := ⟨'\u2281', .default, false⟩
/-- symbol.rs:801 -/
def SUBSET_OF : Rel := ⟨'\u2282', .default, false⟩
/-- symbol.rs:802 -/
def SUPERSET_OF : Rel := ⟨'\u2283', .default, false⟩
/-- symbol.rs:803 -/
def NOT_A_SUBSET_OF : Rel := ⟨'\u2284', .default, false⟩
/-- symbol.rs:804 -/
def NOT_A_SUPERSET_OF : Rel := ⟨'\u2285', .default, false⟩
/-- symbol.rs:805 -/
def SUBSET_OF_OR_EQUAL_TO : Rel := ⟨'\u2286', .default, false⟩
/-- symbol.rs:806 -/
def SUPERSET_OF_OR_EQUAL_TO : Rel := ⟨'\u2287', .default, false⟩
/-- symbol.rs:807 -/
def NEITHER_A_SUBSET_OF_NOR_EQUAL_TO : Rel := ⟨'\u2288', .default, false⟩
/-- symbol.rs:808 -/
def NEITHER_A_SUPERSET_OF_NOR_EQUAL_TO : Rel := ⟨'\u2289', .default, false⟩
/-- symbol.rs:809 -/
def SUBSET_OF_WITH_NOT_EQUAL_TO : Rel := ⟨'\u228a', .default, false⟩
/-- symbol.rs:810 -/
def SUBSET_OF_WITH_NOT_EQUAL_TO_WITH_STROKE_THROUGH_BOTTOM_MEMBERS : Rel := ⟨'\u228a', .default, true⟩
/-- symbol.rs:813 -/
def SUPERSET_OF_WITH_NOT_EQUAL_TO : Rel := ⟨'\u228b', .default, false⟩
/-- symbol.rs:814 -/
def SUPERSET_OF_WITH_NOT_EQUAL_TO_WITH_STROKE_THROUGH_BOTTOM_MEMBERS : Rel := ⟨'\u228b', .default, true⟩
/-- symbol.rs:816 -/
def MULTISET : Bin := ⟨'\u228c', .B, false⟩
/-- symbol.rs:817 -/
def MULTISET_MULTIPLICATION : Bin := ⟨'\u228d', .B, false⟩
/-- symbol.rs:818 -/
def MULTISET_UNION : Bin := ⟨'\u228e', .B, false⟩
/-- symbol.rs:819 -/
def SQUARE_IMAGE_OF : Rel := ⟨'\u228f', .default, false⟩
/-- symbol.rs:820 -/
def SQUARE_ORIGINAL_OF : Rel := ⟨'\u2290', .default, false⟩
/-- symbol.rs:821 -/
def SQUARE_IMAGE_OF_OR_EQUAL_TO : Rel := ⟨'\u2291', .default, false⟩
/-- symbol.rs:822 -/
def SQUARE_ORIGINAL_OF_OR_EQUAL_TO : Rel := ⟨'\u2292', .default, false⟩
/-- symbol.rs:823 -/
def SQUARE_CAP : Bin := ⟨'\u2293', .B, false⟩
/-- symbol.rs:824 -/
def SQUARE_CUP : Bin := ⟨'\u2294', .B, false⟩
/-- symbol.rs:825 -/
def CIRCLED_PLUS : Bin := ⟨'\u2295', .B, false⟩
/-- symbol.rs:826 -/
def CIRCLED_MINUS : Bin := ⟨'\u2296', .B, false⟩
/-- symbol.rs:827 -/
def CIRCLED_TIMES : Op := ⟨'\u2297', .C, false⟩
/-- symbol.rs:828 -/
def CIRCLED_DIVISION_SLASH : Bin := ⟨'\u2298', .B, false⟩
/-- symbol.rs:829 -/
def CIRCLED_DOT_OPERATOR : Op := ⟨'\u2299', .C, false⟩
/-- symbol.rs:830 -/
def CIRCLED_RING_OPERATOR : Op := ⟨'\u229a', .C, false⟩
/-- symbol.rs:831 -/
def CIRCLED_ASTERISK_OPERATOR : Op := ⟨'\u229b', .C, false⟩
/-- symbol.rs:832 -/
def CIRCLED_EQUALS : Rel := ⟨'\u229c', .default, false⟩
/-- symbol.rs:833 -/
def CIRCLED_DASH : Bin := ⟨'\u229d', .B, false⟩
/-- symbol.rs:834 -/
def SQUARED_PLUS : Bin := ⟨'\u229e', .B, false⟩
/-- symbol.rs:835 -/
def SQUARED_MINUS : Bin := ⟨'\u229f', .B, false⟩
/-- symbol.rs:836 -/
def SQUARED_TIMES : Op := ⟨'\u22a0', .C, false⟩
/-- symbol.rs:837 -/
def SQUARED_DOT_OPERATOR : Op := ⟨'\u22a1', .C, false⟩
/-- symbol.rs:838 -/
def RIGHT_TACK : Rel := ⟨'\u22a2', .default, false⟩
/-- symbol.rs:839 -/
def LEFT_TACK : Rel := ⟨'\u22a3', .default, false⟩
/-- symbol.rs:840 -/
def DOWN_TACK : Char := '\u22a4'
/-- symbol.rs:841 -/
def UP_TACK : Char := '\u22a5'
/-- symbol.rs:842 -/
def ASSERTION : Rel := ⟨'\u22a6', .default, false⟩
/-- symbol.rs:843 -/
def MODELS : Rel := ⟨'\u22a7', .default, false⟩
/-- symbol.rs:844 -/
def TRUE : Rel := ⟨'\u22a8', .default, false⟩
/-- symbol.rs:845 -/
def FORCES : Rel := ⟨'\u22a9', .default, false⟩
/-- symbol.rs:846 -/
def TRIPLE_VERTICAL_BAR_RIGHT_TURNSTILE : Rel := ⟨'\u22aa', .default, false⟩
/-- symbol.rs:847 -/
def DOUBLE_VERTICAL_BAR_DOUBLE_RIGHT_TURNSTILE : Rel := ⟨'\u22ab', .default, false⟩
/-- symbol.rs:848 -/
def DOES_NOT_PROVE : Rel := ⟨'\u22ac', .default, false⟩
/-- symbol.rs:849 -/
def NOT_TRUE : Rel := ⟨'\u22ad', .default, false⟩
/-- symbol.rs:850 -/
def DOES_NOT_FORCE : Rel := ⟨'\u22ae', .default, false⟩
/-- symbol.rs:851 -/
def NEGATED_DOUBLE_VERTICAL_BAR_DOUBLE_RIGHT_TURNSTILE : Rel := ⟨'\u22af', .default, false⟩
/-- symbol.rs:853 -/
def PRECEDES_UNDER_RELATION : Rel := ⟨'\u22b0', .default, false⟩
/-- symbol.rs:854 -/
def SUCCEEDS_UNDER_RELATION : Rel := ⟨'\u22b1', .default, false⟩
/-- symbol.rs:855 -/
def NORMAL_SUBGROUP_OF : Rel := ⟨'\u22b2', .default, false⟩
/-- symbol.rs:856 -/
def CONTAINS_AS_NORMAL_SUBGROUP : Rel := ⟨'\u22b3', .default, false⟩
/-- symbol.rs:857 -/
def NORMAL_SUBGROUP_OF_OR_EQUAL_TO : Rel := ⟨'\u22b4', .default, false⟩
/-- symbol.rs:858 -/
def CONTAINS_AS_NORMAL_SUBGROUP_OR_EQUAL_TO : Rel := ⟨'\u22b5', .default, false⟩
/-- symbol.rs:859 -/
def ORIGINAL_OF : Rel := ⟨'\u22b6', .default, false⟩
/-- symbol.rs:860 -/
def IMAGE_OF : Rel := ⟨'\u22b7', .default, false⟩
/-- symbol.rs:861 -/
def MULTIMAP : Rel := ⟨'\u22b8', .default, false⟩
/-- symbol.rs:863 -/
def INTERCALATE : Op := ⟨'\u22ba', .C, false⟩
/-- symbol.rs:864 -/
def XOR : Bin := ⟨'\u22bb', .B, false⟩
/-- symbol.rs:865 -/
def NAND : Bin := ⟨'\u22bc', .B, false⟩
/-- symbol.rs:866 -/
def NOR : Bin := ⟨'\u22bd', .B, false⟩
/-- symbol.rs:869 -/
def N_ARY_LOGICAL_AND : Op := ⟨'\u22c0', .J, false⟩
/-- symbol.rs:870 -/
def N_ARY_LOGICAL_OR : Op := ⟨'\u22c1', .J, false⟩
/-- symbol.rs:871 -/
def N_ARY_INTERSECTION : Op := ⟨'\u22c2', .J, false⟩
/-- symbol.rs:872 -/
def N_ARY_UNION : Op := ⟨'\u22c3', .J, false⟩
/-- symbol.rs:873 -/
def DIAMOND_OPERATOR : Op := ⟨'\u22c4', .C, false⟩
/-- symbol.rs:874 -/
def DOT_OPERATOR : Op := ⟨'\u22c5', .C, false⟩
/-- symbol.rs:875 -/
def STAR_OPERATOR : Op := ⟨'\u22c6', .C, false⟩
/-- symbol.rs:876 -/
def DIVISION_TIMES : Op := ⟨'\u22c7', .C, false⟩
/-- symbol.rs:877 -/
def BOWTIE : Rel := ⟨'\u22c8', .default, false⟩
/-- symbol.rs:878 -/
def LEFT_NORMAL_FACTOR_SEMIDIRECT_PRODUCT : Op := ⟨'\u22c9', .C, false⟩
/-- symbol.rs:879 -/
def RIGHT_NORMAL_FACTOR_SEMIDIRECT_PRODUCT : Op := ⟨'\u22ca', .C, false⟩
/-- symbol.rs:880 -/
def LEFT_SEMIDIRECT_PRODUCT : Op := ⟨'\u22cb', .C, false⟩
/-- symbol.rs:881 -/
def RIGHT_SEMIDIRECT_PRODUCT : Op := ⟨'\u22cc', .C, false⟩
/-- symbol.rs:882 -/
def REVERSED_TILDE_EQUALS : Rel := ⟨'\u22cd', .default, false⟩
/-- symbol.rs:883 -/
def CURLY_LOGICAL_OR : Bin := ⟨'\u22ce', .B, false⟩
/-- symbol.rs:884 -/
def CURLY_LOGICAL_AND : Bin := ⟨'\u22cf', .B, false⟩
/-- symbol.rs:885 -/
def DOUBLE_SUBSET : Rel := ⟨'\u22d0', .default, false⟩
/-- symbol.rs:886 -/
def DOUBLE_SUPERSET : Rel := ⟨'\u22d1', .default, false⟩
/-- symbol.rs:887 -/
def DOUBLE_INTERSECTION : Bin := ⟨'\u22d2', .B, false⟩
/-- symbol.rs:888 -/
def DOUBLE_UNION : Bin := ⟨'\u22d3', .B, false⟩
/-- symbol.rs:889 -/
def PITCHFORK : Rel := ⟨'\u22d4', .default, false⟩
/-- symbol.rs:890 -/
def EQUAL_AND_PARALLEL_TO : Rel := ⟨'\u22d5', .default, false⟩
/-- symbol.rs:891 -/
def LESS_THAN_WITH_DOT : Rel := ⟨'\u22d6', .default, false⟩
/-- symbol.rs:892 -/
def GREATER_THAN_WITH_DOT : Rel := ⟨'\u22d7', .default, false⟩
/-- symbol.rs:893 -/
def VERY_MUCH_LESS_THAN : Rel := ⟨'\u22d8', .default, false⟩
/-- symbol.rs:894 -/
def VERY_MUCH_GREATER_THAN : Rel := ⟨'\u22d9', .default, false⟩
/-- symbol.rs:895 -/
def LESS_THAN_EQUAL_TO_OR_GREATER_THAN : Rel := ⟨'\u22da', .default, false⟩
/-- symbol.rs:896 -/
def GREATER_THAN_EQUAL_TO_OR_LESS_THAN : Rel := ⟨'\u22db', .default, false⟩
/-- symbol.rs:897 -/
def EQUAL_TO_OR_LESS_THAN : Rel := ⟨'\u22dc', .default, false⟩
/-- symbol.rs:898 -/
def EQUAL_TO_OR_GREATER_THAN : Rel := ⟨'\u22dd', .default, false⟩
/-- symbol.rs:899 -/
def EQUAL_TO_OR_PRECEDES : Rel := ⟨'\u22de', .default, false⟩
/-- symbol.rs:900 -/
def EQUAL_TO_OR_SUCCEEDS : Rel := ⟨'\u22df', .default, false⟩
/-- symbol.rs:901 -/
def DOES_NOT_PRECEDE_OR_EQUAL : Rel := ⟨'\u22e0', .default, false⟩
/-- symbol.rs:902 -/
def DOES_NOT_SUCCEED_OR_EQUAL : Rel := ⟨'\u22e1', .default, false⟩
/-- symbol.rs:903 -/
def NOT_SQUARE_IMAGE_OF_OR_EQUAL_TO : Rel := ⟨'\u22e2', .default, false⟩
/-- symbol.rs:904 -/
def NOT_SQUARE_ORIGINAL_OF_OR_EQUAL_TO : Rel := ⟨'\u22e3', .default, false⟩
/-- symbol.rs:905 -/
def SQUARE_IMAGE_OF_OR_NOT_EQUAL_TO : Rel := ⟨'\u22e4', .default, false⟩
/-- symbol.rs:906 -/
def SQUARE_ORIGINAL_OF_OR_NOT_EQUAL_TO : Rel := ⟨'\u22e5', .default, false⟩
/-- symbol.rs:907 -/
def LESS_THAN_BUT_NOT_EQUIVALENT_TO : Rel := ⟨'\u22e6', .default, false⟩
/-- symbol.rs:908 -/
def GREATER_THAN_BUT_NOT_EQUIVALENT_TO : Rel := ⟨'\u22e7', .default, false⟩
/-- symbol.rs:909 -/
def PRECEDES_BUT_NOT_EQUIVALENT_TO : Rel := ⟨'\u22e8', .default, false⟩
/-- symbol.rs:910 -/
def SUCCEEDS_BUT_NOT_EQUIVALENT_TO : Rel := ⟨'\u22e9', .default, false⟩
/-- symbol.rs:911 -/
def NOT_NORMAL_SUBGROUP_OF : Rel := ⟨'\u22ea', .default, false⟩
/-- symbol.rs:912 -/
def DOES_NOT_CONTAIN_AS_NORMAL_SUBGROUP : Rel := ⟨'\u22eb', .default, false⟩
/-- symbol.rs:913 -/
def NOT_NORMAL_SUBGROUP_OF_OR_EQUAL_TO : Rel := ⟨'\u22ec', .default, false⟩
/-- symbol.rs:914 -/
def DOES_NOT_CONTAIN_AS_NORMAL_SUBGROUP_OR_EQUAL : Rel := ⟨'\u22ed', .default, false⟩
/-- symbol.rs:915 -/
def VERTICAL_ELLIPSIS : Rel := ⟨'\u22ee', .default, false⟩
/-- symbol.rs:916 -/
def MIDLINE_HORIZONTAL_ELLIPSIS : Rel := ⟨'\u22ef', .default, false⟩
/-- symbol.rs:917 -/
def UP_RIGHT_DIAGONAL_ELLIPSIS : Rel := ⟨'\u22f0', .default, false⟩
/-- symbol.rs:918 -/
def DOWN_RIGHT_DIAGONAL_ELLIPSIS : Rel := ⟨'\u22f1', .default, false⟩
/-- symbol.rs:919 -/
def ELEMENT_OF_WITH_LONG_HORIZONTAL_STROKE : Rel := ⟨'\u22f2', .default, false⟩
/-- symbol.rs:920 -/
def ELEMENT_OF_WITH_VERTICAL_BAR_AT_END_OF_HORIZONTAL_STROKE : Rel := ⟨'\u22f3', .default, false⟩
/-- symbol.rs:922 -/
def SMALL_ELEMENT_OF_WITH_VERTICAL_BAR_AT_END_OF_HORIZONTAL_STROKE : Rel := ⟨'\u22f4', .default, false⟩
/-- symbol.rs:924 -/
def ELEMENT_OF_WITH_DOT_ABOVE : Rel := ⟨'\u22f5', .default, false⟩
/-- symbol.rs:925 -/
def ELEMENT_OF_WITH_OVERBAR : Rel := ⟨'\u22f6', .default, false⟩
/-- symbol.rs:926 -/
def SMALL_ELEMENT_OF_WITH_OVERBAR : Rel := ⟨'\u22f7', .default, false⟩
/-- symbol.rs:927 -/
def ELEMENT_OF_WITH_UNDERBAR : Rel := ⟨'\u22f8', .default, false⟩
/-- symbol.rs:928 -/
def ELEMENT_OF_WITH_TWO_HORIZONTAL_STROKES : Rel := ⟨'\u22f9', .default, false⟩
/-- symbol.rs:929 -/
def CONTAINS_WITH_LONG_HORIZONTAL_STROKE : Rel := ⟨'\u22fa', .default, false⟩
/-- symbol.rs:930 -/
def CONTAINS_WITH_VERTICAL_BAR_AT_END_OF_HORIZONTAL_STROKE : Rel := ⟨'\u22fb', .default, false⟩
/-- symbol.rs:932 -/
def SMALL_CONTAINS_WITH_VERTICAL_BAR_AT_END_OF_HORIZONTAL_STROKE : Rel := ⟨'\u22fc', .default, false⟩
/-- symbol.rs:934 -/
def CONTAINS_WITH_OVERBAR : Rel := ⟨'\u22fd', .default, false⟩
/-- symbol.rs:935 -/
def SMALL_CONTAINS_WITH_OVERBAR : Rel := ⟨'\u22fe', .default, false⟩
/-- symbol.rs:936 -/
def Z_NOTATION_BAG_MEMBERSHIP : Rel := ⟨'\u22ff', .default, false⟩
/-- symbol.rs:945 -/
def LEFT_CEILING : OrdLike := ⟨'\u2308', .F, false⟩
/-- symbol.rs:946 -/
def RIGHT_CEILING : OrdLike := ⟨'\u2309', .G, false⟩
/-- symbol.rs:947 -/
def LEFT_FLOOR : OrdLike := ⟨'\u230a', .F, false⟩
/-- symbol.rs:948 -/
def RIGHT_FLOOR : OrdLike := ⟨'\u230b', .G, false⟩
/-- symbol.rs:949 -/
def TOP_LEFT_CORNER : MathMLOperator := .fromChar '\u231c'
/-- symbol.rs:950 -/
def TOP_RIGHT_CORNER : MathMLOperator := .fromChar '\u231d'
/-- symbol.rs:951 -/
def BOTTOM_LEFT_CORNER : MathMLOperator := .fromChar '\u231e'
/-- symbol.rs:952 -/
def BOTTOM_RIGHT_CORNER : MathMLOperator := .fromChar '\u231f'
/-- symbol.rs:953 -/
def FROWN : OrdLike := ⟨'\u2322', .I, false⟩
/-- symbol.rs:954 -/
def SMILE : OrdLike := ⟨'\u2323', .I, false⟩
/-- symbol.rs:958 -/
def UPPER_LEFT_OR_LOWER_RIGHT_CURLY_BRACKET_SECTION : MathMLOperator := .fromChar '\u23b0'
/-- symbol.rs:960 -/
def UPPER_RIGHT_OR_LOWER_LEFT_CURLY_BRACKET_SECTION : MathMLOperator := .fromChar '\u23b1'
/-- symbol.rs:962 -/
def TOP_SQUARE_BRACKET : OrdLike := ⟨'\u23b4', .I, false⟩
/-- symbol.rs:963 -/
def BOTTOM_SQUARE_BRACKET : OrdLike := ⟨'\u23b5', .I, false⟩
/-- symbol.rs:964 -/
def TOP_PARENTHESIS : OrdLike := ⟨'\u23dc', .I, false⟩
/-- symbol.rs:965 -/
def BOTTOM_PARENTHESIS : OrdLike := ⟨'\u23dd', .I, false⟩
/-- symbol.rs:966 -/
def TOP_CURLY_BRACKET : OrdLike := ⟨'\u23de', .I, false⟩
/-- symbol.rs:967 -/
def BOTTOM_CURLY_BRACKET : OrdLike := ⟨'\u23df', .I, false⟩
/-- symbol.rs:968 -/
def TOP_TORTOISE_SHELL_BRACKET : OrdLike := ⟨'\u23e0', .I, false⟩
/-- symbol.rs:969 -/
def BOTTOM_TORTOISE_SHELL_BRACKET : OrdLike := ⟨'\u23e1', .I, false⟩
/-- symbol.rs:974 -/
def CIRCLED_LATIN_CAPITAL_LETTER_R : Char := '\u24c7'
/-- symbol.rs:975 -/
def CIRCLED_LATIN_CAPITAL_LETTER_S : Char := '\u24c8'
/-- symbol.rs:980 -/
def BLACK_SQUARE : Char := '\u25a0'
/-- symbol.rs:981 -/
def WHITE_SQUARE : Char := '\u25a1'
/-- symbol.rs:983 -/
def BLACK_UP_POINTING_TRIANGLE : Char := '\u25b2'
/-- symbol.rs:984 -/
def WHITE_UP_POINTING_TRIANGLE : MathMLOperator := .fromChar '\u25b3'
/-- symbol.rs:986 -/
def BLACK_RIGHT_POINTING_TRIANGLE : MathMLOperator := .fromChar '\u25b6'
/-- symbol.rs:987 -/
def WHITE_RIGHT_POINTING_TRIANGLE : MathMLOperator := .fromChar '\u25b7'
/-- symbol.rs:989 -/
def BLACK_DOWN_POINTING_TRIANGLE : Char := '\u25bc'
/-- symbol.rs:990 -/
def WHITE_DOWN_POINTING_TRIANGLE : MathMLOperator := .fromChar '\u25bd'
/-- symbol.rs:992 -/
def BLACK_LEFT_POINTING_TRIANGLE : MathMLOperator := .fromChar '\u25c0'
/-- symbol.rs:993 -/
def WHITE_LEFT_POINTING_TRIANGLE : MathMLOperator := .fromChar '\u25c1'
/-- symbol.rs:995 -/
def LOZENGE : Char := '\u25ca'
/-- symbol.rs:996 -/
def WHITE_CIRCLE : MathMLOperator := .fromChar '\u25cb'
/-- symbol.rs:998 -/
def WHITE_SQUARE_WITH_VERTICAL_BISECTING_LINE : MathMLOperator := .fromChar '\u25eb'
/-- symbol.rs:1000 -/
def LARGE_CIRCLE : Char := '\u25ef'
/-- symbol.rs:1002 -/
def WHITE_MEDIUM_SQUARE : Char := '\u25fb'
/-- symbol.rs:1007 -/
def BLACK_STAR : Char := '\u2605'
/-- symbol.rs:1009 -/
def ASCENDING_NODE : Char := '\u260a'
/-- symbol.rs:1011 -/
def BLACK_SPADE_SUIT : Char := '\u2660'
/-- symbol.rs:1012 -/
def WHITE_HEART_SUIT : Char := '\u2661'
/-- symbol.rs:1013 -/
def WHITE_DIAMOND_SUIT : Char := '\u2662'
/-- symbol.rs:1014 -/
def BLACK_CLUB_SUIT : Char := '\u2663'
/-- symbol.rs:1020 -/
def MUSIC_FLAT_SIGN : Char := '\u266d'
/-- symbol.rs:1021 -/
def MUSIC_NATURAL_SIGN : Char := '\u266e'
/-- symbol.rs:1022 -/
def MUSIC_SHARP_SIGN : Char := '\u266f'
/-- symbol.rs:1027 -/
def CHECK_MARK : Char := '\u2713'
/-- symbol.rs:1029 -/
def MALTESE_CROSS : Char := '\u2720'
/-- symbol.rs:1031 -/
def LIGHT_LEFT_TORTOISE_SHELL_BRACKET_ORNAMENT : OrdLike := ⟨'\u2772', .F, false⟩
/-- symbol.rs:1032 -/
def LIGHT_RIGHT_TORTOISE_SHELL_BRACKET_ORNAMENT : OrdLike := ⟨'\u2773', .G, false⟩
/-- symbol.rs:1037 -/
def PERPENDICULAR : Rel := ⟨'\u27c2', .default, false⟩
/-- symbol.rs:1039 -/
def LEFT_S_SHAPED_BAG_DELIMITER : MathMLOperator := .fromChar '\u27c5'
/-- symbol.rs:1040 -/
def RIGHT_S_SHAPED_BAG_DELIMITER : MathMLOperator := .fromChar '\u27c6'
/-- symbol.rs:1041 -/
def OR_WITH_DOT_INSIDE : MathMLOperator := .fromChar '\u27c7'
/-- symbol.rs:1043 -/
def MATHEMATICAL_RISING_DIAGONAL : Op := ⟨'\u27cb', .C, false⟩
/-- symbol.rs:1044 -/
def MATHEMATICAL_FALLING_DIAGONAL : Op := ⟨'\u27cd', .C, false⟩
/-- symbol.rs:1046 -/
def REVERSE_SOLIDUS_PRECEDING_SUPERSET : Rel := ⟨'\u27c8', .default, false⟩
/-- symbol.rs:1047 -/
def SUPERSET_PRECEDING_SOLIDUS : Rel := ⟨'\u27c9', .default, false⟩
/-- symbol.rs:1049 -/
def AND_WITH_DOT : MathMLOperator := .fromChar '\u27d1'
/-- symbol.rs:1050 -/
def ELEMENT_OF_OPENING_UPWARDS : Rel := ⟨'\u27d2', .default, false⟩
/-- symbol.rs:1052 -/
def LEFT_OUTER_JOIN : MathMLOperator := .fromChar '\u27d5'
/-- symbol.rs:1053 -/
def RIGHT_OUTER_JOIN : MathMLOperator := .fromChar '\u27d6'
/-- symbol.rs:1054 -/
def FULL_OUTER_JOIN : MathMLOperator := .fromChar '\u27d7'
/-- symbol.rs:1056 -/
def LARGE_UP_TACK : MathMLOperator := .fromChar '\u27d8'
/-- symbol.rs:1057 -/
def LARGE_DOWN_TACK : MathMLOperator := .fromChar '\u27d9'
/-- symbol.rs:1059 -/
def LEFT_AND_RIGHT_DOUBLE_TURNSTILE : Rel := ⟨'\u27da', .default, false⟩
/-- symbol.rs:1060 -/
def LEFT_AND_RIGHT_TACK : Rel := ⟨'\u27db', .default, false⟩
/-- symbol.rs:1061 -/
def LEFT_MULTIMAP : Rel := ⟨'\u27dc', .default, false⟩
/-- symbol.rs:1062 -/
def LONG_RIGHT_TACK : Rel := ⟨'\u27dd', .default, false⟩
/-- symbol.rs:1063 -/
def LONG_LEFT_TACK : Rel := ⟨'\u27de', .default, false⟩
/-- symbol.rs:1064 -/
def UP_TACK_WITH_CIRCLE_ABOVE : Rel := ⟨'\u27df', .default, false⟩
/-- symbol.rs:1066 -/
def MATHEMATICAL_LEFT_WHITE_SQUARE_BRACKET : OrdLike := ⟨'\u27e6', .F, false⟩
/-- symbol.rs:1067 -/
def MATHEMATICAL_RIGHT_WHITE_SQUARE_BRACKET : OrdLike := ⟨'\u27e7', .G, false⟩
/-- symbol.rs:1068 -/
def MATHEMATICAL_LEFT_ANGLE_BRACKET : OrdLike := ⟨'\u27e8', .F, false⟩
/-- symbol.rs:1069 -/
def MATHEMATICAL_RIGHT_ANGLE_BRACKET : OrdLike := ⟨'\u27e9', .G, false⟩
/-- symbol.rs:1070 -/
def MATHEMATICAL_LEFT_DOUBLE_ANGLE_BRACKET : OrdLike := ⟨'\u27ea', .F, false⟩
/-- symbol.rs:1071 -/
def MATHEMATICAL_RIGHT_DOUBLE_ANGLE_BRACKET : OrdLike := ⟨'\u27eb', .G, false⟩
/-- symbol.rs:1072 -/
def MATHEMATICAL_LEFT_WHITE_TORTOISE_SHELL_BRACKET : OrdLike := ⟨'\u27ec', .F, false⟩
/-- symbol.rs:1074 -/
def MATHEMATICAL_RIGHT_WHITE_TORTOISE_SHELL_BRACKET : OrdLike := ⟨'\u27ed', .G, false⟩
/-- symbol.rs:1076 -/
def MATHEMATICAL_LEFT_FLATTENED_PARENTHESIS : OrdLike := ⟨'\u27ee', .F, false⟩
/-- symbol.rs:1077 -/
def MATHEMATICAL_RIGHT_FLATTENED_PARENTHESIS : OrdLike := ⟨'\u27ef', .G, false⟩
/-- symbol.rs:1082 -/
def UPWARDS_QUADRUPLE_ARROW : Rel := ⟨'\u27f0', .A, false⟩
/-- symbol.rs:1083 -/
def DOWNWARDS_QUADRUPLE_ARROW : Rel := ⟨'\u27f1', .A, false⟩
/-- symbol.rs:1085 -/
def RIGHT_ARROW_WITH_CIRCLED_PLUS : Rel := ⟨'\u27f4', .A, false⟩
/-- symbol.rs:1086 -/
def ANTICLOCKWISE_GAPPED_CIRCLE_ARROW : Rel := ⟨'\u27f2', .default, false⟩
/-- symbol.rs:1087 -/
def CLOCKWISE_GAPPED_CIRCLE_ARROW : Rel := ⟨'\u27f3', .default, false⟩
/-- symbol.rs:1089 -/
def LONG_LEFTWARDS_ARROW : Rel := ⟨'\u27f5', .A, false⟩
/-- symbol.rs:1090 -/
def LONG_RIGHTWARDS_ARROW : Rel := ⟨'\u27f6', .A, false⟩
/-- symbol.rs:1091 -/
def LONG_LEFT_RIGHT_ARROW : Rel := ⟨'\u27f7', .A, false⟩
/-- symbol.rs:1092 -/
def LONG_LEFTWARDS_DOUBLE_ARROW : Rel := ⟨'\u27f8', .A, false⟩
/-- symbol.rs:1093 -/
def LONG_RIGHTWARDS_DOUBLE_ARROW : Rel := ⟨'\u27f9', .A, false⟩
/-- symbol.rs:1094 -/
def LONG_LEFT_RIGHT_DOUBLE_ARROW : Rel := ⟨'\u27fa', .A, false⟩
/-- symbol.rs:1095 -/
def LONG_LEFTWARDS_ARROW_FROM_BAR : Rel := ⟨'\u27fb', .A, false⟩
/-- symbol.rs:1096 -/
def LONG_RIGHTWARDS_ARROW_FROM_BAR : Rel := ⟨'\u27fc', .A, false⟩
/-- symbol.rs:1097 -/
def LONG_LEFTWARDS_DOUBLE_ARROW_FROM_BAR : Rel := ⟨'\u27fd', .A, false⟩
/-- symbol.rs:1098 -/
def LONG_RIGHTWARDS_DOUBLE_ARROW_FROM_BAR : Rel := ⟨'\u27fe', .A, false⟩
/-- symbol.rs:1099 -/
def LONG_RIGHTWARDS_SQUIGGLE_ARROW : Rel := ⟨'\u27ff', .A, false⟩
/-- symbol.rs:1104 -/
def RIGHTWARDS_TWO_HEADED_ARROW_WITH_VERTICAL_STROKE : Rel := ⟨'\u2900', .A, false⟩
/-- symbol.rs:1105 -/
def RIGHTWARDS_TWO_HEADED_ARROW_WITH_DOUBLE_VERTICAL_STROKE : Rel := ⟨'\u2901', .A, false⟩
/-- symbol.rs:1107 -/
def LEFTWARDS_DOUBLE_ARROW_WITH_VERTICAL_STROKE : Rel := ⟨'\u2902', .A, false⟩
/-- symbol.rs:1108 -/
def RIGHTWARDS_DOUBLE_ARROW_WITH_VERTICAL_STROKE : Rel := ⟨'\u2903', .A, false⟩
/-- symbol.rs:1109 -/
def LEFT_RIGHT_DOUBLE_ARROW_WITH_VERTICAL_STROKE : Rel := ⟨'\u2904', .A, false⟩
/-- symbol.rs:1110 -/
def RIGHTWARDS_TWO_HEADED_ARROW_FROM_BAR : Rel := ⟨'\u2905', .A, false⟩
/-- symbol.rs:1111 -/
def LEFTWARDS_DOUBLE_ARROW_FROM_BAR : Rel := ⟨'\u2906', .A, false⟩
/-- symbol.rs:1112 -/
def RIGHTWARDS_DOUBLE_ARROW_FROM_BAR : Rel := ⟨'\u2907', .A, false⟩
/-- symbol.rs:1113 -/
def DOWNWARDS_ARROW_WITH_HORIZONTAL_STROKE : Rel := ⟨'\u2908', .A, false⟩
/-- symbol.rs:1114 -/
def UPWARDS_ARROW_WITH_HORIZONTAL_STROKE : Rel := ⟨'\u2909', .A, false⟩
/-- symbol.rs:1115 -/
def UPWARDS_TRIPLE_ARROW : Rel := ⟨'\u290a', .A, false⟩
/-- symbol.rs:1116 -/
def DOWNWARDS_TRIPLE_ARROW : Rel := ⟨'\u290b', .A, false⟩
/-- symbol.rs:1117 -/
def LEFTWARDS_DOUBLE_DASH_ARROW : Rel := ⟨'\u290c', .A, false⟩
/-- symbol.rs:1118 -/
def RIGHTWARDS_DOUBLE_DASH_ARROW : Rel := ⟨'\u290d', .A, false⟩
/-- symbol.rs:1119 -/
def LEFTWARDS_TRIPLE_DASH_ARROW : Rel := ⟨'\u290e', .A, false⟩
/-- symbol.rs:1120 -/
def RIGHTWARDS_TRIPLE_DASH_ARROW : Rel := ⟨'\u290f', .A, false⟩
/-- symbol.rs:1121 -/
def RIGHTWARDS_TWO_HEADED_TRIPLE_DASH_ARROW : Rel := ⟨'\u2910', .A, false⟩
/-- symbol.rs:1122 -/
def RIGHTWARDS_ARROW_WITH_DOTTED_STEM : Rel := ⟨'\u2911', .A, false⟩
/-- symbol.rs:1123 -/
def UPWARDS_ARROW_TO_BAR : Rel := ⟨'\u2912', .A, false⟩
/-- symbol.rs:1124 -/
def DOWNWARDS_ARROW_TO_BAR : Rel := ⟨'\u2913', .A, false⟩
/-- symbol.rs:1125 -/
def RIGHTWARDS_ARROW_WITH_TAIL_WITH_VERTICAL_STROKE : Rel := ⟨'\u2914', .A, false⟩
/-- symbol.rs:1126 -/
def RIGHTWARDS_ARROW_WITH_TAIL_WITH_DOUBLE_VERTICAL_STROKE : Rel := ⟨'\u2915', .A, false⟩
/-- symbol.rs:1128 -/
def RIGHTWARDS_TWO_HEADED_ARROW_WITH_TAIL : Rel := ⟨'\u2916', .A, false⟩
/-- symbol.rs:1129 -/
def RIGHTWARDS_TWO_HEADED_ARROW_WITH_TAIL_WITH_VERTICAL_STROKE : Rel := ⟨'\u2917', .A, false⟩
/-- symbol.rs:1131 -/
def RIGHTWARDS_TWO_HEADED_ARROW_WITH_TAIL_WITH_DOUBLE_VERTICAL_STROKE : Rel := ⟨'\u2918', .A, false⟩
/-- symbol.rs:1134 -/
def LEFTWARDS_ARROW_TAIL : Rel := ⟨'\u2919', .A, false⟩
/-- symbol.rs:1135 -/
def RIGHTWARDS_ARROW_TAIL : Rel := ⟨'\u291a', .A, false⟩
/-- symbol.rs:1136 -/
def LEFTWARDS_DOUBLE_ARROW_TAIL : Rel := ⟨'\u291b', .A, false⟩
/-- symbol.rs:1137 -/
def RIGHTWARDS_DOUBLE_ARROW_TAIL : Rel := ⟨'\u291c', .A, false⟩
/-- symbol.rs:1139 -/
def LEFTWARDS_ARROW_TO_BLACK_DIAMOND : Rel := ⟨'\u291d', .A, false⟩
/-- symbol.rs:1140 -/
def RIGHTWARDS_ARROW_TO_BLACK_DIAMOND : Rel := ⟨'\u291e', .A, false⟩
/-- symbol.rs:1141 -/
def LEFTWARDS_ARROW_FROM_BAR_TO_BLACK_DIAMOND : Rel := ⟨'\u291f', .A, false⟩
/-- symbol.rs:1142 -/
def RIGHTWARDS_ARROW_FROM_BAR_TO_BLACK_DIAMOND : Rel := ⟨'\u2920', .A, false⟩
/-- symbol.rs:1143 -/
def NORTH_WEST_AND_SOUTH_EAST_ARROW : Rel := ⟨'\u2921', .default, false⟩
/-- symbol.rs:1144 -/
def NORTH_EAST_AND_SOUTH_WEST_ARROW : Rel := ⟨'\u2922', .default, false⟩
/-- symbol.rs:1145 -/
def NORTH_WEST_ARROW_WITH_HOOK : Rel := ⟨'\u2923', .default, false⟩
/-- symbol.rs:1146 -/
def NORTH_EAST_ARROW_WITH_HOOK : Rel := ⟨'\u2924', .default, false⟩
/-- symbol.rs:1147 -/
def SOUTH_EAST_ARROW_WITH_HOOK : Rel := ⟨'\u2925', .default, false⟩
/-- symbol.rs:1148 -/
def SOUTH_WEST_ARROW_WITH_HOOK : Rel := ⟨'\u2926', .default, false⟩
/-- symbol.rs:1150 -/
def NORTH_WEST_ARROW_AND_NORTH_EAST_ARROW : Rel := ⟨'\u2927', .default, false⟩
/-- symbol.rs:1151 -/
def NORTH_EAST_ARROW_AND_SOUTH_EAST_ARROW : Rel := ⟨'\u2928', .default, false⟩
/-- symbol.rs:1152 -/
def SOUTH_EAST_ARROW_AND_SOUTH_WEST_ARROW : Rel := ⟨'\u2929', .default, false⟩
/-- symbol.rs:1153 -/
def SOUTH_WEST_ARROW_AND_NORTH_WEST_ARROW : Rel := ⟨'\u292a', .default, false⟩
/-- symbol.rs:1154 -/
def RISING_DIAGONAL_CROSSING_FALLING_DIAGONAL : Rel := ⟨'\u292b', .default, false⟩
/-- symbol.rs:1155 -/
def FALLING_DIAGONAL_CROSSING_RISING_DIAGONAL : Rel := ⟨'\u292c', .default, false⟩
/-- symbol.rs:1156 -/
def SOUTH_EAST_ARROW_CROSSING_NORTH_EAST_ARROW : Rel := ⟨'\u292d', .default, false⟩
/-- symbol.rs:1157 -/
def NORTH_EAST_ARROW_CROSSING_SOUTH_EAST_ARROW : Rel := ⟨'\u292e', .default, false⟩
/-- symbol.rs:1158 -/
def FALLING_DIAGONAL_CROSSING_NORTH_EAST_ARROW : Rel := ⟨'\u292f', .default, false⟩
/-- symbol.rs:1159 -/
def RISING_DIAGONAL_CROSSING_SOUTH_EAST_ARROW : Rel := ⟨'\u2930', .default, false⟩
/-- symbol.rs:1160 -/
def NORTH_EAST_ARROW_CROSSING_NORTH_WEST_ARROW : Rel := ⟨'\u2931', .default, false⟩
/-- symbol.rs:1161 -/
def NORTH_WEST_ARROW_CROSSING_NORTH_EAST_ARROW : Rel := ⟨'\u2932', .default, false⟩
/-- symbol.rs:1163 -/
def WAVE_ARROW_POINTING_DIRECTLY_RIGHT : Rel := ⟨'\u2933', .default, false⟩
/-- symbol.rs:1164 -/
def ARROW_POINTING_RIGHTWARDS_THEN_CURVING_UPWARDS : Rel := ⟨'\u2934', .A, false⟩
/-- symbol.rs:1165 -/
def ARROW_POINTING_RIGHTWARDS_THEN_CURVING_DOWNWARDS : Rel := ⟨'\u2935', .A, false⟩
/-- symbol.rs:1166 -/
def ARROW_POINTING_DOWNWARDS_THEN_CURVING_LEFTWARDS : Rel := ⟨'\u2936', .A, false⟩
/-- symbol.rs:1167 -/
def ARROW_POINTING_DOWNWARDS_THEN_CURVING_RIGHTWARDS : Rel := ⟨'\u2937', .A, false⟩
/-- symbol.rs:1168 -/
def RIGHT_SIDE_ARC_CLOCKWISE_ARROW : Rel := ⟨'\u2938', .default, false⟩
/-- symbol.rs:1169 -/
def LEFT_SIDE_ARC_ANTICLOCKWISE_ARROW : Rel := ⟨'\u2939', .default, false⟩
/-- symbol.rs:1170 -/
def TOP_ARC_ANTICLOCKWISE_ARROW : Rel := ⟨'\u293a', .default, false⟩
/-- symbol.rs:1171 -/
def BOTTOM_ARC_ANTICLOCKWISE_ARROW : Rel := ⟨'\u293b', .default, false⟩
/-- symbol.rs:1172 -/
def TOP_ARC_CLOCKWISE_ARROW_WITH_MINUS : Rel := ⟨'\u293c', .default, false⟩
/-- symbol.rs:1173 -/
def TOP_ARC_ANTICLOCKWISE_ARROW_WITH_PLUS : Rel := ⟨'\u293d', .default, false⟩
/-- symbol.rs:1174 -/
def LOWER_RIGHT_SEMICIRCULAR_CLOCKWISE_ARROW : Rel := ⟨'\u293e', .default, false⟩
/-- symbol.rs:1175 -/
def LOWER_LEFT_SEMICIRCULAR_ANTICLOCKWISE_ARROW : Rel := ⟨'\u293f', .default, false⟩
/-- symbol.rs:1176 -/
def ANTICLOCKWISE_CLOSED_CIRCLE_ARROW : Rel := ⟨'\u2940', .default, false⟩
/-- symbol.rs:1177 -/
def CLOCKWISE_CLOSED_CIRCLE_ARROW : Rel := ⟨'\u2941', .default, false⟩
/-- symbol.rs:1179 -/
def RIGHTWARDS_ARROW_ABOVE_SHORT_LEFTWARDS_ARROW : Rel := ⟨'\u2942', .A, false⟩
/-- symbol.rs:1180 -/
def LEFTWARDS_ARROW_ABOVE_SHORT_RIGHTWARDS_ARROW : Rel := ⟨'\u2943', .A, false⟩
/-- symbol.rs:1181 -/
def SHORT_RIGHTWARDS_ARROW_ABOVE_LEFTWARDS_ARROW : Rel := ⟨'\u2944', .A, false⟩
/-- symbol.rs:1182 -/
def RIGHTWARDS_ARROW_WITH_PLUS_BELOW : Rel := ⟨'\u2945', .A, false⟩
/-- symbol.rs:1183 -/
def LEFTWARDS_ARROW_WITH_PLUS_BELOW : Rel := ⟨'\u2946', .A, false⟩
/-- symbol.rs:1184 -/
def RIGHTWARDS_ARROW_THROUGH_X : Rel := ⟨'\u2947', .A, false⟩
/-- symbol.rs:1185 -/
def LEFT_RIGHT_ARROW_THROUGH_SMALL_CIRCLE : Rel := ⟨'\u2948', .A, false⟩
/-- symbol.rs:1186 -/
def UPWARDS_TWO_HEADED_ARROW_FROM_SMALL_CIRCLE : Rel := ⟨'\u2949', .A, false⟩
/-- symbol.rs:1188 -/
def LEFT_BARB_UP_RIGHT_BARB_DOWN_HARPOON : Rel := ⟨'\u294a', .A, false⟩
/-- symbol.rs:1189 -/
def LEFT_BARB_DOWN_RIGHT_BARB_UP_HARPOON : Rel := ⟨'\u294b', .A, false⟩
/-- symbol.rs:1190 -/
def UP_BARB_RIGHT_DOWN_BARB_LEFT_HARPOON : Rel := ⟨'\u294c', .A, false⟩
/-- symbol.rs:1191 -/
def UP_BARB_LEFT_DOWN_BARB_RIGHT_HARPOON : Rel := ⟨'\u294d', .A, false⟩
/-- symbol.rs:1192 -/
def LEFT_BARB_UP_RIGHT_BARB_UP_HARPOON : Rel := ⟨'\u294e', .A, false⟩
/-- symbol.rs:1193 -/
def UP_BARB_RIGHT_DOWN_BARB_RIGHT_HARPOON : Rel := ⟨'\u294f', .A, false⟩
/-- symbol.rs:1194 -/
def LEFT_BARB_DOWN_RIGHT_BARB_DOWN_HARPOON : Rel := ⟨'\u2950', .A, false⟩
/-- symbol.rs:1195 -/
def UP_BARB_LEFT_DOWN_BARB_LEFT_HARPOON : Rel := ⟨'\u2951', .A, false⟩
/-- symbol.rs:1197 -/
def LEFTWARDS_HARPOON_WITH_BARB_UP_TO_BAR : Rel := ⟨'\u2952', .A, false⟩
/-- symbol.rs:1198 -/
def RIGHTWARDS_HARPOON_WITH_BARB_UP_TO_BAR : Rel := ⟨'\u2953', .A, false⟩
/-- symbol.rs:1199 -/
def UPWARDS_HARPOON_WITH_BARB_RIGHT_TO_BAR : Rel := ⟨'\u2954', .A, false⟩
/-- symbol.rs:1200 -/
def DOWNWARDS_HARPOON_WITH_BARB_RIGHT_TO_BAR : Rel := ⟨'\u2955', .A, false⟩
/-- symbol.rs:1201 -/
def LEFTWARDS_HARPOON_WITH_BARB_DOWN_TO_BAR : Rel := ⟨'\u2956', .A, false⟩
/-- symbol.rs:1202 -/
def RIGHTWARDS_HARPOON_WITH_BARB_DOWN_TO_BAR : Rel := ⟨'\u2957', .A, false⟩
/-- symbol.rs:1203 -/
def UPWARDS_HARPOON_WITH_BARB_LEFT_TO_BAR : Rel := ⟨'\u2958', .A, false⟩
/-- symbol.rs:1204 -/
def DOWNWARDS_HARPOON_WITH_BARB_LEFT_TO_BAR : Rel := ⟨'\u2959', .A, false⟩
/-- symbol.rs:1205 -/
def LEFTWARDS_HARPOON_WITH_BARB_UP_FROM_BAR : Rel := ⟨'\u295a', .A, false⟩
/-- symbol.rs:1206 -/
def RIGHTWARDS_HARPOON_WITH_BARB_UP_FROM_BAR : Rel := ⟨'\u295b', .A, false⟩
/-- symbol.rs:1207 -/
def UPWARDS_HARPOON_WITH_BARB_RIGHT_FROM_BAR : Rel := ⟨'\u295c', .A, false⟩
/-- symbol.rs:1208 -/
def DOWNWARDS_HARPOON_WITH_BARB_RIGHT_FROM_BAR : Rel := ⟨'\u295d', .A, false⟩
/-- symbol.rs:1209 -/
def LEFTWARDS_HARPOON_WITH_BARB_DOWN_FROM_BAR : Rel := ⟨'\u295e', .A, false⟩
/-- symbol.rs:1210 -/
def RIGHTWARDS_HARPOON_WITH_BARB_DOWN_FROM_BAR : Rel := ⟨'\u295f', .A, false⟩
/-- symbol.rs:1211 -/
def UPWARDS_HARPOON_WITH_BARB_LEFT_FROM_BAR : Rel := ⟨'\u2960', .A, false⟩
/-- symbol.rs:1212 -/
def DOWNWARDS_HARPOON_WITH_BARB_LEFT_FROM_BAR : Rel := ⟨'\u2961', .A, false⟩
/-- symbol.rs:1214 -/
def LEFTWARDS_HARPOON_WITH_BARB_UP_ABOVE_LEFTWARDS_HARPOON_WITH_BARB_DOWN : Rel := ⟨'\u2962', .A, false⟩
/-- symbol.rs:1216 -/
def UPWARDS_HARPOON_WITH_BARB_LEFT_BESIDE_UPWARDS_HARPOON_WITH_BARB_RIGHT : Rel := ⟨'\u2963', .A, false⟩
/-- symbol.rs:1218 -/
def RIGHTWARDS_HARPOON_WITH_BARB_UP_ABOVE_RIGHTWARDS_HARPOON_WITH_BARB_DOWN : Rel := ⟨'\u2964', .A, false⟩
/-- symbol.rs:1220 -/
def DOWNWARDS_HARPOON_WITH_BARB_LEFT_BESIDE_DOWNWARDS_HARPOON_WITH_BARB_RIGHT : Rel := ⟨'\u2965', .A, false⟩
/-- symbol.rs:1222 -/
def LEFTWARDS_HARPOON_WITH_BARB_UP_ABOVE_RIGHTWARDS_HARPOON_WITH_BARB_UP : Rel := ⟨'\u2966', .A, false⟩
/-- symbol.rs:1224 -/
def LEFTWARDS_HARPOON_WITH_BARB_DOWN_ABOVE_RIGHTWARDS_HARPOON_WITH_BARB_DOWN : Rel := ⟨'\u2967', .A, false⟩
/-- symbol.rs:1226 -/
def RIGHTWARDS_HARPOON_WITH_BARB_UP_ABOVE_LEFTWARDS_HARPOON_WITH_BARB_UP : Rel := ⟨'\u2968', .A, false⟩
/-- symbol.rs:1228 -/
def RIGHTWARDS_HARPOON_WITH_BARB_DOWN_ABOVE_LEFTWARDS_HARPOON_WITH_BARB_DOWN : Rel := ⟨'\u2969', .A, false⟩
/-- symbol.rs:1230 -/
def LEFTWARDS_HARPOON_WITH_BARB_UP_ABOVE_LONG_DASH : Rel := ⟨'\u296a', .A, false⟩
/-- symbol.rs:1231 -/
def LEFTWARDS_HARPOON_WITH_BARB_DOWN_BELOW_LONG_DASH : Rel := ⟨'\u296b', .A, false⟩
/-- symbol.rs:1232 -/
def RIGHTWARDS_HARPOON_WITH_BARB_UP_ABOVE_LONG_DASH : Rel := ⟨'\u296c', .A, false⟩
/-- symbol.rs:1233 -/
def RIGHTWARDS_HARPOON_WITH_BARB_DOWN_BELOW_LONG_DASH : Rel := ⟨'\u296d', .A, false⟩
/-- symbol.rs:1234 -/
def UPWARDS_HARPOON_WITH_BARB_LEFT_BESIDE_DOWNWARDS_HARPOON_WITH_BARB_RIGHT : Rel := ⟨'\u296e', .A, false⟩
/-- symbol.rs:1236 -/
def DOWNWARDS_HARPOON_WITH_BARB_LEFT_BESIDE_UPWARDS_HARPOON_WITH_BARB_RIGHT : Rel := ⟨'\u296f', .A, false⟩
/-- symbol.rs:1239 -/
def RIGHT_DOUBLE_ARROW_WITH_ROUNDED_HEAD : Rel := ⟨'\u2970', .A, false⟩
/-- symbol.rs:1241 -/
def EQUALS_SIGN_ABOVE_RIGHTWARDS_ARROW : Rel := ⟨'\u2971', .A, false⟩
/-- symbol.rs:1242 -/
def TILDE_OPERATOR_ABOVE_RIGHTWARDS_ARROW : Rel := ⟨'\u2972', .A, false⟩
/-- symbol.rs:1243 -/
def LEFTWARDS_ARROW_ABOVE_TILDE_OPERATOR : Rel := ⟨'\u2973', .A, false⟩
/-- symbol.rs:1244 -/
def RIGHTWARDS_ARROW_ABOVE_TILDE_OPERATOR : Rel := ⟨'\u2974', .A, false⟩
/-- symbol.rs:1245 -/
def RIGHTWARDS_ARROW_ABOVE_ALMOST_EQUAL_TO : Rel := ⟨'\u2975', .A, false⟩
/-- symbol.rs:1246 -/
def LESS_THAN_ABOVE_LEFTWARDS_ARROW : Rel := ⟨'\u2976', .default, false⟩
/-- symbol.rs:1247 -/
def LEFTWARDS_ARROW_THROUGH_LESS_THAN : Rel := ⟨'\u2977', .default, false⟩
/-- symbol.rs:1248 -/
def GREATER_THAN_ABOVE_RIGHTWARDS_ARROW : Rel := ⟨'\u2978', .default, false⟩
/-- symbol.rs:1249 -/
def SUBSET_ABOVE_RIGHTWARDS_ARROW : Rel := ⟨'\u2979', .default, false⟩
/-- symbol.rs:1250 -/
def LEFTWARDS_ARROW_THROUGH_SUBSET : Rel := ⟨'\u297a', .default, false⟩
/-- symbol.rs:1251 -/
def SUPERSET_ABOVE_LEFTWARDS_ARROW : Rel := ⟨'\u297b', .default, false⟩
/-- symbol.rs:1253 -/
def LEFT_FISH_TAIL : Rel := ⟨'\u297c', .A, false⟩
/-- symbol.rs:1254 -/
def RIGHT_FISH_TAIL : Rel := ⟨'\u297d', .A, false⟩
/-- symbol.rs:1255 -/
def UP_FISH_TAIL : Rel := ⟨'\u297e', .A, false⟩
/-- symbol.rs:1256 -/
def DOWN_FISH_TAIL : Rel := ⟨'\u297f', .A, false⟩
/-- symbol.rs:1261 -/
def TRIPLE_VERTICAL_BAR_DELIMITER : OrdLike := ⟨'\u2980', .FG, false⟩
/-- symbol.rs:1262 -/
def Z_NOTATION_TYPE_COLON : Rel := ⟨'\u2982', .default, false⟩
/-- symbol.rs:1264 -/
def LEFT_WHITE_CURLY_BRACKET : OrdLike := ⟨'\u2983', .F, false⟩
/-- symbol.rs:1265 -/
def RIGHT_WHITE_CURLY_BRACKET : OrdLike := ⟨'\u2984', .G, false⟩
/-- symbol.rs:1266 -/
def LEFT_WHITE_PARENTHESIS : OrdLike := ⟨'\u2985', .F, false⟩
/-- symbol.rs:1267 -/
def RIGHT_WHITE_PARENTHESIS : OrdLike := ⟨'\u2986', .G, false⟩
/-- symbol.rs:1268 -/
def Z_NOTATION_LEFT_IMAGE_BRACKET : OrdLike := ⟨'\u2987', .F, false⟩
/-- symbol.rs:1269 -/
def Z_NOTATION_RIGHT_IMAGE_BRACKET : OrdLike := ⟨'\u2988', .G, false⟩
/-- symbol.rs:1270 -/
def Z_NOTATION_LEFT_BINDING_BRACKET : OrdLike := ⟨'\u2989', .F, false⟩
/-- symbol.rs:1271 -/
def Z_NOTATION_RIGHT_BINDING_BRACKET : OrdLike := ⟨'\u298a', .G, false⟩
/-- symbol.rs:1272 -/
def LEFT_SQUARE_BRACKET_WITH_UNDERBAR : OrdLike := ⟨'\u298b', .F, false⟩
/-- symbol.rs:1273 -/
def RIGHT_SQUARE_BRACKET_WITH_UNDERBAR : OrdLike := ⟨'\u298c', .G, false⟩
/-- symbol.rs:1275 -/
def LEFT_SQUARE_BRACKET_WITH_TICK_IN_TOP_CORNER : OrdLike := ⟨'\u298d', .F, false⟩
/-- symbol.rs:1276 -/
def RIGHT_SQUARE_BRACKET_WITH_TICK_IN_BOTTOM_CORNER : OrdLike := ⟨'\u298e', .G, false⟩
/-- symbol.rs:1278 -/
def LEFT_SQUARE_BRACKET_WITH_TICK_IN_BOTTOM_CORNER : OrdLike := ⟨'\u298f', .F, false⟩
/-- symbol.rs:1280 -/
def RIGHT_SQUARE_BRACKET_WITH_TICK_IN_TOP_CORNER : OrdLike := ⟨'\u2990', .G, false⟩
/-- symbol.rs:1282 -/
def LEFT_ANGLE_BRACKET_WITH_DOT : OrdLike := ⟨'\u2991', .F, false⟩
/-- symbol.rs:1283 -/
def RIGHT_ANGLE_BRACKET_WITH_DOT : OrdLike := ⟨'\u2992', .G, false⟩
/-- symbol.rs:1284 -/
def LEFT_ARC_LESS_THAN_BRACKET : OrdLike := ⟨'\u2993', .F, false⟩
/-- symbol.rs:1285 -/
def RIGHT_ARC_GREATER_THAN_BRACKET : OrdLike := ⟨'\u2994', .G, false⟩
/-- symbol.rs:1286 -/
def DOUBLE_LEFT_ARC_GREATER_THAN_BRACKET : OrdLike := ⟨'\u2995', .F, false⟩
/-- symbol.rs:1287 -/
def DOUBLE_RIGHT_ARC_LESS_THAN_BRACKET : OrdLike := ⟨'\u2996', .G, false⟩
/-- symbol.rs:1288 -/
def LEFT_BLACK_TORTOISE_SHELL_BRACKET : OrdLike := ⟨'\u2997', .F, false⟩
/-- symbol.rs:1289 -/
def RIGHT_BLACK_TORTOISE_SHELL_BRACKET : OrdLike := ⟨'\u2998', .G, false⟩
/-- symbol.rs:1291 -/
def CIRCLE_WITH_HORIZONTAL_BAR : MathMLOperator := .fromChar '\u29b5'
/-- symbol.rs:1292 -/
def CIRCLED_VERTICAL_BAR : Rel := ⟨'\u29b6', .default, false⟩
/-- symbol.rs:1293 -/
def CIRCLED_PARALLEL : Rel := ⟨'\u29b7', .default, false⟩
/-- symbol.rs:1294 -/
def CIRCLED_REVERSE_SOLIDUS : Bin := ⟨'\u29b8', .B, false⟩
/-- symbol.rs:1295 -/
def CIRCLED_PERPENDICULAR : Rel := ⟨'\u29b9', .default, false⟩
/-- symbol.rs:1297 -/
def CIRCLED_LESS_THAN : Rel := ⟨'\u29c0', .default, false⟩
/-- symbol.rs:1298 -/
def CIRCLED_GREATER_THAN : Rel := ⟨'\u29c1', .default, false⟩
/-- symbol.rs:1300 -/
def SQUARED_RISING_DIAGONAL_SLASH : Bin := ⟨'\u29c4', .B, false⟩
/-- symbol.rs:1301 -/
def SQUARED_FALLING_DIAGONAL_SLASH : Bin := ⟨'\u29c5', .B, false⟩
/-- symbol.rs:1302 -/
def SQUARED_ASTERISK : Op := ⟨'\u29c6', .C, false⟩
/-- symbol.rs:1303 -/
def SQUARED_SMALL_CIRCLE : Op := ⟨'\u29c7', .C, false⟩
/-- symbol.rs:1304 -/
def SQUARED_SQUARE : Op := ⟨'\u29c8', .C, false⟩
/-- symbol.rs:1306 -/
def LEFT_WIGGLY_FENCE : OrdLike := ⟨'\u29d8', .F, false⟩
/-- symbol.rs:1307 -/
def RIGHT_WIGGLY_FENCE : OrdLike := ⟨'\u29d9', .G, false⟩
/-- symbol.rs:1308 -/
def LEFT_DOUBLE_WIGGLY_FENCE : OrdLike := ⟨'\u29da', .F, false⟩
/-- symbol.rs:1309 -/
def RIGHT_DOUBLE_WIGGLY_FENCE : OrdLike := ⟨'\u29db', .G, false⟩
/-- symbol.rs:1311 -/
def RIGHT_TRIANGLE_ABOVE_LEFT_TRIANGLE : Rel := ⟨'\u29ce', .default, false⟩
/-- symbol.rs:1312 -/
def LEFT_TRIANGLE_BESIDE_VERTICAL_BAR : Rel := ⟨'\u29cf', .default, false⟩
/-- symbol.rs:1313 -/
def VERTICAL_BAR_BESIDE_RIGHT_TRIANGLE : Rel := ⟨'\u29d0', .default, false⟩
/-- symbol.rs:1315 -/
def BOWTIE_WITH_LEFT_HALF_BLACK : Rel := ⟨'\u29d1', .default, false⟩
/-- symbol.rs:1316 -/
def BOWTIE_WITH_RIGHT_HALF_BLACK : Rel := ⟨'\u29d2', .default, false⟩
/-- symbol.rs:1317 -/
def BLACK_BOWTIE : Rel := ⟨'\u29d3', .default, false⟩
/-- symbol.rs:1318 -/
def TIMES_WITH_LEFT_HALF_BLACK : Op := ⟨'\u29d4', .C, false⟩
/-- symbol.rs:1319 -/
def TIMES_WITH_RIGHT_HALF_BLACK : Op := ⟨'\u29d5', .C, false⟩
/-- symbol.rs:1321 -/
def DOUBLE_ENDED_MULTIMAP : Rel := ⟨'\u29df', .default, false⟩
/-- symbol.rs:1322 -/
def SQUARE_WITH_CONTOURED_OUTLINE : Rel := ⟨'\u29e0', .default, false⟩
/-- symbol.rs:1323 -/
def INCREASES_AS : Rel := ⟨'\u29e1', .default, false⟩
/-- symbol.rs:1324 -/
def SHUFFLE_PRODUCT : Op := ⟨'\u29e2', .C, false⟩
/-- symbol.rs:1326 -/
def EQUALS_SIGN_AND_SLANTED_PARALLEL : Rel := ⟨'\u29e3', .default, false⟩
/-- symbol.rs:1327 -/
def EQUALS_SIGN_AND_SLANTED_PARALLEL_WITH_TILDE_ABOVE : Rel := ⟨'\u29e4', .default, false⟩
/-- symbol.rs:1329 -/
def IDENTICAL_TO_AND_SLANTED_PARALLEL : Rel := ⟨'\u29e5', .default, false⟩
/-- symbol.rs:1330 -/
def GLEICH_STARK : Rel := ⟨'\u29e6', .default, false⟩
/-- symbol.rs:1332 -/
def BLACK_LOZENGE : Char := '\u29eb'
/-- symbol.rs:1334 -/
def RULE_DELAYED : Rel := ⟨'\u29f4', .default, false⟩
/-- symbol.rs:1335 -/
def REVERSE_SOLIDUS_OPERATOR : Bin := ⟨'\u29f5', .B, false⟩
/-- symbol.rs:1336 -/
def SOLIDUS_WITH_OVERBAR : Bin := ⟨'\u29f6', .B, false⟩
/-- symbol.rs:1337 -/
def REVERSE_SOLIDUS_WITH_HORIZONTAL_STROKE : Bin := ⟨'\u29f7', .B, false⟩
/-- symbol.rs:1339 -/
def BIG_SOLIDUS : Bin := ⟨'\u29f8', .B, false⟩
/-- symbol.rs:1340 -/
def BIG_REVERSE_SOLIDUS : Bin := ⟨'\u29f9', .B, false⟩
/-- symbol.rs:1342 -/
def DOUBLE_PLUS : Bin := ⟨'\u29fa', .B, false⟩
/-- symbol.rs:1343 -/
def TRIPLE_PLUS : Bin := ⟨'\u29fb', .B, false⟩
/-- symbol.rs:1345 -/
def LEFT_POINTING_CURVED_ANGLE_BRACKET : OrdLike := ⟨'\u29fc', .F, false⟩
/-- symbol.rs:1346 -/
def RIGHT_POINTING_CURVED_ANGLE_BRACKET : OrdLike := ⟨'\u29fd', .G, false⟩
/-- symbol.rs:1351 -/
def N_ARY_CIRCLED_DOT_OPERATOR : Op := ⟨'\u2a00', .J, false⟩
/-- symbol.rs:1352 -/
def N_ARY_CIRCLED_PLUS_OPERATOR : Op := ⟨'\u2a01', .J, false⟩
/-- symbol.rs:1353 -/
def N_ARY_CIRCLED_TIMES_OPERATOR : Op := ⟨'\u2a02', .J, false⟩
/-- symbol.rs:1354 -/
def N_ARY_UNION_OPERATOR_WITH_DOT : Op := ⟨'\u2a03', .J, false⟩
/-- symbol.rs:1355 -/
def N_ARY_UNION_OPERATOR_WITH_PLUS : Op := ⟨'\u2a04', .J, false⟩
/-- symbol.rs:1356 -/
def N_ARY_SQUARE_INTERSECTION_OPERATOR : Op := ⟨'\u2a05', .J, false⟩
/-- symbol.rs:1357 -/
def N_ARY_SQUARE_UNION_OPERATOR : Op := ⟨'\u2a06', .J, false⟩
/-- symbol.rs:1358 -/
def TWO_LOGICAL_AND_OPERATOR : Op := ⟨'\u2a07', .J, false⟩
/-- symbol.rs:1359 -/
def TWO_LOGICAL_OR_OPERATOR : Op := ⟨'\u2a08', .J, false⟩
/-- symbol.rs:1360 -/
def N_ARY_TIMES_OPERATOR : Op := ⟨'\u2a09', .J, false⟩
/-- symbol.rs:1362 -/
def MODULO_TWO_SUM : Op := ⟨'\u2a0a', .J, false⟩
/-- symbol.rs:1363 -/
def SUMMATION_WITH_INTEGRAL : Op := ⟨'\u2a0b', .H, false⟩
/-- symbol.rs:1364 -/
def QUADRUPLE_INTEGRAL_OPERATOR : Op := ⟨'\u2a0c', .H, false⟩
/-- symbol.rs:1365 -/
def FINITE_PART_INTEGRAL : Op := ⟨'\u2a0d', .H, false⟩
/-- symbol.rs:1366 -/
def INTEGRAL_WITH_DOUBLE_STROKE : Op := ⟨'\u2a0e', .H, false⟩
/-- symbol.rs:1367 -/
def INTEGRAL_AVERAGE_WITH_SLASH : Op := ⟨'\u2a0f', .H, false⟩
/-- symbol.rs:1368 -/
def CIRCULATION_FUNCTION : Op := ⟨'\u2a10', .H, false⟩
/-- symbol.rs:1369 -/
def ANTICLOCKWISE_INTEGRATION : Op := ⟨'\u2a11', .H, false⟩
/-- symbol.rs:1370 -/
def LINE_INTEGRATION_WITH_RECTANGULAR_PATH_AROUND_POLE : Op := ⟨'\u2a12', .H, false⟩
/-- symbol.rs:1371 -/
def LINE_INTEGRATION_WITH_SEMICIRCULAR_PATH_AROUND_POLE : Op := ⟨'\u2a13', .H, false⟩
/-- symbol.rs:1372 -/
def LINE_INTEGRATION_NOT_INCLUDING_THE_POLE : Op := ⟨'\u2a14', .H, false⟩
/-- symbol.rs:1373 -/
def INTEGRAL_AROUND_A_POINT_OPERATOR : Op := ⟨'\u2a15', .H, false⟩
/-- symbol.rs:1374 -/
def QUATERNION_INTEGRAL_OPERATOR : Op := ⟨'\u2a16', .H, false⟩
/-- symbol.rs:1375 -/
def INTEGRAL_WITH_LEFTWARDS_ARROW_WITH_HOOK : Op := ⟨'\u2a17', .H, false⟩
/-- symbol.rs:1376 -/
def INTEGRAL_WITH_TIMES_SIGN : Op := ⟨'\u2a18', .H, false⟩
/-- symbol.rs:1377 -/
def INTEGRAL_WITH_INTERSECTION : Op := ⟨'\u2a19', .H, false⟩
/-- symbol.rs:1378 -/
def INTEGRAL_WITH_UNION : Op := ⟨'\u2a1a', .H, false⟩
/-- symbol.rs:1379 -/
def INTEGRAL_WITH_OVERBAR : Op := ⟨'\u2a1b', .H, false⟩
/-- symbol.rs:1380 -/
def INTEGRAL_WITH_UNDERBAR : Op := ⟨'\u2a1c', .H, false⟩
/-- symbol.rs:1382 -/
def JOIN : MathMLOperator := .fromChar '\u2a1d'
/-- symbol.rs:1383 -/
def LARGE_LEFT_TRIANGLE_OPERATOR : MathMLOperator := .fromChar '\u2a1e'
/-- symbol.rs:1388 -/
def PLUS_SIGN_WITH_SMALL_CIRCLE_ABOVE : Bin := ⟨'\u2a22', .B, false⟩
/-- symbol.rs:1389 -/
def PLUS_SIGN_WITH_CIRCUMFLEX_ACCENT_ABOVE : Bin := ⟨'\u2a23', .B, false⟩
/-- symbol.rs:1390 -/
def PLUS_SIGN_WITH_TILDE_ABOVE : Bin := ⟨'\u2a24', .B, false⟩
/-- symbol.rs:1391 -/
def PLUS_SIGN_WITH_DOT_BELOW : Bin := ⟨'\u2a25', .B, false⟩
/-- symbol.rs:1392 -/
def PLUS_SIGN_WITH_TILDE_BELOW : Bin := ⟨'\u2a26', .B, false⟩
/-- symbol.rs:1393 -/
def PLUS_SIGN_WITH_SUBSCRIPT_TWO : Bin := ⟨'\u2a27', .B, false⟩
/-- symbol.rs:1394 -/
def PLUS_SIGN_WITH_BLACK_TRIANGLE : Bin := ⟨'\u2a28', .B, false⟩
/-- symbol.rs:1395 -/
def MINUS_SIGN_WITH_COMMA_ABOVE : Bin := ⟨'\u2a29', .B, false⟩
/-- symbol.rs:1396 -/
def MINUS_SIGN_WITH_DOT_BELOW : Bin := ⟨'\u2a2a', .B, false⟩
/-- symbol.rs:1397 -/
def MINUS_SIGN_WITH_FALLING_DOTS : Bin := ⟨'\u2a2b', .B, false⟩
/-- symbol.rs:1398 -/
def MINUS_SIGN_WITH_RISING_DOTS : Bin := ⟨'\u2a2c', .B, false⟩
/-- symbol.rs:1399 -/
def PLUS_SIGN_IN_LEFT_HALF_CIRCLE : Bin := ⟨'\u2a2d', .B, false⟩
/-- symbol.rs:1400 -/
def PLUS_SIGN_IN_RIGHT_HALF_CIRCLE : Bin := ⟨'\u2a2e', .B, false⟩
/-- symbol.rs:1402 -/
def VECTOR_OR_CROSS_PRODUCT : Op := ⟨'\u2a2f', .C, false⟩
/-- symbol.rs:1403 -/
def MULTIPLICATION_SIGN_WITH_DOT_ABOVE : Op := ⟨'\u2a30', .C, false⟩
/-- symbol.rs:1404 -/
def MULTIPLICATION_SIGN_WITH_UNDERBAR : Op := ⟨'\u2a31', .C, false⟩
/-- symbol.rs:1405 -/
def SEMIDIRECT_PRODUCT_WITH_BOTTOM_CLOSED : Op := ⟨'\u2a32', .C, false⟩
/-- symbol.rs:1406 -/
def SMASH_PRODUCT : Op := ⟨'\u2a33', .C, false⟩
/-- symbol.rs:1407 -/
def MULTIPLICATION_SIGN_IN_LEFT_HALF_CIRCLE : Op := ⟨'\u2a34', .C, false⟩
/-- symbol.rs:1408 -/
def MULTIPLICATION_SIGN_IN_RIGHT_HALF_CIRCLE : Op := ⟨'\u2a35', .C, false⟩
/-- symbol.rs:1409 -/
def CIRCLED_MULTIPLICATION_SIGN_WITH_CIRCUMFLEX_ACCENT : Op := ⟨'\u2a36', .C, false⟩
/-- symbol.rs:1410 -/
def MULTIPLICATION_SIGN_IN_DOUBLE_CIRCLE : Op := ⟨'\u2a37', .C, false⟩
/-- symbol.rs:1411 -/
def CIRCLED_DIVISION_SIGN : Bin := ⟨'\u2a38', .B, false⟩
/-- symbol.rs:1413 -/
def PLUS_SIGN_IN_TRIANGLE : Bin := ⟨'\u2a39', .B, false⟩
/-- symbol.rs:1414 -/
def MINUS_SIGN_IN_TRIANGLE : Bin := ⟨'\u2a3a', .B, false⟩
/-- symbol.rs:1415 -/
def MULTIPLICATION_SIGN_IN_TRIANGLE : Op := ⟨'\u2a3b', .C, false⟩
/-- symbol.rs:1416 -/
def INTERIOR_PRODUCT : Op := ⟨'\u2a3c', .C, false⟩
/-- symbol.rs:1417 -/
def RIGHTHAND_INTERIOR_PRODUCT : Op := ⟨'\u2a3d', .C, false⟩
/-- symbol.rs:1418 -/
def Z_NOTATION_RELATIONAL_COMPOSITION : Bin := ⟨'\u2a3e', .B, false⟩
/-- symbol.rs:1419 -/
def AMALGAMATION_OR_COPRODUCT : Op := ⟨'\u2a3f', .C, false⟩
/-- symbol.rs:1420 -/
def INTERSECTION_WITH_DOT : Bin := ⟨'\u2a40', .B, false⟩
/-- symbol.rs:1421 -/
def UNION_WITH_MINUS_SIGN : Bin := ⟨'\u2a41', .B, false⟩
/-- symbol.rs:1422 -/
def UNION_WITH_OVERBAR : Bin := ⟨'\u2a42', .B, false⟩
/-- symbol.rs:1423 -/
def INTERSECTION_WITH_OVERBAR : Bin := ⟨'\u2a43', .B, false⟩
/-- symbol.rs:1424 -/
def INTERSECTION_WITH_LOGICAL_AND : Bin := ⟨'\u2a44', .B, false⟩
/-- symbol.rs:1425 -/
def UNION_WITH_LOGICAL_OR : Bin := ⟨'\u2a45', .B, false⟩
/-- symbol.rs:1426 -/
def UNION_ABOVE_INTERSECTION : Bin := ⟨'\u2a46', .B, false⟩
/-- symbol.rs:1427 -/
def INTERSECTION_ABOVE_UNION : Bin := ⟨'\u2a47', .B, false⟩
/-- symbol.rs:1428 -/
def UNION_ABOVE_BAR_ABOVE_INTERSECTION : Bin := ⟨'\u2a48', .B, false⟩
/-- symbol.rs:1429 -/
def INTERSECTION_ABOVE_BAR_ABOVE_UNION : Bin := ⟨'\u2a49', .B, false⟩
/-- symbol.rs:1430 -/
def UNION_BESIDE_AND_JOINED_WITH_UNION : Bin := ⟨'\u2a4a', .B, false⟩
/-- symbol.rs:1431 -/
def INTERSECTION_BESIDE_AND_JOINED_WITH_INTERSECTION : Bin := ⟨'\u2a4b', .B, false⟩
/-- symbol.rs:1432 -/
def CLOSED_UNION_WITH_SERIFS : Bin := ⟨'\u2a4c', .B, false⟩
/-- symbol.rs:1433 -/
def CLOSED_INTERSECTION_WITH_SERIFS : Bin := ⟨'\u2a4d', .B, false⟩
/-- symbol.rs:1434 -/
def DOUBLE_SQUARE_INTERSECTION : Bin := ⟨'\u2a4e', .B, false⟩
/-- symbol.rs:1435 -/
def DOUBLE_SQUARE_UNION : Bin := ⟨'\u2a4f', .B, false⟩
/-- symbol.rs:1436 -/
def CLOSED_UNION_WITH_SERIFS_AND_SMASH_PRODUCT : Op := ⟨'\u2a50', .C, false⟩
/-- symbol.rs:1437 -/
def LOGICAL_AND_WITH_DOT_ABOVE : Bin := ⟨'\u2a51', .B, false⟩
/-- symbol.rs:1438 -/
def LOGICAL_OR_WITH_DOT_ABOVE : Bin := ⟨'\u2a52', .B, false⟩
/-- symbol.rs:1439 -/
def DOUBLE_LOGICAL_AND : Bin := ⟨'\u2a53', .B, false⟩
/-- symbol.rs:1440 -/
def DOUBLE_LOGICAL_OR : Bin := ⟨'\u2a54', .B, false⟩
/-- symbol.rs:1441 -/
def TWO_INTERSECTING_LOGICAL_AND : Bin := ⟨'\u2a55', .B, false⟩
/-- symbol.rs:1442 -/
def TWO_INTERSECTING_LOGICAL_OR : Bin := ⟨'\u2a56', .B, false⟩
/-- symbol.rs:1443 -/
def SLOPING_LARGE_OR : Bin := ⟨'\u2a57', .B, false⟩
/-- symbol.rs:1444 -/
def SLOPING_LARGE_AND : Bin := ⟨'\u2a58', .B, false⟩
/-- symbol.rs:1445 -/
def LOGICAL_OR_OVERLAPPING_LOGICAL_AND : Bin := ⟨'\u2a59', .B, false⟩
/-- symbol.rs:1446 -/
def LOGICAL_AND_WITH_MIDDLE_STEM : Bin := ⟨'\u2a5a', .B, false⟩
/-- symbol.rs:1447 -/
def LOGICAL_OR_WITH_MIDDLE_STEM : Bin := ⟨'\u2a5b', .B, false⟩
/-- symbol.rs:1448 -/
def LOGICAL_AND_WITH_HORIZONTAL_DASH : Bin := ⟨'\u2a5c', .B, false⟩
/-- symbol.rs:1449 -/
def LOGICAL_OR_WITH_HORIZONTAL_DASH : Bin := ⟨'\u2a5d', .B, false⟩
/-- symbol.rs:1450 -/
def LOGICAL_AND_WITH_DOUBLE_OVERBAR : Bin := ⟨'\u2a5e', .B, false⟩
/-- symbol.rs:1451 -/
def LOGICAL_AND_WITH_UNDERBAR : Bin := ⟨'\u2a5f', .B, false⟩
/-- symbol.rs:1452 -/
def LOGICAL_AND_WITH_DOUBLE_UNDERBAR : Bin := ⟨'\u2a60', .B, false⟩
/-- symbol.rs:1454 -/
def LOGICAL_OR_WITH_DOUBLE_OVERBAR : Bin := ⟨'\u2a62', .B, false⟩
/-- symbol.rs:1455 -/
def LOGICAL_OR_WITH_DOUBLE_UNDERBAR : Bin := ⟨'\u2a63', .B, false⟩
/-- symbol.rs:1457 -/
def Z_NOTATION_DOMAIN_ANTIRESTRICTION : Op := ⟨'\u2a64', .C, false⟩
/-- symbol.rs:1458 -/
def Z_NOTATION_RANGE_ANTIRESTRICTION : Op := ⟨'\u2a65', .C, false⟩
/-- symbol.rs:1460 -/
def EQUALS_SIGN_WITH_DOT_BELOW : Rel := ⟨'\u2a66', .default, false⟩
/-- symbol.rs:1461 -/
def IDENTICAL_WITH_DOT_ABOVE : Rel := ⟨'\u2a67', .default, false⟩
/-- symbol.rs:1462 -/
def TRIPLE_HORIZONTAL_BAR_WITH_DOUBLE_VERTICAL_STROKE : Rel := ⟨'\u2a68', .default, false⟩
/-- symbol.rs:1464 -/
def TRIPLE_HORIZONTAL_BAR_WITH_TRIPLE_VERTICAL_STROKE : Rel := ⟨'\u2a69', .default, false⟩
/-- symbol.rs:1466 -/
def TILDE_OPERATOR_WITH_DOT_ABOVE : Rel := ⟨'\u2a6a', .default, false⟩
/-- symbol.rs:1467 -/
def TILDE_OPERATOR_WITH_RISING_DOTS : Rel := ⟨'\u2a6b', .default, false⟩
/-- symbol.rs:1468 -/
def SIMILAR_MINUS_SIMILAR : Rel := ⟨'\u2a6c', .default, false⟩
/-- symbol.rs:1469 -/
def CONGRUENT_WITH_DOT_ABOVE : Rel := ⟨'\u2a6d', .default, false⟩
/-- symbol.rs:1470 -/
def EQUALS_WITH_ASTERISK : Rel := ⟨'\u2a6e', .default, false⟩
/-- symbol.rs:1471 -/
def ALMOST_EQUAL_TO_WITH_CIRCUMFLEX_ACCENT : Rel := ⟨'\u2a6f', .default, false⟩
/-- symbol.rs:1472 -/
def APPROXIMATELY_EQUAL_OR_EQUAL_TO : Rel := ⟨'\u2a70', .default, false⟩
/-- symbol.rs:1473 -/
def EQUALS_SIGN_ABOVE_PLUS_SIGN : Rel := ⟨'\u2a71', .default, false⟩
/-- symbol.rs:1474 -/
def PLUS_SIGN_ABOVE_EQUALS_SIGN : Rel := ⟨'\u2a72', .default, false⟩
/-- symbol.rs:1475 -/
def EQUALS_SIGN_ABOVE_TILDE_OPERATOR : Rel := ⟨'\u2a73', .default, false⟩
/-- symbol.rs:1476 -/
def DOUBLE_COLON_EQUAL : Rel := ⟨'\u2a74', .default, false⟩
/-- symbol.rs:1477 -/
def TWO_CONSECUTIVE_EQUALS_SIGNS : Rel := ⟨'\u2a75', .default, false⟩
/-- symbol.rs:1478 -/
def THREE_CONSECUTIVE_EQUALS_SIGNS : Rel := ⟨'\u2a76', .default, false⟩
/-- symbol.rs:1479 -/
def EQUALS_SIGN_WITH_TWO_DOTS_ABOVE_AND_TWO_DOTS_BELOW : Rel := ⟨'\u2a77', .default, false⟩
/-- symbol.rs:1481 -/
def EQUIVALENT_WITH_FOUR_DOTS_ABOVE : Rel := ⟨'\u2a78', .default, false⟩
/-- symbol.rs:1482 -/
def LESS_THAN_WITH_CIRCLE_INSIDE : Rel := ⟨'\u2a79', .default, false⟩
/-- symbol.rs:1483 -/
def GREATER_THAN_WITH_CIRCLE_INSIDE : Rel := ⟨'\u2a7a', .default, false⟩
/-- symbol.rs:1484 -/
def LESS_THAN_WITH_QUESTION_MARK_ABOVE : Rel := ⟨'\u2a7b', .default, false⟩
/-- symbol.rs:1485 -/
def GREATER_THAN_WITH_QUESTION_MARK_ABOVE : Rel := ⟨'\u2a7c', .default, false⟩
/-- symbol.rs:1486 -/
def LESS_THAN_OR_SLANTED_EQUAL_TO : Rel := ⟨'\u2a7d', .default, false⟩
/-- symbol.rs:1487 -/
def GREATER_THAN_OR_SLANTED_EQUAL_TO : Rel := ⟨'\u2a7e', .default, false⟩
/-- symbol.rs:1488 -/
def LESS_THAN_OR_SLANTED_EQUAL_TO_WITH_DOT_INSIDE : Rel := ⟨'\u2a7f', .default, false⟩
/-- symbol.rs:1489 -/
def GREATER_THAN_OR_SLANTED_EQUAL_TO_WITH_DOT_INSIDE : Rel := ⟨'\u2a80', .default, false⟩
/-- symbol.rs:1491 -/
def LESS_THAN_OR_SLANTED_EQUAL_TO_WITH_DOT_ABOVE : Rel := ⟨'\u2a81', .default, false⟩
/-- symbol.rs:1492 -/
def GREATER_THAN_OR_SLANTED_EQUAL_TO_WITH_DOT_ABOVE : Rel := ⟨'\u2a82', .default, false⟩
/-- symbol.rs:1494 -/
def LESS_THAN_OR_SLANTED_EQUAL_TO_WITH_DOT_ABOVE_RIGHT : Rel := ⟨'\u2a83', .default, false⟩
/-- symbol.rs:1496 -/
def GREATER_THAN_OR_SLANTED_EQUAL_TO_WITH_DOT_ABOVE_LEFT : Rel := ⟨'\u2a84', .default, false⟩
/-- symbol.rs:1498 -/
def LESS_THAN_OR_APPROXIMATE : Rel := ⟨'\u2a85', .default, false⟩
/-- symbol.rs:1499 -/
def GREATER_THAN_OR_APPROXIMATE : Rel := ⟨'\u2a86', .default, false⟩
/-- symbol.rs:1500 -/
def LESS_THAN_AND_SINGLE_LINE_NOT_EQUAL_TO : Rel := ⟨'\u2a87', .default, false⟩
/-- symbol.rs:1501 -/
def GREATER_THAN_AND_SINGLE_LINE_NOT_EQUAL_TO : Rel := ⟨'\u2a88', .default, false⟩
/-- symbol.rs:1502 -/
def LESS_THAN_AND_NOT_APPROXIMATE : Rel := ⟨'\u2a89', .default, false⟩
/-- symbol.rs:1503 -/
def GREATER_THAN_AND_NOT_APPROXIMATE : Rel := ⟨'\u2a8a', .default, false⟩
/-- symbol.rs:1504 -/
def LESS_THAN_ABOVE_DOUBLE_LINE_EQUAL_ABOVE_GREATER_THAN : Rel := ⟨'\u2a8b', .default, false⟩
/-- symbol.rs:1506 -/
def GREATER_THAN_ABOVE_DOUBLE_LINE_EQUAL_ABOVE_LESS_THAN : Rel := ⟨'\u2a8c', .default, false⟩
/-- symbol.rs:1508 -/
def LESS_THAN_ABOVE_SIMILAR_OR_EQUAL : Rel := ⟨'\u2a8d', .default, false⟩
/-- symbol.rs:1509 -/
def GREATER_THAN_ABOVE_SIMILAR_OR_EQUAL : Rel := ⟨'\u2a8e', .default, false⟩
/-- symbol.rs:1510 -/
def LESS_THAN_ABOVE_SIMILAR_ABOVE_GREATER_THAN : Rel := ⟨'\u2a8f', .default, false⟩
/-- symbol.rs:1511 -/
def GREATER_THAN_ABOVE_SIMILAR_ABOVE_LESS_THAN : Rel := ⟨'\u2a90', .default, false⟩
/-- symbol.rs:1512 -/
def LESS_THAN_ABOVE_GREATER_THAN_ABOVE_DOUBLE_LINE_EQUAL : Rel := ⟨'\u2a91', .default, false⟩
/-- symbol.rs:1514 -/
def GREATER_THAN_ABOVE_LESS_THAN_ABOVE_DOUBLE_LINE_EQUAL : Rel := ⟨'\u2a92', .default, false⟩
/-- symbol.rs:1516 -/
def LESS_THAN_ABOVE_SLANTED_EQUAL_ABOVE_GREATER_THAN_ABOVE_SLANTED_EQUAL : Rel := ⟨'\u2a93', .default, false⟩
/-- symbol.rs:1518 -/
def GREATER_THAN_ABOVE_SLANTED_EQUAL_ABOVE_LESS_THAN_ABOVE_SLANTED_EQUAL : Rel := ⟨'\u2a94', .default, false⟩
/-- symbol.rs:1520 -/
def SLANTED_EQUAL_TO_OR_LESS_THAN : Rel := ⟨'\u2a95', .default, false⟩
/-- symbol.rs:1521 -/
def SLANTED_EQUAL_TO_OR_GREATER_THAN : Rel := ⟨'\u2a96', .default, false⟩
/-- symbol.rs:1522 -/
def SLANTED_EQUAL_TO_OR_LESS_THAN_WITH_DOT_INSIDE : Rel := ⟨'\u2a97', .default, false⟩
/-- symbol.rs:1523 -/
def SLANTED_EQUAL_TO_OR_GREATER_THAN_WITH_DOT_INSIDE : Rel := ⟨'\u2a98', .default, false⟩
/-- symbol.rs:1525 -/
def DOUBLE_LINE_EQUAL_TO_OR_LESS_THAN : Rel := ⟨'\u2a99', .default, false⟩
/-- symbol.rs:1526 -/
def DOUBLE_LINE_EQUAL_TO_OR_GREATER_THAN : Rel := ⟨'\u2a9a', .default, false⟩
/-- symbol.rs:1527 -/
def DOUBLE_LINE_SLANTED_EQUAL_TO_OR_LESS_THAN : Rel := ⟨'\u2a9b', .default, false⟩
/-- symbol.rs:1528 -/
def DOUBLE_LINE_SLANTED_EQUAL_TO_OR_GREATER_THAN : Rel := ⟨'\u2a9c', .default, false⟩
/-- symbol.rs:1529 -/
def SIMILAR_OR_LESS_THAN : Rel := ⟨'\u2a9d', .default, false⟩
/-- symbol.rs:1530 -/
def SIMILAR_OR_GREATER_THAN : Rel := ⟨'\u2a9e', .default, false⟩
/-- symbol.rs:1531 -/
def SIMILAR_ABOVE_LESS_THAN_ABOVE_EQUALS_SIGN : Rel := ⟨'\u2a9f', .default, false⟩
/-- symbol.rs:1532 -/
def SIMILAR_ABOVE_GREATER_THAN_ABOVE_EQUALS_SIGN : Rel := ⟨'\u2aa0', .default, false⟩
/-- symbol.rs:1533 -/
def DOUBLE_NESTED_LESS_THAN : Rel := ⟨'\u2aa1', .default, false⟩
/-- symbol.rs:1534 -/
def DOUBLE_NESTED_GREATER_THAN : Rel := ⟨'\u2aa2', .default, false⟩
/-- symbol.rs:1535 -/
def DOUBLE_NESTED_LESS_THAN_WITH_UNDERBAR : Rel := ⟨'\u2aa3', .default, false⟩
/-- symbol.rs:1536 -/
def GREATER_THAN_OVERLAPPING_LESS_THAN : Rel := ⟨'\u2aa4', .default, false⟩
/-- symbol.rs:1537 -/
def GREATER_THAN_BESIDE_LESS_THAN : Rel := ⟨'\u2aa5', .default, false⟩
/-- symbol.rs:1538 -/
def LESS_THAN_CLOSED_BY_CURVE : Rel := ⟨'\u2aa6', .default, false⟩
/-- symbol.rs:1539 -/
def GREATER_THAN_CLOSED_BY_CURVE : Rel := ⟨'\u2aa7', .default, false⟩
/-- symbol.rs:1540 -/
def LESS_THAN_CLOSED_BY_CURVE_ABOVE_SLANTED_EQUAL : Rel := ⟨'\u2aa8', .default, false⟩
/-- symbol.rs:1541 -/
def GREATER_THAN_CLOSED_BY_CURVE_ABOVE_SLANTED_EQUAL : Rel := ⟨'\u2aa9', .default, false⟩
/-- symbol.rs:1543 -/
def SMALLER_THAN : Rel := ⟨'\u2aaa', .default, false⟩
/-- symbol.rs:1544 -/
def LARGER_THAN : Rel := ⟨'\u2aab', .default, false⟩
/-- symbol.rs:1545 -/
def SMALLER_THAN_OR_EQUAL_TO : Rel := ⟨'\u2aac', .default, false⟩
/-- symbol.rs:1546 -/
def LARGER_THAN_OR_EQUAL_TO : Rel := ⟨'\u2aad', .default, false⟩
/-- symbol.rs:1547 -/
def EQUALS_SIGN_WITH_BUMPY_ABOVE : Rel := ⟨'\u2aae', .default, false⟩
/-- symbol.rs:1548 -/
def PRECEDES_ABOVE_SINGLE_LINE_EQUALS_SIGN : Rel := ⟨'\u2aaf', .default, false⟩
/-- symbol.rs:1549 -/
def SUCCEEDS_ABOVE_SINGLE_LINE_EQUALS_SIGN : Rel := ⟨'\u2ab0', .default, false⟩
/-- symbol.rs:1550 -/
def PRECEDES_ABOVE_SINGLE_LINE_NOT_EQUAL_TO : Rel := ⟨'\u2ab1', .default, false⟩
/-- symbol.rs:1551 -/
def SUCCEEDS_ABOVE_SINGLE_LINE_NOT_EQUAL_TO : Rel := ⟨'\u2ab2', .default, false⟩
/-- symbol.rs:1552 -/
def PRECEDES_ABOVE_EQUALS_SIGN : Rel := ⟨'\u2ab3', .default, false⟩
/-- symbol.rs:1553 -/
def SUCCEEDS_ABOVE_EQUALS_SIGN : Rel := ⟨'\u2ab4', .default, false⟩
/-- symbol.rs:1554 -/
def PRECEDES_ABOVE_NOT_EQUAL_TO : Rel := ⟨'\u2ab5', .default, false⟩
/-- symbol.rs:1555 -/
def SUCCEEDS_ABOVE_NOT_EQUAL_TO : Rel := ⟨'\u2ab6', .default, false⟩
/-- symbol.rs:1556 -/
def PRECEDES_ABOVE_ALMOST_EQUAL_TO : Rel := ⟨'\u2ab7', .default, false⟩
/-- symbol.rs:1557 -/
def SUCCEEDS_ABOVE_ALMOST_EQUAL_TO : Rel := ⟨'\u2ab8', .default, false⟩
/-- symbol.rs:1558 -/
def PRECEDES_ABOVE_NOT_ALMOST_EQUAL_TO : Rel := ⟨'\u2ab9', .default, false⟩
/-- symbol.rs:1559 -/
def SUCCEEDS_ABOVE_NOT_ALMOST_EQUAL_TO : Rel := ⟨'\u2aba', .default, false⟩
/-- symbol.rs:1560 -/
def DOUBLE_PRECEDES : Rel := ⟨'\u2abb', .default, false⟩
/-- symbol.rs:1561 -/
def DOUBLE_SUCCEEDS : Rel := ⟨'\u2abc', .default, false⟩
/-- symbol.rs:1563 -/
def SUBSET_WITH_DOT : Rel := ⟨'\u2abd', .default, false⟩
/-- symbol.rs:1564 -/
def SUPERSET_WITH_DOT : Rel := ⟨'\u2abe', .default, false⟩
/-- symbol.rs:1565 -/
def SUBSET_WITH_PLUS_SIGN_BELOW : Rel := ⟨'\u2abf', .default, false⟩
/-- symbol.rs:1566 -/
def SUPERSET_WITH_PLUS_SIGN_BELOW : Rel := ⟨'\u2ac0', .default, false⟩
/-- symbol.rs:1567 -/
def SUBSET_WITH_MULTIPLICATION_SIGN_BELOW : Rel := ⟨'\u2ac1', .default, false⟩
/-- symbol.rs:1568 -/
def SUPERSET_WITH_MULTIPLICATION_SIGN_BELOW : Rel := ⟨'\u2ac2', .default, false⟩
/-- symbol.rs:1569 -/
def SUBSET_OF_OR_EQUAL_TO_WITH_DOT_ABOVE : Rel := ⟨'\u2ac3', .default, false⟩
/-- symbol.rs:1570 -/
def SUPERSET_OF_OR_EQUAL_TO_WITH_DOT_ABOVE : Rel := ⟨'\u2ac4', .default, false⟩
/-- symbol.rs:1571 -/
def SUBSET_OF_ABOVE_EQUALS_SIGN : Rel := ⟨'\u2ac5', .default, false⟩
/-- symbol.rs:1572 -/
def SUPERSET_OF_ABOVE_EQUALS_SIGN : Rel := ⟨'\u2ac6', .default, false⟩
/-- symbol.rs:1573 -/
def SUBSET_OF_ABOVE_TILDE_OPERATOR : Rel := ⟨'\u2ac7', .default, false⟩
/-- symbol.rs:1574 -/
def SUPERSET_OF_ABOVE_TILDE_OPERATOR : Rel := ⟨'\u2ac8', .default, false⟩
/-- symbol.rs:1575 -/
def SUBSET_OF_ABOVE_ALMOST_EQUAL_TO : Rel := ⟨'\u2ac9', .default, false⟩
/-- symbol.rs:1576 -/
def SUPERSET_OF_ABOVE_ALMOST_EQUAL_TO : Rel := ⟨'\u2aca', .default, false⟩
/-- symbol.rs:1577 -/
def SUBSET_OF_ABOVE_NOT_EQUAL_TO : Rel := ⟨'\u2acb', .default, false⟩
/-- symbol.rs:1578 -/
def SUBSET_OF_ABOVE_NOT_EQUAL_TO_WITH_STROKE_THROUGH_BOTTOM_MEMBERS : Rel := ⟨'\u2acb', .default, true⟩
/-- symbol.rs:1580 -/
def SUPERSET_OF_ABOVE_NOT_EQUAL_TO : Rel := ⟨'\u2acc', .default, false⟩
/-- symbol.rs:1581 -/
def SUPERSET_OF_ABOVE_NOT_EQUAL_TO_WITH_STROKE_THROUGH_BOTTOM_MEMBERS : Rel := ⟨'\u2acc', .default, true⟩
/-- symbol.rs:1583 -/
def SQUARE_LEFT_OPEN_BOX_OPERATOR : Rel := ⟨'\u2acd', .default, false⟩
/-- symbol.rs:1584 -/
def SQUARE_RIGHT_OPEN_BOX_OPERATOR : Rel := ⟨'\u2ace', .default, false⟩
/-- symbol.rs:1585 -/
def CLOSED_SUBSET : Rel := ⟨'\u2acf', .default, false⟩
/-- symbol.rs:1586 -/
def CLOSED_SUPERSET : Rel := ⟨'\u2ad0', .default, false⟩
/-- symbol.rs:1587 -/
def CLOSED_SUBSET_OR_EQUAL_TO : Rel := ⟨'\u2ad1', .default, false⟩
/-- symbol.rs:1588 -/
def CLOSED_SUPERSET_OR_EQUAL_TO : Rel := ⟨'\u2ad2', .default, false⟩
/-- symbol.rs:1589 -/
def SUBSET_ABOVE_SUPERSET : Rel := ⟨'\u2ad3', .default, false⟩
/-- symbol.rs:1590 -/
def SUPERSET_ABOVE_SUBSET : Rel := ⟨'\u2ad4', .default, false⟩
/-- symbol.rs:1591 -/
def SUBSET_ABOVE_SUBSET : Rel := ⟨'\u2ad5', .default, false⟩
/-- symbol.rs:1592 -/
def SUPERSET_ABOVE_SUPERSET : Rel := ⟨'\u2ad6', .default, false⟩
/-- symbol.rs:1593 -/
def SUPERSET_BESIDE_SUBSET : Rel := ⟨'\u2ad7', .default, false⟩
/-- symbol.rs:1594 -/
def SUPERSET_BESIDE_AND_JOINED_BY_DASH_WITH_SUBSET : Rel := ⟨'\u2ad8', .default, false⟩
/-- symbol.rs:1596 -/
def SHORT_LEFT_TACK : Rel := ⟨'\u2ade', .default, false⟩
/-- symbol.rs:1597 -/
def SHORT_DOWN_TACK : Rel := ⟨'\u2adf', .default, false⟩
/-- symbol.rs:1598 -/
def SHORT_UP_TACK : Rel := ⟨'\u2ae0', .default, false⟩
/-- symbol.rs:1599 -/
def PERPENDICULAR_WITH_S : Rel := ⟨'\u2ae1', .default, false⟩
/-- symbol.rs:1600 -/
def VERTICAL_BAR_TRIPLE_RIGHT_TURNSTILE : Rel := ⟨'\u2ae2', .default, false⟩
/-- symbol.rs:1601 -/
def DOUBLE_VERTICAL_BAR_LEFT_TURNSTILE : Rel := ⟨'\u2ae3', .default, false⟩
/-- symbol.rs:1602 -/
def VERTICAL_BAR_DOUBLE_LEFT_TURNSTILE : Rel := ⟨'\u2ae4', .default, false⟩
/-- symbol.rs:1603 -/
def DOUBLE_VERTICAL_BAR_DOUBLE_LEFT_TURNSTILE : Rel := ⟨'\u2ae5', .default, false⟩
/-- symbol.rs:1604 -/
def LONG_DASH_FROM_LEFT_MEMBER_OF_DOUBLE_VERTICAL : Rel := ⟨'\u2ae6', .default, false⟩
/-- symbol.rs:1605 -/
def SHORT_DOWN_TACK_WITH_OVERBAR : Rel := ⟨'\u2ae7', .default, false⟩
/-- symbol.rs:1606 -/
def SHORT_UP_TACK_WITH_UNDERBAR : Rel := ⟨'\u2ae8', .default, false⟩
/-- symbol.rs:1607 -/
def SHORT_UP_TACK_ABOVE_SHORT_DOWN_TACK : Rel := ⟨'\u2ae9', .default, false⟩
/-- symbol.rs:1608 -/
def DOUBLE_DOWN_TACK : Rel := ⟨'\u2aea', .default, false⟩
/-- symbol.rs:1609 -/
def DOUBLE_UP_TACK : Rel := ⟨'\u2aeb', .default, false⟩
/-- symbol.rs:1611 -/
def DOES_NOT_DIVIDE_WITH_REVERSED_NEGATION_SLASH : Rel := ⟨'\u2aee', .default, false⟩
/-- symbol.rs:1613 -/
def PARALLEL_WITH_HORIZONTAL_STROKE : Rel := ⟨'\u2af2', .default, false⟩
/-- symbol.rs:1614 -/
def PARALLEL_WITH_TILDE_OPERATOR : Rel := ⟨'\u2af3', .default, false⟩
/-- symbol.rs:1616 -/
def TRIPLE_COLON_OPERATOR : Bin := ⟨'\u2af6', .B, false⟩
/-- symbol.rs:1618 -/
def TRIPLE_NESTED_LESS_THAN : Rel := ⟨'\u2af7', .default, false⟩
/-- symbol.rs:1619 -/
def TRIPLE_NESTED_GREATER_THAN : Rel := ⟨'\u2af8', .default, false⟩
/-- symbol.rs:1620 -/
def DOUBLE_LINE_SLANTED_LESS_THAN_OR_EQUAL_TO : Rel := ⟨'\u2af9', .default, false⟩
/-- symbol.rs:1621 -/
def DOUBLE_LINE_SLANTED_GREATER_THAN_OR_EQUAL_TO : Rel := ⟨'\u2afa', .default, false⟩
/-- symbol.rs:1623 -/
def LARGE_TRIPLE_VERTICAL_BAR_OPERATOR : Op := ⟨'\u2afc', .J, false⟩
/-- symbol.rs:1624 -/
def DOUBLE_SOLIDUS_OPERATOR : Bin := ⟨'\u2afd', .B, false⟩
/-- symbol.rs:1625 -/
def WHITE_VERTICAL_BAR : Op := ⟨'\u2afe', .C, false⟩
/-- symbol.rs:1626 -/
def N_ARY_WHITE_VERTICAL_BAR : Op := ⟨'\u2aff', .J, false⟩
/-- symbol.rs:1631 -/
def LEFT_ARROW_WITH_SMALL_CIRCLE : Rel := ⟨'\u2b30', .A, false⟩
/-- symbol.rs:1632 -/
def THREE_LEFTWARDS_ARROWS : Rel := ⟨'\u2b31', .A, false⟩
/-- symbol.rs:1633 -/
def LEFT_ARROW_WITH_CIRCLED_PLUS : Rel := ⟨'\u2b32', .A, false⟩
/-- symbol.rs:1634 -/
def LONG_LEFTWARDS_SQUIGGLE_ARROW : Rel := ⟨'\u2b33', .A, false⟩
/-- symbol.rs:1635 -/
def LEFTWARDS_TWO_HEADED_ARROW_WITH_VERTICAL_STROKE : Rel := ⟨'\u2b34', .A, false⟩
/-- symbol.rs:1636 -/
def LEFTWARDS_TWO_HEADED_ARROW_WITH_DOUBLE_VERTICAL_STROKE : Rel := ⟨'\u2b35', .A, false⟩
/-- symbol.rs:1638 -/
def LEFTWARDS_TWO_HEADED_ARROW_FROM_BAR : Rel := ⟨'\u2b36', .A, false⟩
/-- symbol.rs:1639 -/
def LEFTWARDS_TWO_HEADED_TRIPLE_DASH_ARROW : Rel := ⟨'\u2b37', .A, false⟩
/-- symbol.rs:1640 -/
def LEFTWARDS_ARROW_WITH_DOTTED_STEM : Rel := ⟨'\u2b38', .A, false⟩
/-- symbol.rs:1641 -/
def LEFTWARDS_ARROW_WITH_TAIL_WITH_VERTICAL_STROKE : Rel := ⟨'\u2b39', .A, false⟩
/-- symbol.rs:1642 -/
def LEFTWARDS_ARROW_WITH_TAIL_WITH_DOUBLE_VERTICAL_STROKE : Rel := ⟨'\u2b3a', .A, false⟩
/-- symbol.rs:1644 -/
def LEFTWARDS_TWO_HEADED_ARROW_WITH_TAIL : Rel := ⟨'\u2b3b', .A, false⟩
/-- symbol.rs:1645 -/
def LEFTWARDS_TWO_HEADED_ARROW_WITH_TAIL_WITH_VERTICAL_STROKE : Rel := ⟨'\u2b3c', .A, false⟩
/-- symbol.rs:1647 -/
def LEFTWARDS_TWO_HEADED_ARROW_WITH_TAIL_WITH_DOUBLE_VERTICAL_STROKE : Rel := ⟨'\u2b3d', .A, false⟩
/-- symbol.rs:1649 -/
def LEFTWARDS_ARROW_THROUGH_X : Rel := ⟨'\u2b3e', .A, false⟩
/-- symbol.rs:1650 -/
def WAVE_ARROW_POINTING_DIRECTLY_LEFT : Rel := ⟨'\u2b3f', .default, false⟩
/-- symbol.rs:1651 -/
def EQUALS_SIGN_ABOVE_LEFTWARDS_ARROW : Rel := ⟨'\u2b40', .A, false⟩
/-- symbol.rs:1652 -/
def REVERSE_TILDE_OPERATOR_ABOVE_LEFTWARDS_ARROW : Rel := ⟨'\u2b41', .A, false⟩
/-- symbol.rs:1653 -/
def LEFTWARDS_ARROW_ABOVE_REVERSE_ALMOST_EQUAL_TO : Rel := ⟨'\u2b42', .A, false⟩
/-- symbol.rs:1654 -/
def RIGHTWARDS_ARROW_THROUGH_GREATER_THAN : Rel := ⟨'\u2b43', .A, false⟩
/-- symbol.rs:1655 -/
def RIGHTWARDS_ARROW_THROUGH_SUPERSET : Rel := ⟨'\u2b44', .A, false⟩
/-- symbol.rs:1656 -/
def LEFTWARDS_QUADRUPLE_ARROW : Rel := ⟨'\u2b45', .A, false⟩
/-- symbol.rs:1657 -/
def RIGHTWARDS_QUADRUPLE_ARROW : Rel := ⟨'\u2b46', .A, false⟩
/-- symbol.rs:1658 -/
def REVERSE_TILDE_OPERATOR_ABOVE_RIGHTWARDS_ARROW : Rel := ⟨'\u2b47', .A, false⟩
/-- symbol.rs:1659 -/
def RIGHTWARDS_ARROW_ABOVE_REVERSE_ALMOST_EQUAL_TO : Rel := ⟨'\u2b48', .A, false⟩
/-- symbol.rs:1660 -/
def TILDE_OPERATOR_ABOVE_LEFTWARDS_ARROW : Rel := ⟨'\u2b49', .A, false⟩
/-- symbol.rs:1661 -/
def LEFTWARDS_ARROW_ABOVE_ALMOST_EQUAL_TO : Rel := ⟨'\u2b4a', .A, false⟩
/-- symbol.rs:1662 -/
def LEFTWARDS_ARROW_ABOVE_REVERSE_TILDE_OPERATOR : Rel := ⟨'\u2b4b', .A, false⟩
/-- symbol.rs:1663 -/
def RIGHTWARDS_ARROW_ABOVE_REVERSE_TILDE_OPERATOR : Rel := ⟨'\u2b4c', .A, false⟩

end Verif.Model.Sym

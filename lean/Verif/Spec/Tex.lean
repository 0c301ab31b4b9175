import Verif.Spec.Latex
import Verif.Spec.Typed
import Verif.Spec.Color
/-!
Formulas of LaTeX as trees: how they are written, and what is to be shown for them. Nothing here is about the converter.
-/
namespace Verif.Spec

/-! ### Syntax -/

mutual
/-- A formula: things with scripts, one after the other -/
inductive Tex
  | nil
  | item (n : Nuc) (s : Scr) (rest : Tex)
  /-- `\displaystyle` and so on, up to the end -/
  | style (name : Str) (rest : Tex)
  /-- `\color{…}` or `\color[…]{…}`, up to the end -/
  | color (x : Colour) (rest : Tex)
/-- What scripts are attached to -/
inductive Nuc
  /-- a symbol which is typed -/
  | char (c : Char)
  /-- a symbol which is given by a command -/
  | named (row : SymbolRow)
  /-- a number, perhaps with decimals -/
  | number (whole decimals : Str)
  /-- `\sin`, `\lim` and so on -/
  | function (row : FunctionRow)
  /-- `\operatorname{…}` -/
  | operator (name : Str)
  /-- `{…}` -/
  | braces (f : Tex)
  /-- `\frac` and so on, and `\binom` and so on -/
  | fraction (binomial : Bool) (name : Str) (a b : TexArg)
  /-- `\sqrt` -/
  | root (a : TexArg)
  /-- `\sqrt[…]` -/
  | rootOf (degree : Tex) (a : TexArg)
  /-- `\hat`, `\vec`, `\overline` and so on -/
  | accent (row : AccentRow) (a : TexArg)
  /-- `\overbrace` and so on -/
  | brace (row : AccentRow) (a : TexArg)
  /-- `\overbrace{…}^…` and `\underbrace{…}_…` and so on -/
  | labelled (row : AccentRow) (a label : TexArg)
  /-- `\overset` and `\underset` -/
  | stack (over : Bool) (symbol base : TexArg)
  /-- `\left … \right` -/
  | fence (l r : DelimRow) (f : Tex)
  /-- `\quad` and so on -/
  | space (name : Str)
  /-- `\mathbb{R}` and so on -/
  | font (row : FontRow) (c : Char)
  /-- `\big(` and so on -/
  | sized (name : Str) (d : DelimRow)
  /-- `\xrightarrow{…}` and so on -/
  | arrow (row : ArrowRow) (label : TexArg)
  /-- `\xrightarrow[…]{…}` and so on -/
  | arrowBoth (row : ArrowRow) (below : Tex) (label : TexArg)
  /-- `\phantom`, and `\hphantom` and `\vphantom` -/
  | phantom (name : Str) (a : TexArg)
  /-- `\cancel`, `\boxed` and so on -/
  | stroke (row : Str × Nat) (a : TexArg)
  /-- `\text{…}` and so on -/
  | text (row : TextRow) (s : Str)
  /-- `\mathrm{abc}` and so on -/
  | word (row : FontRow) (s : Str)
  /-- `\left … \middle … \right` -/
  | fenceMiddle (l m r : DelimRow) (f g : Tex)
  /-- `\sum\limits`, `\int\nolimits` and so on -/
  | symbolLimits (row : SymbolRow) (above : Bool)
  /-- `\max\limits` and so on -/
  | functionLimits (row : FunctionRow) (above : Bool)
  /-- `\operatorname*{…}` -/
  | operatorLimits (name : Str)
  /-- `\not=` and so on -/
  | negated (row : NegatedRow)
  /-- `\begin{pmatrix} … \end{pmatrix}` and so on -/
  | table (row : TableRow) (t : Table)
  /-- `\begin{array}{lcr} … \end{array}` -/
  | array (name columns : Str) (t : Table)
/-- An argument: a formula in braces, or a single symbol or digit -/
inductive TexArg
  | braces (f : Tex)
  | char (c : Char)
  | named (row : SymbolRow)
/-- Scripts, in the order in which they are written -/
inductive Scr
  | none
  | sub (a : TexArg)
  | sup (a : TexArg)
  | subSup (a b : TexArg)
  | supSub (b a : TexArg)
  /-- `'`, `''` and so on (one more than `n`) -/
  | primes (n : Nat)
  | primesSub (n : Nat) (a : TexArg)
  | subPrimes (a : TexArg) (n : Nat)
  | primesSup (n : Nat) (b : TexArg)
/-- The cells of a table: the last one, one which is followed by `&`, or one which is followed by `\\` -/
inductive Table
  | last (f : Tex)
  | amp (f : Tex) (rest : Table)
  | newRow (f : Tex) (rest : Table)
end

/-! ### How it is written -/

/-- Something in braces -/
def braced (ls : List Lexeme) : List Lexeme := .char '{' :: ls ++ [.char '}']

/-- A number -/
def numberText (whole decimals : Str) : Str := whole ++ if decimals = [] then [] else '.' :: decimals

/-- Primes, with nothing between them -/
def primeMarks (n : Nat) : List Lexeme := .char '\'' :: List.replicate n (.next '\'')

/-- A character of text -/
def textLexeme (c : Char) : Lexeme := if c = ' ' then .blank else .next c

/-- A text in braces, without whitespace -/
def Lexeme.textIn (text : Str) : List Lexeme := .char '{' :: (text.map .next ++ [.next '}'])

/-- Characters of such texts -/
def isTagChar (c : Char) : Bool := isAsciiAlpha c || isAsciiDigit c || decide (c ∈ c!":.,-+*/!?@=;|")

/-- `\color` with its arguments -/
def colorLexemes (model : Option Str) (text : Str) : List Lexeme :=
  .command c!"color" :: ((match model with
    | none => []
    | some m => .char '[' :: (m.map .char ++ [.char ']'])) ++ Lexeme.textIn text)

/-- How a colour is written -/
def Colour.lexemes (x : Colour) : List Lexeme := colorLexemes x.model x.text

/-- `\limits` or `\nolimits` -/
def limitsName (above : Bool) : Str := if above then c!"limits" else c!"nolimits"

mutual
/-- What the source of a formula consists of -/
def Tex.lexemes : Tex → List Lexeme
  | .nil => []
  | .item n s rest => n.lexemes ++ (s.lexemes ++ rest.lexemes)
  | .style name rest => .command name :: rest.lexemes
  | .color x rest => x.lexemes ++ rest.lexemes
/-- The same for what scripts are attached to -/
def Nuc.lexemes : Nuc → List Lexeme
  | .char c => [.char c]
  | .named row => [.command row.name]
  | .number w d => (numberText w d).map .char
  | .function row => [.command row.name]
  | .operator name => .command c!"operatorname" :: braced (name.map .char)
  | .braces f => braced f.lexemes
  | .fraction _ name a b => .command name :: (a.lexemes ++ b.lexemes)
  | .root a => .command c!"sqrt" :: a.lexemes
  | .rootOf degree a => .command c!"sqrt" :: .char '[' :: (degree.lexemes ++ .char ']' :: a.lexemes)
  | .accent row a | .brace row a => .command row.name :: a.lexemes
  | .labelled row a label => .command row.name :: (a.lexemes ++ .char (if row.over then '^' else '_') :: label.lexemes)
  | .stack over symbol base => .command (if over then c!"overset" else c!"underset") :: (symbol.lexemes ++ base.lexemes)
  | .fence l r f => .command c!"left" :: l.written :: (f.lexemes ++ [.command c!"right", r.written])
  | .space name => [.command name]
  | .font row c => .command row.name :: braced [.char c]
  | .sized name d => [.command name, d.written]
  | .arrow row label => .command row.name :: label.lexemes
  | .arrowBoth row below label => .command row.name :: .char '[' :: (below.lexemes ++ .char ']' :: label.lexemes)
  | .phantom name a => .command name :: a.lexemes
  | .stroke row a => .command row.1 :: a.lexemes
  | .text row s => .command row.name :: .next '{' :: (s.map textLexeme ++ [.next '}'])
  | .word row s => .command row.name :: braced (s.map .char)
  | .fenceMiddle l m r f g => .command c!"left" :: l.written :: (f.lexemes ++ (.command c!"middle" :: m.written ::
      (g.lexemes ++ [.command c!"right", r.written])))
  | .symbolLimits row above => [.command row.name, .command (limitsName above)]
  | .functionLimits row above => [.command row.name, .command (limitsName above)]
  | .operatorLimits name => .command c!"operatorname*" :: braced (name.map .char)
  | .negated row => [.command c!"not", row.written]
  | .table row t => .opens row.name :: (t.lexemes ++ [.closes row.name])
  | .array name columns t => .opens name :: .char '{' :: (columns.map .next ++ .next '}' :: (t.lexemes ++ [.closes name]))
/-- The same for arguments -/
def TexArg.lexemes : TexArg → List Lexeme
  | .braces f => braced f.lexemes
  | .char c => [.char c]
  | .named row => [.command row.name]
/-- The same for scripts -/
def Scr.lexemes : Scr → List Lexeme
  | .none => []
  | .sub a => .char '_' :: a.lexemes
  | .sup a => .char '^' :: a.lexemes
  | .subSup a b => .char '_' :: (a.lexemes ++ .char '^' :: b.lexemes)
  | .supSub b a => .char '^' :: (b.lexemes ++ .char '_' :: a.lexemes)
  | .primes n => primeMarks n
  | .primesSub n a => primeMarks n ++ .char '_' :: a.lexemes
  | .subPrimes a n => .char '_' :: (a.lexemes ++ primeMarks n)
  | .primesSup n b => primeMarks n ++ .next '^' :: b.lexemes
/-- The same for tables -/
def Table.lexemes : Table → List Lexeme
  | .last f => f.lexemes
  | .amp f rest => f.lexemes ++ .char '&' :: rest.lexemes
  | .newRow f rest => f.lexemes ++ .command c!"\\" :: rest.lexemes
end

/-- All the whitespace before something -/
def Gap (w s : Str) : Prop := (∀ c ∈ w, isAsciiWs c = true) ∧ ∀ c ∈ s.head?, isAsciiWs c = false

/-- The source consists of these lexemes, with whitespace between them where one likes; there must be some between a command
and a letter (or a star). Whitespace after a command does not count. -/
inductive Prints : List Lexeme → Str → Prop
  | nil : Prints [] []
  | space {c ls s} : isAsciiWs c = true → (∀ l ∈ ls.head?, l.tight = false) → Prints ls s → Prints ls (c :: s)
  | char {c ls s} : isAsciiWs c = false → c ∉ ['\x00', '#', '%', '\\'] → Prints ls s → Prints (.char c :: ls) (c :: s)
  | next {c ls s} : isAsciiWs c = false → c ∉ ['\x00', '#', '%', '\\'] → Prints ls s → Prints (.next c :: ls) (c :: s)
  | blank {w ls s} : w ≠ [] → Gap w s → Prints ls s → Prints (.blank :: ls) (w ++ s)
  | word {name w ls s} : name ≠ [] → (∀ c ∈ name, isAsciiAlpha c = true) → Gap w s →
    (∀ c ∈ (w ++ s).head?, isAsciiAlpha c = false ∧ c ≠ '*') → Prints ls s → Prints (.command name :: ls) ('\\' :: name ++ (w ++ s))
  | starred {name w ls s} : name ≠ [] → (∀ c ∈ name, isAsciiAlpha c = true) → Gap w s → Prints ls s →
    Prints (.command (name ++ ['*']) :: ls) ('\\' :: name ++ '*' :: (w ++ s))
  | sign {c w ls s} : isAsciiAlpha c = false → c ≠ '*' → Gap w s → Prints ls s →
    Prints (.command [c] :: ls) ('\\' :: c :: (w ++ s))
  | opens {name ls s} : (∀ c ∈ name, isAsciiAlpha c = true ∨ c = '*') → Prints ls s →
    Prints (.opens name :: ls) (c!"\\begin{" ++ name ++ '}' :: s)
  | closes {name ls s} : (∀ c ∈ name, isAsciiAlpha c = true ∨ c = '*') → Prints ls s →
    Prints (.closes name :: ls) (c!"\\end{" ++ name ++ '}' :: s)

/-! ### What is shown -/

/-- What is to be shown: symbols, elements with text and elements with elements -/
inductive Tree
  | sym (text : Str)
  | leaf (name text : Str)
  | node (name : Str) (kids : List Tree)

/-- Several things in the place of one -/
def Tree.one : List Tree → Tree
  | [t] => t
  | ts => .node c!"mrow" ts

/-- A single character -/
def Tree.char (n : Nat) : Tree := .sym [Char.ofNat n]

/-- Scripts at the side -/
def Tree.withScripts (t : Tree) : Option Tree × Option Tree → Tree
  | (none, none) => t
  | (some a, none) => .node c!"msub" [t, a]
  | (none, some b) => .node c!"msup" [t, b]
  | (some a, some b) => .node c!"msubsup" [t, a, b]

/-- Scripts below and above -/
def Tree.withLimits (t : Tree) : Option Tree × Option Tree → Tree
  | (none, none) => t
  | (some a, none) => .node c!"munder" [t, a]
  | (none, some b) => .node c!"mover" [t, b]
  | (some a, some b) => .node c!"munderover" [t, a, b]

/-- Up to four primes -/
def Tree.primes (n : Nat) : Tree := .char ([0x2032, 0x2033, 0x2034, 0x2057].getD n 0)

/-- The label of an arrow, which is at least as wide as the space above or below it -/
def Tree.label (over : Bool) (t : Tree) : Tree :=
  .node (if over then c!"mover" else c!"munder")
    [.node c!"mrow" [.leaf c!"mspace" [], t, .leaf c!"mspace" []], .leaf c!"mspace" []]

/-- An arrow with space around it -/
def Tree.spaced (t : Tree) : Tree := .node c!"mrow" [.leaf c!"mspace" [], t, .leaf c!"mspace" []]

/-- Integrals, which have their limits at the side -/
def integralChars : List CharRange := [(0x222b, 0x2233), (0x2a0b, 0x2a1c)]

/-- The limits of large operators are below and above them (if these are not integrals). -/
def Symbol.limits (x : Symbol) : Bool := decide (x.type = .op) && !within x.char.toNat integralChars

/-- Are scripts put below and above? -/
def Nuc.limits : Nuc → Bool
  | .char c => (typedSymbol c).limits
  | .named row => row.symbol.limits
  | .function row => row.limits
  | .symbolLimits _ above | .functionLimits _ above => above
  | .operatorLimits _ => true
  | _ => false

/-- A table, perhaps with empty cells at the sides -/
def tableTree (sides : Bool) (rows : List (List (List Tree))) : Tree :=
  .node c!"mtable" (rows.map fun cells => .node c!"mtr"
    (if sides then .node c!"mtd" [] :: (cells.map (.node c!"mtd" ·) ++ [.node c!"mtd" []]) else cells.map (.node c!"mtd" ·)))

/-- Something below or above -/
def Tree.stacked (over : Bool) (base symbol : Tree) : Tree := .node (if over then c!"mover" else c!"munder") [base, symbol]

mutual
/-- What is shown for a formula -/
def Tex.trees : Tex → List Tree
  | .nil => []
  | .item n s rest => (if n.limits then n.tree.withLimits s.trees else n.tree.withScripts s.trees) :: rest.trees
  | .style _ rest => [.node c!"mrow" rest.trees]
  | .color _ rest => [.node c!"mrow" rest.trees]
/-- The same for what scripts are attached to -/
def Nuc.tree : Nuc → Tree
  | .char c => .sym [shownFor c]
  | .named row => .char row.char
  | .number w d => .leaf c!"mn" (numberText w d)
  | .function row => .sym row.shown
  | .operator name => .sym name
  | .braces f => .one f.trees
  | .fraction binomial _ a b =>
    if binomial then .node c!"mrow" [.char 0x28, .node c!"mfrac" [a.tree, b.tree], .char 0x29]
    else .node c!"mfrac" [a.tree, b.tree]
  | .root a => .node c!"msqrt" [a.tree]
  | .rootOf degree a => .node c!"mroot" [a.tree, .one degree.trees]
  | .accent row a | .brace row a => a.tree.stacked row.over (.char row.char)
  | .labelled row a label => (a.tree.stacked row.over (.char row.char)).stacked row.over label.tree
  | .stack over symbol base => base.tree.stacked over symbol.tree
  | .fence l r f => .node c!"mrow" (.char l.shown :: f.trees ++ [.char r.shown])
  | .space _ => .leaf c!"mspace" []
  | .font row c => .sym (row.shown c)
  | .sized _ d => .char d.shown
  | .arrow row label => .spaced (.node c!"mover" [.char row.char, label.tree.label true])
  | .arrowBoth row below label =>
    .spaced (.node c!"munderover" [.char row.char, Tree.label false (.one below.trees), label.tree.label true])
  | .phantom name a =>
    if name = c!"phantom" then .node c!"mphantom" [a.tree] else .node c!"mpadded" [.node c!"mphantom" [a.tree]]
  | .stroke row a => .node c!"menclose" (a.tree :: List.replicate row.2 (.leaf c!"mrow" []))
  | .text row s =>
    match row.element with
    | none => .leaf c!"mtext" (s.map textShown)
    | some name => .node c!"mtext" [.leaf name (s.map textShown)]
  | .word row s => .sym (s.flatMap row.shown)
  | .fenceMiddle l m r f g => .node c!"mrow" (.char l.shown :: (f.trees ++ .char m.shown :: g.trees) ++ [.char r.shown])
  | .symbolLimits row _ => .char row.char
  | .functionLimits row _ => .sym row.shown
  | .operatorLimits name => .sym name
  | .negated row => .char row.shown
  | .table row t =>
    let table := tableTree false t.rows
    match row.left, row.right with
    | some l, some r => .node c!"mrow" [.char l, table, .char r]
    | _, _ => table
  | .array _ _ t => tableTree false t.rows
/-- The same for arguments -/
def TexArg.tree : TexArg → Tree
  | .braces f => .one f.trees
  | .char c => if isAsciiDigit c then .leaf c!"mn" [c] else .sym [shownFor c]
  | .named row => .char row.char
/-- The same for scripts: below and above -/
def Scr.trees : Scr → Option Tree × Option Tree
  | .none => (none, none)
  | .sub a => (some a.tree, none)
  | .sup b => (none, some b.tree)
  | .subSup a b | .supSub b a => (some a.tree, some b.tree)
  | .primes n => (none, some (.primes n))
  | .primesSub n a | .subPrimes a n => (some a.tree, some (.primes n))
  | .primesSup n b => (none, some (.node c!"mrow" [.primes n, b.tree]))
/-- The rows and cells of a table -/
def Table.rows : Table → List (List (List Tree))
  | .last f => [[f.trees]]
  | .amp f rest =>
    match rest.rows with
    | row :: rows => (f.trees :: row) :: rows
    | [] => []
  | .newRow f rest => [f.trees] :: rest.rows
end

/-! ### Which formulas are meant -/

/-- The commands for symbols -/
def namedSymbols : List SymbolRow := symbolRows ++ latexRows

/-- Commands whose symbol or type is not the one of LaTeX in the output -/
def oddSymbols : List Str :=
  oddNames ++ [c!"circledR", c!"bigcirc", c!"lhd", c!"rhd", c!"unlhd", c!"unrhd", c!"colon"]

/-- Would this belong to the number in front of it? -/
def Lexeme.continuesDigits : Lexeme → Bool
  | .char c | .next c => isAsciiDigit c || c == '.'
  | _ => false

/-- A row does not begin with something which would belong to `\\`. -/
def Lexeme.afterNewRow : Lexeme → Bool
  | .char c | .next c => c != '[' && c != '*'
  | _ => true

/-- No scripts -/
def Scr.isNone : Scr → Bool
  | .none => true
  | _ => false

/-- No two spaces follow each other. -/
def singleSpaces : Str → Bool
  | ' ' :: ' ' :: _ => false
  | _ :: s => singleSpaces s
  | [] => true

mutual
/-- The symbols and commands are known and none of the odd ones (nor the capital I of Fraktur), digits which follow each other are one number, there are
scripts only where it is clear what they mean, there is no `]` directly in square brackets, an argument which is not in
braces is not an operator with limits, and the style and colour are not changed directly in square brackets or (if `cell`) in a cell of a
table. -/
def Tex.proper (bracket cell : Bool) : Tex → Bool
  | .nil => true
  | .item n s rest => n.proper bracket s (s.lexemes ++ rest.lexemes) && s.proper && rest.proper bracket cell
  | .style name rest => !bracket && !cell && decide (name ∈ styleNames) && rest.proper bracket cell
  | .color x rest => !bracket && !cell && x.proper && rest.proper bracket cell
/-- The same for what scripts are attached to -/
def Nuc.proper (bracket : Bool) : Nuc → Scr → List Lexeme → Bool
  | .char c, _, _ => isSymbol c && !isAsciiDigit c && !(bracket && c == ']')
  | .named row, _, _ => decide (row ∈ namedSymbols) && decide (row.name ∉ oddSymbols) && !(bracket && row.char == 0x5d)
  | .number w d, _, after => !w.isEmpty && w.all isAsciiDigit && d.all isAsciiDigit && !after.head?.any Lexeme.continuesDigits
  | .function row, _, _ => decide (row ∈ functionRows)
  | .operator name, _, _ => name.all isAsciiAlpha
  | .braces f, _, _ => f.proper false false
  | .fraction binomial name a b, _, _ =>
    decide (name ∈ if binomial then binomialNames else fractionNames) && a.proper && b.proper
  | .root a, _, _ => a.proper
  | .rootOf degree a, _, _ => degree.proper true false && a.proper
  | .accent row a, _, _ => decide (row ∈ accentRows) && a.proper
  | .brace row a, s, _ => decide (row ∈ braceRows) && a.proper && s.isNone
  | .labelled row a label, s, _ => decide (row ∈ braceRows) && a.proper && label.proper && s.isNone
  | .stack _ symbol base, _, _ => symbol.proper && base.proper
  | .fence l r f, _, _ => decide (l ∈ delimRows) && decide (r ∈ delimRows) && f.proper false false
  | .space name, s, _ => decide (name ∈ spaceNames) && s.isNone
  | .font row c, _, _ => decide (row ∈ fontRows) && isAsciiAlpha c && !(row.capitalA == 0x1d504 && c == 'I')
  | .sized name d, _, _ => decide (name ∈ sizeNames) && decide (d ∈ delimRows) && decide (d.written ≠ .char '.')
  | .arrow row label, _, _ => decide (row ∈ arrowRows) && label.proper
  | .arrowBoth row below label, _, _ => decide (row ∈ arrowRows) && below.proper true false && label.proper
  | .phantom name a, _, _ => decide (name ∈ [c!"phantom", c!"hphantom", c!"vphantom"]) && a.proper
  | .stroke row a, _, _ => decide (row ∈ strokeRows) && a.proper
  | .text row s, _, _ => decide (row ∈ textRows) && !s.isEmpty && s.all isText && singleSpaces s
  | .word row s, _, _ => decide (row ∈ fontRows) && decide (2 ≤ s.length) && s.all isAsciiAlpha &&
    !(row.capitalA == 0x1d504 && s.contains 'I')
  | .fenceMiddle l m r f g, _, _ => decide (l ∈ delimRows) && decide (m ∈ delimRows) && decide (r ∈ delimRows) &&
    decide (m.written ≠ .char '.') && f.proper false true && g.proper false true
  | .symbolLimits row _, _, _ => decide (row ∈ namedSymbols) && decide (row.name ∉ oddSymbols) && decide (row.type = .op)
  | .functionLimits row _, _, _ => decide (row ∈ functionRows)
  | .operatorLimits name, _, _ => name.all isAsciiAlpha
  | .negated row, _, _ => decide (row ∈ negatedRows)
  | .table row t, _, _ => decide (row ∈ tableRows) && t.proper row.columns
  | .array name columns t, _, _ => decide (name ∈ arrayNames) && isColumns columns && t.proper true
/-- The same for arguments -/
def TexArg.proper : TexArg → Bool
  | .braces f => f.proper false false
  | .char c => isSymbol c && decide ((typedSymbol c).type ≠ .op) && c != '['
  | .named row => decide (row ∈ namedSymbols) && decide (row.name ∉ oddSymbols) && decide (row.type ≠ .op) && row.char != 0x5b
/-- The same for scripts -/
def Scr.proper : Scr → Bool
  | .none => true
  | .primes n => decide (n < 4)
  | .primesSub n a | .subPrimes a n | .primesSup n a => decide (n < 4) && a.proper
  | .sub a | .sup a => a.proper
  | .subSup a b | .supSub b a => a.proper && b.proper
/-- The same for tables; `columns` says that there may be several columns. -/
def Table.proper (columns : Bool) : Table → Bool
  | .last f => f.proper false true
  | .amp f rest => columns && f.proper false true && rest.proper columns
  | .newRow f rest => f.proper false true && rest.proper columns && rest.lexemes.head?.all Lexeme.afterNewRow
end

/-! ### What is in the output -/

mutual
/-- An element (without its attributes) shows something. Symbols are in `mi` or in `mo`; there is an empty `mspace` before
some of them. -/
inductive Displays : Xml → Tree → Prop
  | mo {s} : Displays (el c!"mo" (txt s)) (.sym s)
  | mi {s} : Displays (el c!"mi" (txt s)) (.sym s)
  | upright {s} : Displays (el c!"mrow" [el c!"mspace" [], el c!"mi" (txt s)]) (.sym s)
  | leaf {name s} : Displays (el name (txt s)) (.leaf name s)
  | node {name kids ts} : DisplaysAll kids ts → Displays (el name kids) (.node name ts)
/-- The same for lists -/
inductive DisplaysAll : List Xml → List Tree → Prop
  | nil : DisplaysAll [] []
  | cons {x xs t ts} : Displays x t → DisplaysAll xs ts → DisplaysAll (x :: xs) (t :: ts)
end

/-- A document (without attributes) shows a formula; `annotation` says that it also contains the source. -/
def DisplaysFormula (annotation : Bool) (x : Xml) (ts : List Tree) (latex : Str) : Prop :=
  if annotation then
    ∃ y, x = el c!"math" [el c!"semantics" [y, el c!"annotation" (txt latex)]] ∧ Displays y (.one ts)
  else ∃ kids, x = el c!"math" kids ∧ DisplaysAll kids ts

end Verif.Spec

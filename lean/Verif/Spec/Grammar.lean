import Verif.Spec.Comes
import Verif.Model.Parser
/-! A grammar of formulas: what they look like as tokens, and what they mean. -/
namespace Verif.Spec
open Model

/-! ### Syntax -/

/-- An argument of a macro, as it is written: a single token, or tokens in braces -/
inductive CallArg
  | tok (t : Token)
  | braces (ts : List Tk)

/-- The tokens of an argument of a macro. (There is nothing in empty braces, not even whitespace.) -/
def CallArg.tokens : CallArg → List Tk
  | .tok t => [⟨t, false⟩]
  | .braces ts => ⟨.groupBegin, false⟩ :: ts ++ [⟨.groupEnd, ts.isEmpty⟩]

/-- What is inserted for the argument -/
def CallArg.inner : CallArg → List Tk
  | .tok t => [⟨t.unwrapMath, false⟩]
  | .braces ts => ts

/-- What is put on, around or in place of a single argument -/
inductive Deco
  /-- `\hat` and so on -/
  | accent (o : BMPOperator) (isOver : Bool) (attrs : OpAttrs)
  /-- `\cancel` and so on -/
  | enclose (n : Notation)
  /-- `\phantom`, `\hphantom`, `\vphantom` -/
  | phantom (kind : PhantomKind)

/-- Commands with arguments which are not formulas -/
inductive Leaf
  /-- `\big` and so on, with a delimiter -/
  | big (size : Size) (side : Option ParenType) (t : Token)
  /-- `\middle`, with a delimiter -/
  | middle (t : Token)
  /-- `\eqref{…}` -/
  | eqRef (text : List Token)
  /-- `\hspace{…}` and `\mspace{…}` -/
  | hspace (kind : UnitKind) (text : List Token)
  /-- `\text{…}`, `\textbf{…}` and so on -/
  | textBox (style : Option HtmlTextStyle) (text : List Token)
  /-- `\mathbf{abc}`, `\mathrm{abc}` and so on: a word in a font -/
  | font (tf : MathVariant) (text : List Token)
  /-- `\mathbb R` and so on: a single letter or digit in a font -/
  | fontTok (tf : MathVariant) (t : Token)

/-- What `\genfrac` says about the fraction: the delimiters, the thickness of the line, and the style -/
structure GenFrac where
  left : Option Token
  right : Option Token
  line : List Token
  style : Option Char

/-- An operator like `\sum`, given by a command or typed as a character, perhaps with `\limits` and so on -/
structure BigOp where
  op : Op
  lim : Option LimitsKind := none
  char : Option Char := none

instance : Coe Op BigOp := ⟨fun o => ⟨o, none, none⟩⟩

/-- The name of a function: a command, or `\operatorname{…}` -/
inductive FuncName
  | known (name : Str)
  | spelled (text : List Token)

/-- The name of a function, perhaps with `\limits` and so on -/
structure Func where
  name : FuncName
  lim : Option LimitsKind := none

instance : Coe Str Func := ⟨fun s => ⟨.known s, none⟩⟩

/-- What comes after `\begin{…}`: a column specification in braces, and a line above the table -/
structure EnvArgs where
  spec : Option (List Token) := none
  line : Option LineType := none

/-- What comes after `\color`: perhaps a colour model in square brackets, and a name or description in braces -/
structure ColorArgs where
  model : Option (List Token) := none
  text : List Token

instance : Coe (List Token) ColorArgs := ⟨fun t => ⟨none, t⟩⟩

mutual
/-- A formula: a sequence of pieces -/
inductive Form
  | nil
  /-- something with scripts -/
  | item (b : Base) (s : Scripts) (rest : Form)
  /-- an operator like `\sum`, with its limits -/
  | bigOp (o : BigOp) (s : Scripts) (rest : Form)
  /-- the name of a function like `\sin` or `\lim` or `\operatorname{…}`, with its limits -/
  | func (x : Func) (withLimits : Bool) (s : Scripts) (rest : Form)
  /-- `&` -/
  | amp (rest : Form)
  /-- `\\`, perhaps with `\hline` or `\hdashline` -/
  | newLine (line : Option LineType) (rest : Form)
  /-- `\nonumber` -/
  | noNumber (rest : Form)
  /-- `\tag{…}` (in parentheses) or `\tag*{…}` -/
  | tag (paren : Bool) (text : List Token) (rest : Form)
  /-- `\label{…}` -/
  | label (text : List Token) (rest : Form)
  /-- `\displaystyle` and so on, which is in force up to the end -/
  | style (s : Style) (rest : Form)
  /-- `\color{…}` or `\color[…]{…}`, which is in force up to the end -/
  | color (x : ColorArgs) (rest : Form)
  /-- a call `t` of a macro with arguments. `cont` is what the call and the rest of the formula become; the first `k`
  tokens of it come from the body of the macro, the others are still in the source. -/
  | call (t : Token) (args : List CallArg) (k : Nat) (cont : Form)
  /-- a call of a macro whose body is empty -/
  | emptyCall (t : Token) (args : List CallArg) (s : Scripts) (rest : Form)
/-- What scripts can be attached to -/
inductive Base
  /-- a token which stands for itself -/
  | atom (t : Token)
  /-- digits; the flag says that there is a decimal point before the digit. -/
  | number (d : Char) (more : List (Bool × Char))
  /-- `{…}` -/
  | group (f : Form)
  /-- `\frac` and `\binom` and their variants -/
  | frac (attr : Option FracAttr) (isBinom : Bool) (num den : Arg)
  /-- `\genfrac` -/
  | genfrac (x : GenFrac) (num den : Arg)
  /-- `\sqrt` -/
  | sqrt (a : Arg)
  /-- `\sqrt[…]` -/
  | root (degree : Form) (a : Arg)
  /-- `\hat`, `\cancel`, `\phantom` and so on -/
  | deco (d : Deco) (a : Arg)
  /-- `\overbrace` and so on, without a label -/
  | brace (x : OrdLike) (isOver : Bool) (a : Arg)
  /-- `\overbrace{…}^…` and so on -/
  | braceLabel (x : OrdLike) (isOver : Bool) (a label : Arg)
  /-- `\prescript` -/
  | prescript (sup sub a : Arg)
  /-- a command whose arguments are not formulas -/
  | leaf (x : Leaf)
  /-- `\mathrel` and so on -/
  | mathClass (kind : MathClassKind) (b : Base)
  /-- `\not` and so on -/
  | overlay (o : OverlayChar) (b : Base)
  /-- `\overset` and `\underset`, on a single token -/
  | stackTok (isOver : Bool) (symbol : Arg) (t : Token)
  /-- `\overset` and `\underset`, on a group -/
  | stackGroup (isOver : Bool) (symbol : Arg) (f : Form)
  /-- `\xrightarrow{…}` and so on -/
  | arrow (rel : Rel) (over : Arg)
  /-- `\xrightarrow[…]{…}` and so on -/
  | arrowUnder (rel : Rel) (under : Form) (over : Arg)
  /-- `\cramped{…}` and `\cramped[…]{…}` -/
  | cramped (style : Option Style) (f : Form)
  /-- `\left( … \right)` -/
  | fence (l r : Token) (f : Form)
  /-- `\begin{…} … \end{…}` -/
  | env (e e' : Env) (o : EnvArgs) (f : Form)
/-- An argument: a single token, or a group -/
inductive Arg
  | tok (t : Token)
  | braces (f : Form)
/-- Scripts, in the order in which they are written -/
inductive Scripts
  | nil
  | sub (a : Arg) (s : Scripts)
  | sup (a : Arg) (s : Scripts)
  /-- primes -/
  | primes (t : Token) (ts : List Token) (s : Scripts)
  /-- primes, directly followed by a superscript -/
  | primesSup (t : Token) (ts : List Token) (a : Arg) (s : Scripts)
end

/-- Tokens which must follow without whitespace -/
def tight (ts : List Token) : List Tk := ts.map fun t => ⟨t, true⟩

/-- The digits after the first one, as tokens -/
def digitTokens (dot : Token) (more : List (Bool × Char)) : List Tk :=
  more.flatMap fun (p, c) => if p then [⟨dot, false⟩, ⟨.digit c, false⟩] else [⟨.digit c, false⟩]

/-- The full stop, as it comes from the lexer -/
def fullStop : Token := .letter (SuperChar.fromChar '.') .mathOrText

/-- Text in braces, as tokens -/
def textTokens (text : List Token) : List Tk := ⟨.groupBegin, false⟩ :: tight text ++ [⟨.groupEnd, true⟩]

/-- The command for something which is put on an argument -/
def Deco.token : Deco → Token
  | .accent o isOver attrs => .accent o isOver attrs
  | .enclose n => .enclose n
  | .phantom kind => .phantom kind

/-- The tokens of a command whose arguments are not formulas -/
def Leaf.tokens : Leaf → List Tk
  | .big size side t => [⟨.big size side, false⟩, ⟨t, false⟩]
  | .middle t => [⟨.middle, false⟩, ⟨t, false⟩]
  | .eqRef text => ⟨.eqRef, false⟩ :: textTokens text
  | .hspace kind text => ⟨.customSpace kind, false⟩ :: textTokens text
  | .textBox style text => ⟨.text style, false⟩ :: ⟨.groupBegin, true⟩ :: tight text ++ [⟨.groupEnd, true⟩]
  | .font tf text => ⟨.transform tf, false⟩ :: ⟨.groupBegin, false⟩ :: text.map (fun t => ⟨t, false⟩) ++ [⟨.groupEnd, false⟩]
  | .fontTok tf t => [⟨.transform tf, false⟩, ⟨t, false⟩]

/-- At most one token in braces -/
def oneTokens (t : Option Token) : List Tk :=
  ⟨.groupBegin, false⟩ :: t.toList.map (fun t => ⟨t, false⟩) ++ [⟨.groupEnd, false⟩]

/-- The first four arguments of `\genfrac` -/
def GenFrac.tokens (x : GenFrac) : List Tk :=
  oneTokens x.left ++ oneTokens x.right ++ textTokens x.line ++ oneTokens (x.style.map .digit)

/-- The colour model which is given to `\color` -/
def modelTokens : Option (List Token) → List Tk
  | some m => ⟨.squareBracketOpen, false⟩ :: m.map (fun t => ⟨t, false⟩) ++ [⟨.squareBracketClose, false⟩]
  | none => []

/-- The arguments of `\color` -/
def ColorArgs.tokens (x : ColorArgs) : List Tk :=
  modelTokens x.model ++ ⟨.groupBegin, false⟩ :: tight x.text ++ [⟨.groupEnd, true⟩]

/-- The style which is given to `\cramped` -/
def crampedTokens : Option Style → List Tk
  | some st => [⟨.squareBracketOpen, false⟩, ⟨.style st, false⟩, ⟨.squareBracketClose, false⟩]
  | none => []

/-- The token of a big operator -/
def BigOp.token (o : BigOp) : Token :=
  match o.char with
  | none => .op o.op
  | some c => .mathOrTextMode (.op o.op) c

/-- The token of `\limits` and so on -/
def limitsTokens : Option LimitsKind → List Tk
  | none => []
  | some k => [⟨.limits k, false⟩]

/-- The tokens of the name of a function -/
def Func.tokens (x : Func) (withLimits : Bool) : List Tk :=
  (match x.name with
    | .known name => [⟨if withLimits then .pseudoOperatorLimits name else .pseudoOperator name, false⟩]
    | .spelled text => ⟨.operatorName withLimits, false⟩ :: ⟨.groupBegin, false⟩ ::
        text.map (fun t => ⟨t, false⟩) ++ [⟨.groupEnd, false⟩]) ++ limitsTokens x.lim

/-- The token of a line -/
def lineTokens : Option LineType → List Tk
  | none => []
  | some x => [⟨.hline x, false⟩]

/-- The tokens between `\begin{…}` and the content -/
def EnvArgs.tokens (o : EnvArgs) : List Tk :=
  (match o.spec with
    | none => []
    | some text => textTokens text) ++ lineTokens o.line

mutual
/-- The tokens of a formula -/
def Form.tokens : Form → List Tk
  | .nil => []
  | .item b s rest => b.tokens ++ s.tokens ++ rest.tokens
  | .bigOp o s rest => ⟨o.token, false⟩ :: limitsTokens o.lim ++ s.tokens ++ rest.tokens
  | .func x withLimits s rest => x.tokens withLimits ++ s.tokens ++ rest.tokens
  | .amp rest => ⟨.newColumn, false⟩ :: rest.tokens
  | .newLine line rest => ⟨.newLine, false⟩ :: lineTokens line ++ rest.tokens
  | .noNumber rest => ⟨.noNumber, false⟩ :: rest.tokens
  | .tag paren text rest =>
    ⟨.tag paren, false⟩ :: ⟨.groupBegin, false⟩ :: tight text ++ ⟨.groupEnd, true⟩ :: rest.tokens
  | .label text rest =>
    ⟨.label, false⟩ :: ⟨.groupBegin, false⟩ :: tight text ++ ⟨.groupEnd, true⟩ :: rest.tokens
  | .style s rest => ⟨.style s, false⟩ :: rest.tokens
  | .color x rest => ⟨.color, false⟩ :: (x.tokens ++ rest.tokens)
  | .call t args k cont => ⟨t, false⟩ :: args.flatMap CallArg.tokens ++ cont.tokens.drop k
  | .emptyCall t args s rest => ⟨t, false⟩ :: args.flatMap CallArg.tokens ++ s.tokens ++ rest.tokens
/-- The tokens of a base -/
def Base.tokens : Base → List Tk
  | .atom t => [⟨t, false⟩]
  | .number d more => ⟨.digit d, false⟩ :: digitTokens fullStop more
  | .group f => ⟨.groupBegin, false⟩ :: f.tokens ++ [⟨.groupEnd, false⟩]
  | .frac attr isBinom num den =>
    ⟨if isBinom then .binom attr else .frac attr, false⟩ :: num.tokens ++ den.tokens
  | .genfrac x num den => ⟨.genfrac, false⟩ :: x.tokens ++ num.tokens ++ den.tokens
  | .sqrt a => ⟨.sqrt, false⟩ :: a.tokens
  | .root degree a =>
    ⟨.sqrt, false⟩ :: ⟨.squareBracketOpen, false⟩ :: degree.tokens ++ ⟨.squareBracketClose, false⟩ :: a.tokens
  | .deco d a => ⟨d.token, false⟩ :: a.tokens
  | .brace x isOver a => ⟨.overUnderBrace x isOver, false⟩ :: a.tokens
  | .braceLabel x isOver a label =>
    ⟨.overUnderBrace x isOver, false⟩ :: a.tokens ++
      ⟨if isOver then .circumflex else .underscore, false⟩ :: label.tokens
  | .prescript sup sub a => ⟨.prescript, false⟩ :: sup.tokens ++ sub.tokens ++ a.tokens
  | .leaf x => x.tokens
  | .mathClass kind b => ⟨.mathClass kind, false⟩ :: b.tokens
  | .overlay o b => ⟨.overlay o, false⟩ :: b.tokens
  | .stackTok isOver symbol t => ⟨if isOver then .overset else .underset, false⟩ :: symbol.tokens ++ [⟨t, false⟩]
  | .stackGroup isOver symbol f =>
    ⟨if isOver then .overset else .underset, false⟩ :: symbol.tokens ++
      ⟨.groupBegin, false⟩ :: f.tokens ++ [⟨.groupEnd, false⟩]
  | .arrow rel over => ⟨.xarrow rel, false⟩ :: over.tokens
  | .arrowUnder rel under over =>
    ⟨.xarrow rel, false⟩ :: ⟨.squareBracketOpen, false⟩ :: under.tokens ++ ⟨.squareBracketClose, false⟩ :: over.tokens
  | .cramped st f =>
    ⟨.cramped, false⟩ :: crampedTokens st ++ ⟨.groupBegin, false⟩ :: f.tokens ++ [⟨.groupEnd, false⟩]
  | .fence l r f =>
    ⟨.left, false⟩ :: ⟨l, false⟩ :: f.tokens ++ [⟨.right, false⟩, ⟨r, false⟩]
  | .env e e' o f => ⟨.beginEnv e, false⟩ :: o.tokens ++ f.tokens ++ [⟨.endEnv e', false⟩]
/-- The tokens of an argument -/
def Arg.tokens : Arg → List Tk
  | .tok t => [⟨t, false⟩]
  | .braces f => ⟨.groupBegin, false⟩ :: f.tokens ++ [⟨.groupEnd, false⟩]
/-- The tokens of scripts -/
def Scripts.tokens : Scripts → List Tk
  | .nil => []
  | .sub a s => ⟨.underscore, false⟩ :: a.tokens ++ s.tokens
  | .sup a s => ⟨.circumflex, false⟩ :: a.tokens ++ s.tokens
  | .primes t ts s => ⟨t, false⟩ :: tight ts ++ s.tokens
  | .primesSup t ts a s => ⟨t, false⟩ :: tight ts ++ ⟨.circumflex, true⟩ :: a.tokens ++ s.tokens
end

/-! ### Meaning -/

/-- The style of a script (The TeXbook, rules 18 and 15 of appendix G, without cramped styles) -/
def scriptStyle : Style → Style
  | .display => .script
  | .text => .script
  | .script => .scriptScript
  | .scriptScript => .scriptScript

/-- The style of the parts of a fraction: one step smaller than the fraction, where `\dfrac` and `\cfrac` are set in display
style and `\tfrac` in text style. -/
def fractionStyle (st : Style) (attr : Option FracAttr) : Style :=
  match (match attr with
    | some .displayStyleTrue | some .cfracStyle => Style.display
    | some .displayStyleFalse => Style.text
    | none => st) with
  | .display => .text
  | .text => .script
  | .script => .scriptScript
  | .scriptScript => .scriptScript

/-- What the meaning of a formula depends on, and what it changes: the style, the environment around it, the
number of the last equation, the labels, how many more macros may be expanded, and whether the end of a group is
not the end of the formula (as in the target of `\overset`) -/
structure Loc where
  style : Style
  env : EnvState
  count : Nat
  labels : StrMap Str
  left : Nat
  stacked : Bool

/-- What a symbol sees to its right -/
def Loc.seen (l : Loc) (nxt : Class) : Class := if l.stacked && nxt = .ending then .default else nxt

/-- A place which is not in the target of `\overset`, and in this style -/
def Loc.calm (l : Loc) (st : Style) : Prop := l.style = st ∧ l.stacked = false

/-- In displayed environments, everything is as large as in a displayed formula; in `subarray`, it is small. -/
def envStyle : Env → Style
  | .align | .alignStar | .aligned | .gather | .gatherStar | .gathered | .equation | .equationStar | .multLine
  | .dArray | .dCases | .drCases => .display
  | .subarray => .script
  | _ => .text

/-- How the rows of an environment are numbered, if they can have numbers -/
def envNumbering : Env → Option NumberingMode
  | .align | .gather | .equation => some .allByDefault
  | .alignStar | .gatherStar | .equationStar => some .noneByDefault
  | .multLine => some .onlyLast
  | _ => none

/-- There is a single column in environments of lines. -/
def envColumns : Env → Bool
  | .equation | .equationStar | .gather | .gatherStar | .gathered | .multLine => false
  | _ => true

/-- `\\` is the end of a row: not in `equation`. -/
def envRows : Env → Bool
  | .equation | .equationStar => false
  | _ => true

/-- There may be horizontal lines in arrays and matrices. -/
def envLines : Env → Bool
  | .array | .dArray | .subarray | .matrix | .pMatrix | .bMatrix | .Bmatrix | .vMatrix | .Vmatrix => true
  | _ => false

/-- What is allowed in an environment. Rows are counted only where the last one is special. -/
def envState (e : Env) : EnvState where
  allowColumns := envColumns e
  meaningfulNewlines := envRows e
  allowHlines := envLines e
  numbered := (envNumbering e).map fun m =>
    { mode := m, numRows := match m with
        | .onlyLast => some 1
        | _ => none }

/-- The class of what comes first, if some tokens are followed by something of class `nxt` -/
def lead : List Tk → Class → Class
  | [], nxt => nxt
  | t :: ts, nxt => t.tok.cls.getD (lead ts nxt)

/-- Tokens which stand for themselves -/
def isAtom : Token → Bool
  | .letter _ _ | .uprightLetter _ | .relation _ | .punctuation _ | .forcePunctuation _ | .ord _ | .forceOrd _
  | .binaryOp _ | .forceBinaryOp _ | .inner _ | .forceMathInner _ | .space _ | .nonBreakingSpace
  | .forceRelation _ | .forceOpen _ _ | .forceClose _ _ | .opening _ | .closing _ | .squareBracketOpen
  | .squareBracketClose => true
  | _ => false

/-- The class and the node of such a token, which depend on the neighbours -/
def atomNode (style : Style) (inSeq : Bool) (prev next : Class) : Token → Class × Node
  | .letter c _ => (.default, .identifierChar c .default)
  | .uprightLetter c => (.default, .identifierChar c .forcedUpright)
  | .relation rel =>
    let sp := relationSpacing style prev next false
    (.relation, .operator rel.asOp (relationAttrs rel.cat) none sp.1 sp.2)
  | .forceRelation op =>
    let sp := if inSeq then relationSpacing style prev next true else (none, none)
    (.relation, .operator op .empty none sp.1 sp.2)
  | .punctuation p =>
    let sp := punctuationSpacing style next false
    (.punctuation, .operator p.asOp .empty none sp.1 sp.2)
  | .forcePunctuation op =>
    let sp := punctuationSpacing style next true
    (.punctuation, .operator op .empty none sp.1 sp.2)
  | .ord o => (.default, ordNode none o)
  | .forceOrd op => (.default, .operator op .empty none (some .zero) (some .zero))
  | .binaryOp b =>
    let sp := binOpSpacing style inSeq prev next false
    (if sp = some .zero then .default else .binaryOp, .operator b.asOp .empty none sp sp)
  | .forceBinaryOp op =>
    let sp := binOpSpacing style inSeq prev next true
    (if sp = some .zero then .default else .binaryOp, .operator op .empty none sp sp)
  | .inner op =>
    let sp := mathinnerSpacing style prev next false
    (.inner, .operator op.asOp .empty none sp.1 sp.2)
  | .forceMathInner op =>
    let sp := mathinnerSpacing style prev next true
    (.inner, .operator op .empty none sp.1 sp.2)
  | .space l => (prev, .space l)
  | .nonBreakingSpace => (.default, .text none none [' '])
  | .forceOpen op _ => (.opening, .operator op .formPrefix none (some .zero) (some .zero))
  | .forceClose op _ => (.closing, .operator op .formPostfix none (some .zero) (some .zero))
  | .opening o => (.opening, parenNode true o)
  | .closing o => (.default, parenNode false o)
  | .squareBracketOpen =>
    (.opening, .operator Sym.LEFT_SQUARE_BRACKET.asOp .stretchyFalse none none none)
  | .squareBracketClose =>
    (.default, .operator Sym.RIGHT_SQUARE_BRACKET.asOp .stretchyFalse none none none)
  | _ => (.default, .emptyRow)

/-- A token, or a single digit -/
def aloneNode (style : Style) (prev next : Class) : Token → Class × Node
  | .digit c => (.default, .number [c])
  | t => atomNode style true prev next t

/-- The text of digits after the first one -/
def digitText (more : List (Bool × Char)) : Str :=
  more.flatMap fun (p, c) => if p then ['.', c] else [c]

/-- A base with its scripts. Those after `\prescript` belong to the same node as the ones before the base. -/
def withScripts : Node → Bounds → Node
  | .multiscripts base pre [], ⟨none, none⟩ => .multiscripts base pre []
  | .multiscripts base pre [], b => .multiscripts base pre [b.toPair]
  | n, ⟨none, none⟩ => n
  | n, ⟨some sub, none⟩ => .sub n sub
  | n, ⟨none, some sup⟩ => .sup n sup
  | n, ⟨some sub, some sup⟩ => .subSup n sub sup

/-- An operator with its limits -/
def withLimits : Node → Bounds → Node
  | n, ⟨none, none⟩ => n
  | n, ⟨some sub, none⟩ => .under sub n
  | n, ⟨none, some sup⟩ => .over sup n
  | n, ⟨some sub, some sup⟩ => .underOver n sub sup

/-- An operator: its limits are above and below it if `limits`, otherwise at the side. -/
def opNode (limits : Bool) (n : Node) (b : Bounds) : Node := if limits then withLimits n b else withScripts n b

/-- Are the limits of an operator above and below it? -/
def limitsSet : Option LimitsKind → Bool → Bool
  | none, byDefault => byDefault
  | some .never, _ => false
  | some .display, _ | some .always, _ => true

/-- What tells the browser about the limits of an operator. (Its own dictionary says that they move to the side in
text if they are `movable`.) -/
def limitsAttrs (movable : Bool) (lim : Option LimitsKind) (b : Bounds) : OpAttrs :=
  if b.isTrivial then .empty
  else match lim, movable with
    | some .display, false => .forceMovableLimits
    | some .always, true => .noMovableLimits
    | _, _ => .empty

/-- The same for the name of a function, about which the browser knows nothing -/
def funcAttrs (byDefault : Bool) (lim : Option LimitsKind) (b : Bounds) : OpAttrs :=
  if limitsSet lim byDefault && !b.isTrivial && !(lim = some .always) then .forceMovableLimits else .empty

/-- A token as text in `\operatorname{…}` -/
def nameChar : Token → Option Str
  | .letter c _ | .uprightLetter c => some c.text
  | .digit c => some [c]
  | .squareBracketOpen => some ['[']
  | .squareBracketClose => some [']']
  | .opening o | .closing o | .ord o => some o.asOp.sc.text
  | .binaryOp o => some o.asOp.sc.text
  | .relation o => some o.asOp.sc.text
  | .punctuation o => some o.asOp.sc.text
  | _ => none

/-- A token as text in `\text{…}`; spaces do not break. -/
def textChar : Token → Option Str
  | .letter c .mathOrText => some c.text
  | .textMode (.letter c) => some [c]
  | .digit c => some [c]
  | .squareBracketOpen => some ['[']
  | .squareBracketClose => some [']']
  | .whitespace | .nonBreakingSpace => some [Char.ofNat 0xA0]
  | .mathOrTextMode _ c => some [c]
  | _ => none

/-- The text of tokens -/
def textBy (p : Token → Option Str) : List Token → Option Str
  | [] => some []
  | t :: ts =>
    match p t, textBy p ts with
    | some s, some s' => some (s ++ s')
    | _, _ => none

/-- The name of a function, as it is shown -/
def FuncName.shown : FuncName → Str
  | .known name => name
  | .spelled text => (textBy (fun t => nameChar t.unwrapMath) text).getD []

/-- The delimiter after `\left` or `\right`; a full stop stands for nothing. -/
def fenceDelim (loc : DelimiterModifier) (t : Token) : Except LatexErrKind (Option StretchableOp) :=
  if t.isFullStop then .ok none
  else match t.delimiter with
    | some d => .ok (some d)
    | none => .error (.expectedDelimiter loc)

/-- The text of tokens, if they are characters of ASCII text -/
def plainText : List Token → Option Str
  | [] => some []
  | t :: ts =>
    match recoverLimitedAscii t, plainText ts with
    | some c, some s => some (c :: s)
    | _, _ => none

/-- What is known about the current row of an environment with numbers -/
abbrev RowState := NumberedEnvState

/-- The end of a row: what is shown beside it, and what is known afterwards -/
def endRow (n : RowState) (isLast : Bool) (l : Loc) : Except LatexErrKind (Option RowLabelInfo × RowState × Loc) :=
  match n.nextEquationTag l.count isLast with
  | (none, _, _) => .error .hardLimitExceeded
  | (some tag, n, count) =>
    .ok (tag.map fun tag => ⟨tag, n.label⟩, { n with label := none },
      { l with count := count, labels := (match tag, n.label with
        | some tag, some label => l.labels.insert label tag.text
        | _, _ => l.labels) })

/-- `\\`, with a line above the next row -/
def lineBreak (line : Option LineType) (l : Loc) : Except LatexErrKind ((Class × Node) × Loc) :=
  if !l.env.meaningfulNewlines then .ok ((.opening, .emptyRow), l)
  else match l.env.numbered with
    | none => .ok ((.opening, .rowSeparator none line), l)
    | some n =>
      if n.numRows = some 65535 then .error .hardLimitExceeded
      else do
        let r ← endRow { n with numRows := n.numRows.map (· + 1) } false l
        .ok ((.opening, .rowSeparator r.1 line),
          { r.2.2 with env := { l.env with numbered := some r.2.1 } })

/-- Are there lines between the rows? -/
def linesAllowed (e : EnvState) : Bool := e.meaningfulNewlines && e.allowHlines

/-- A line where there must be none -/
def misplacedLine (x : LineType) : LatexErrKind :=
  .cannotBeUsedHere (match x with | .solid => .hLine | .dashed => .hDashLine) .arrayRowStart

/-- `\\`, perhaps with a line -/
def nextRow (line : Option LineType) (l : Loc) : Except LatexErrKind ((Class × Node) × Loc) :=
  match line with
  | none => lineBreak none l
  | some x =>
    if linesAllowed l.env then lineBreak (some x) l
    else do
      let _ ← lineBreak none l
      .error (misplacedLine x)

/-- The columns of an array -/
def EnvArgs.columns (o : EnvArgs) (e : Env) : Except LatexErrKind (Option ArraySpec) :=
  match o.spec with
  | none => .ok none
  | some text =>
    match parseColumnSpecification ((plainText text).getD []) with
    | some s => .ok (some ⟨s.borderLeft, o.line, e = .subarray, s.columns⟩)
    | none => .error (.expectedColSpec ((plainText text).getD []))

/-- The end of an environment, back at `l0` -/
def endEnv (e e' : Env) (spec : Option ArraySpec) (line : Option LineType) (content : List Node) (l0 l : Loc) :
    Except LatexErrKind ((Class × Node) × Loc) :=
  if e' ≠ e then .error (.mismatchedEnvironment e e')
  else
    let done (info : Option RowLabelInfo) (rows : Option Nat) (l : Loc) : Except LatexErrKind ((Class × Node) × Loc) :=
      match e.constructNode content spec info rows line with
      | some node => .ok ((.closing, node), l)
      | none => .error .internal
    match l.env.numbered with
    | none => done none none { l with style := l0.style, env := l0.env }
    | some n => do
      let r ← endRow n true { l with style := l0.style, env := l0.env }
      done r.1 r.2.1.numRows r.2.2

/-- `\nonumber` -/
def suppressNumber (l : Loc) : Loc :=
  { l with env := { l.env with numbered := l.env.numbered.map fun n => { n with suppressNextNumber := true } } }

/-- `\tag` -/
def putTag (paren : Bool) (text : Str) (l : Loc) : Except LatexErrKind Loc :=
  match l.env.numbered with
  | some n => .ok { l with env := { l.env with numbered := some { n with customNextTag := some ⟨text, paren⟩ } } }
  | none => .error (.cannotBeUsedHere (if paren then .tag else .tagStar) .numberedEnv)

/-- `\label` -/
def putLabel (name : Str) (l : Loc) : Except LatexErrKind Loc :=
  match l.env.numbered with
  | some n =>
    if n.label.isSome then .error .moreThanOneLabel
    else .ok { l with env := { l.env with numbered := some { n with label := some name } } }
  | none => .error (.cannotBeUsedHere .label .numberedEnv)

/-- The node of something which is put on an argument -/
def Deco.node (n : Node) : Deco → Node
  | .accent o isOver attrs => if isOver then .overAccent o.asOp attrs n else .underAccent o.asOp attrs n
  | .enclose k => .enclose n k
  | .phantom .full => .phantom n
  | .phantom .h => .padded (.phantom n) false true none none none
  | .phantom .v => .padded (.phantom n) true false none none none

/-- Does a single operator lose its spacing there? -/
def Deco.reset : Deco → Bool
  | .phantom _ => true
  | _ => false

/-- A brace above or below -/
def braceNode (x : OrdLike) (isOver : Bool) (n : Node) : Node :=
  if isOver then .overAccent x.asOp .empty n else .underAccent x.asOp .empty n

/-- The delimiter after `\big` or `\middle` -/
def someDelim (loc : DelimiterModifier) (t : Token) : Except LatexErrKind StretchableOp :=
  match t.delimiter with
  | some d => .ok d
  | none => .error (.expectedDelimiter loc)

/-- Space around a delimiter which has space around it otherwise -/
def noSpace (d : StretchableOp) : Option MathSpacing := if d.spacing = .zero then none else some .zero

/-- A delimiter of a given size -/
def bigNode (size : Size) (side : Option ParenType) (style : Style) (prev next : Class) (d : StretchableOp) :
    Class × Node :=
  let attrs := bigAttrs d.stretchy
  match side with
  | some .middle =>
    let sp := relationSpacing style prev next (!(d.spacing = .infixRelation || d.spacing = .relation))
    (.relation, .operator d.op (if d.spacing = .infixRelation then attrs ||| OpAttrs.formInfix else attrs)
      (some size) sp.1 sp.2)
  | some .left =>
    (.opening, if d.spacing = .infixRelation then .operator d.op (attrs ||| OpAttrs.formPrefix) (some size) none none
      else .operator d.op attrs (some size) (noSpace d) (noSpace d))
  | some .right =>
    (.closing, if d.spacing = .infixRelation then .operator d.op (attrs ||| OpAttrs.formPostfix) (some size) none none
      else .operator d.op attrs (some size) (noSpace d) (noSpace d))
  | none => (.default, .operator d.op attrs (some size) (noSpace d) (noSpace d))

/-- A character in a font; `\mathrm` leaves it as it is. -/
def inFont (tf : MathVariant) (c : SuperChar) (isUpright : Bool) : SuperChar :=
  match tf with
  | .transform tf => transform tf c isUpright
  | .normal => c

/-- The character a token stands for in a font. In `\mathrm`, digits are numbers. -/
def fontChar (tf : MathVariant) : Token → Option SuperChar
  | .letter c _ => some (inFont tf c false)
  | .uprightLetter c => some (inFont tf c true)
  | .digit c => if tf = .normal then none else some (inFont tf (SuperChar.fromChar c) false)
  | _ => none

/-- The characters of a word in a font -/
def fontWord (tf : MathVariant) : List Token → Option (List SuperChar)
  | [] => some []
  | t :: ts => do
    let c ← fontChar tf t
    let cs ← fontWord tf ts
    some (c :: cs)

/-- A word in a font is one identifier. A single upright letter must be marked as such. -/
def wordNode (tf : MathVariant) : List SuperChar → Node
  | [c] => .identifierChar c (if tf = .normal then .forcedUpright else .default)
  | cs => .identifierStr (cs.flatMap SuperChar.text)

/-- The class and the node of a command whose arguments are not formulas -/
def Leaf.denote (style : Style) (prev next : Class) : Leaf → Except LatexErrKind (Class × Node)
  | .big size side t => do
    let d ← someDelim .big t.unwrapMath
    .ok (bigNode size side style prev next d)
  | .middle t => do
    let d ← someDelim .middle t.unwrapMath
    .ok (.opening, .operator d.op (middleStretchAttrs d) none (noSpace d) (noSpace d))
  | .eqRef text => .ok (.default, .eqRef ((plainText text).getD []))
  | .hspace kind text =>
    let s := (plainText text).getD []
    match parseLengthSpecification (trimAscii s) with
    | some (value, u, unit, isMath) =>
      if isMath = (kind == .mathUnits) then .ok (.default, .space (specLength value u))
      else .error (.illegalUnit unit (kind == .mathUnits))
    | none => .error (.expectedLength s)
  | .textBox style text =>
    .ok (.closing, match (textBy textChar text).getD [] with
      | [] => .emptyRow
      | s => .text style none s)
  | .font tf text => .ok (.closing, wordNode tf ((fontWord tf text).getD []))
  | .fontTok tf t => .ok (.closing, wordNode tf ((fontChar tf t).toList))

/-- A delimiter of `\genfrac` -/
def genDelim : Option Token → Except LatexErrKind (Option StretchableOp)
  | some t => someDelim .genfrac t.unwrapMath >>= fun d => .ok (some d)
  | none => .ok none

/-- The thickness of the line of `\genfrac` -/
def genLine (text : List Token) : Except LatexErrKind Length :=
  match trimAscii ((plainText text).getD []) with
  | [] => .ok Length.none
  | s =>
    match parseLengthSpecification s with
    | some (value, u, _, _) => .ok (specLength value u)
    | none => .error (.expectedLength s)

/-- The style of `\genfrac` -/
def genStyle : Option Char → Except LatexErrKind (Option Style)
  | none => .ok none
  | some '0' => .ok (some .display)
  | some '1' => .ok (some .text)
  | some '2' => .ok (some .script)
  | some '3' => .ok (some .scriptScript)
  | some _ => .error .expectedArgumentGotEOI

/-- The label of an arrow, with some space around it -/
def arrowLabel (n : Node) : Node :=
  let pad := Node.space (LatexUnit.lengthWithUnit .em (4286/10000))
  .row [pad, n, pad] {}

/-- An arrow with a label above it, and perhaps one below -/
def arrowNode (rel : Rel) (sp : Option MathSpacing × Option MathSpacing) (under : Option Node) (over : Node) : Node :=
  let arrow := Node.operator rel.asOp (if rel.cat = .A then .empty else .stretchyTrue) none sp.1 sp.2
  let wide := Node.space (LatexUnit.lengthWithUnit .em (35/10))
  let gap := Node.space (LatexUnit.lengthWithUnit .mu 5)
  let above := Node.over wide (arrowLabel over)
  .row [gap, (match under with
    | none => .over above arrow
    | some n => .underOver arrow (.under wide (arrowLabel n)) above), gap] {}

/-- Something above or below -/
def stackNode (isOver : Bool) (symbol n : Node) : Node := if isOver then .over symbol n else .under symbol n

/-- The class of what is in the argument of `\mathrel` and so on -/
def givenClass : MathClassKind → Class
  | .ord => .default
  | .op => .operator
  | .bin => .binaryOp
  | .rel => .relation
  | .opening => .opening
  | .closing => .closing
  | .punct => .punctuation
  | .inner => .inner

/-- The space around it -/
def classSpacing (style : Style) (prev next : Class) : MathClassKind → Option MathSpacing × Option MathSpacing
  | .ord | .opening | .closing => (some .zero, some .zero)
  | .op => opSpacing style prev next true
  | .bin => (binOpSpacing style true prev next true, binOpSpacing style true prev next true)
  | .rel => relationSpacing style prev next true
  | .punct => punctuationSpacing style next true
  | .inner => mathinnerSpacing style prev next true

/-- The primes a token stands for -/
def primeOf (t : Token) : Option PrimeKind :=
  match t.unwrapMath with
  | .prime k => some k
  | _ => none

/-- Primes in sequence: their directions and numbers, the last ones first -/
def primeRuns (ts : List Token) : List (PrimeDirection × Nat) :=
  (ts.filterMap primeOf).foldl addPrime []

/-- The nodes for primes -/
def primesNodes (ts : List Token) : List Node :=
  (primeRuns ts).reverse.flatMap fun (d, n) => primeNodes d n

/-- One more subscript -/
def addSub (n : Node) (b : Bounds) : Except LatexErrKind Bounds :=
  if b.sub.isSome then .error .duplicateSubOrSup else .ok { b with sub := some n }

/-- One more superscript -/
def addSup (n : Node) (b : Bounds) : Except LatexErrKind Bounds :=
  if b.sup.isSome then .error .duplicateSubOrSup else .ok { b with sup := some n }

/-- The colour with a name -/
def namedColor (name : Str) : Except LatexErrKind Rgb :=
  match getColor name with
  | some c => .ok c
  | none => .error (.unknownColor name)

/-- The name of a colour model -/
def modelName : List Token → Option Str
  | [] => some []
  | .letter c _ :: ts => (modelName ts).map (c.text ++ ·)
  | _ :: _ => none

/-- The colour of a description in a colour model -/
def modelColor (model text : Str) : Except LatexErrKind Rgb :=
  match colorOfModel model text with
  | some (some c) => .ok c
  | some none => .error (.unknownColor text)
  | none => .error (.unknownColor model)

/-- The colour which is meant -/
def ColorArgs.value (x : ColorArgs) : Except LatexErrKind Rgb :=
  match x.model with
  | none => namedColor ((plainText x.text).getD [])
  | some m => modelColor ((modelName m).getD []) ((plainText x.text).getD [])

/-- The model is a word, and the description is plain text. -/
def ColorArgs.ok (x : ColorArgs) : Bool :=
  (match x.model with
    | none => true
    | some m => (modelName m).isSome) && (plainText x.text).isSome

/-- A stroke through a symbol -/
def struck (o : OverlayChar) (n : Node) : Except LatexErrKind Node :=
  match overlayNode o n with
  | some n => .ok n
  | none => .error .expectedRelation

/-- One more macro is expanded. -/
def expandOne (l : Loc) : Except LatexErrKind Loc :=
  match l.left with
  | 0 => .error .tooManyExpansions
  | left + 1 => .ok { l with left := left }

mutual
/-- The nodes of a formula after something of class `prev` and before something of class `nxt` -/
def Form.denote : Form → Loc → Class → Class → Except LatexErrKind (List Node × Loc)
  | .nil, l, _, _ => .ok ([], l)
  | .item b s rest, l, prev, nxt => do
    let r ← b.denote l prev (lead (s.tokens ++ rest.tokens) nxt)
    let rs ← s.denote r.2 {}
    let rr ← rest.denote rs.2 r.1.1 nxt
    .ok (withScripts r.1.2 rs.1 :: rr.1, rr.2)
  | .bigOp o s rest, l, prev, nxt =>
    if o.op.cat = .C then do
      let sp := opSpacing l.style prev (lead (s.tokens ++ rest.tokens) nxt) false
      let rs ← s.denote l {}
      let rr ← rest.denote rs.2 .operator nxt
      .ok (withScripts (.operator o.op.asOp .empty none sp.1 sp.2) rs.1 :: rr.1, rr.2)
    else do
      let rs ← s.denote l {}
      let sp := opSpacing rs.2.style prev (lead rest.tokens nxt) false
      let attrs := limitsAttrs (o.op.cat = .J) o.lim rs.1
      let rr ← rest.denote rs.2 .operator nxt
      .ok (opNode (limitsSet o.lim (o.op.cat = .J)) (.operator o.op.asOp attrs none sp.1 sp.2) rs.1 :: rr.1, rr.2)
  | .func x limits s rest, l, prev, nxt => do
    let rs ← s.denote l {}
    let sp := opSpacing rs.2.style prev (lead rest.tokens nxt) true
    let attrs := funcAttrs limits x.lim rs.1
    let rr ← rest.denote rs.2 .operator nxt
    .ok (opNode (limitsSet x.lim limits) (.pseudoOp attrs sp.1 sp.2 x.name.shown) rs.1 :: rr.1, rr.2)
  | .amp rest, l, _, nxt =>
    if l.env.allowColumns then do
      let rr ← rest.denote l .closing nxt
      .ok (.columnSeparator :: rr.1, rr.2)
    else .error (.cannotBeUsedHere .ampersand .tableEnv)
  | .newLine line rest, l, _, nxt => do
    let r ← nextRow line l
    let rr ← rest.denote r.2 r.1.1 nxt
    .ok (r.1.2 :: rr.1, rr.2)
  | .noNumber rest, l, prev, nxt => rest.denote (suppressNumber l) prev nxt
  | .tag paren text rest, l, prev, nxt => do
    let l ← putTag paren ((plainText text).getD []) l
    rest.denote l prev nxt
  | .label text rest, l, prev, nxt => do
    let l ← putLabel ((plainText text).getD []) l
    rest.denote l prev nxt
  | .style st rest, l, prev, nxt => do
    let r ← rest.denote { l with style := st } prev nxt
    .ok ([.row r.1 { style := some st }], { r.2 with style := l.style })
  | .color x rest, l, prev, nxt => do
    let c ← x.value
    let r ← rest.denote l prev nxt
    .ok ([.row r.1 { color := some c }], { r.2 with style := l.style })
  | .call _ _ _ cont, l, prev, nxt => do
    let l ← expandOne l
    cont.denote l prev nxt
  | .emptyCall _ _ s rest, l, _, nxt => do
    let l ← expandOne l
    let rs ← s.denote l {}
    let rr ← rest.denote rs.2 .default nxt
    .ok (withScripts .emptyRow rs.1 :: rr.1, rr.2)
/-- The class and the node of a base -/
def Base.denote : Base → Loc → Class → Class → Except LatexErrKind ((Class × Node) × Loc)
  | .atom t, l, prev, nxt => .ok (atomNode l.style true prev (l.seen nxt) t.unwrapMath, l)
  | .number d more, l, _, _ => .ok ((.default, .number (d :: digitText more)), l)
  | .group f, l, _, _ => do
    let r ← f.denote l .opening .ending
    .ok ((.default, nodeVecToNode r.1 false), { r.2 with style := l.style })
  | .frac attr isBinom num den, l, _, _ => do
    let r1 ← num.denote true { l with style := fractionStyle l.style attr }
    let r2 ← den.denote true r1.2
    let lt := if isBinom then Length.zero else Length.none
    let node := Node.frac r1.1 r2.1 lt.value lt.unit attr
    .ok ((.default, if isBinom then fenced [node] (some openParen) (some closeParen) none else node),
      { r2.2 with style := l.style })
  | .genfrac x num den, l, _, _ => do
    let opening ← genDelim x.left
    let closing ← genDelim x.right
    let lt ← genLine x.line
    let style ← genStyle x.style
    let r1 ← num.denote true l
    let r2 ← den.denote true r1.2
    .ok ((.default, fenced [.frac r1.1 r2.1 lt.value lt.unit none] opening closing style), r2.2)
  | .sqrt a, l, _, _ => do
    let r ← a.denote true l
    .ok ((.default, .sqrt r.1), r.2)
  | .root degree a, l, _, _ => do
    let r ← degree.denote l .opening .closing
    let ra ← a.denote true { r.2 with style := l.style }
    .ok ((.default, .root (nodeVecToNode r.1 true) ra.1), ra.2)
  | .deco d a, l, _, _ => do
    let r ← a.denote d.reset l
    .ok ((.default, d.node r.1), r.2)
  | .brace x isOver a, l, _, _ => do
    let r ← a.denote false l
    .ok ((.default, braceNode x isOver r.1), r.2)
  | .braceLabel x isOver a label, l, _, _ => do
    let r ← a.denote false l
    let rl ← label.denote true r.2
    .ok ((.default, if isOver then .over rl.1 (braceNode x isOver r.1) else .under rl.1 (braceNode x isOver r.1)), rl.2)
  | .prescript sup sub a, l, _, _ => do
    let r1 ← sup.denote true l
    let r2 ← sub.denote true r1.2
    let r3 ← a.denote true r2.2
    .ok ((.default, .multiscripts r3.1 [(r2.1, r1.1)] []), r3.2)
  | .leaf x, l, prev, nxt => do
    let r ← x.denote l.style prev nxt
    .ok (r, l)
  | .mathClass kind b, l, prev, nxt => do
    let r ← b.denote l prev nxt
    let sp := classSpacing r.2.style prev nxt kind
    .ok ((givenClass kind, mathClassNode r.1.2 sp.1 sp.2), r.2)
  | .overlay o b, l, prev, nxt => do
    let r ← b.denote l prev nxt
    let n ← struck o r.1.2
    .ok ((r.1.1, n), r.2)
  | .stackTok isOver symbol t, l, prev, nxt => do
    let r ← symbol.denote true { l with style := .script }
    let n := aloneNode l.style prev (if nxt = .ending then .default else nxt) t.unwrapMath
    .ok ((n.1, stackNode isOver r.1 n.2), { r.2 with style := l.style })
  | .stackGroup isOver symbol f, l, prev, _ => do
    let r ← symbol.denote true { l with style := .script }
    let rf ← f.denote { r.2 with style := l.style, stacked := true } prev .ending
    .ok ((.default, stackNode isOver r.1 (nodeVecToNode rf.1 false)), { rf.2 with style := l.style, stacked := r.2.stacked })
  | .arrow rel over, l, prev, nxt => do
    let r ← over.denote true { l with style := .script, stacked := true }
    .ok ((.relation, arrowNode rel (relationSpacing l.style prev nxt false) none r.1),
      { r.2 with style := l.style, stacked := l.stacked })
  | .arrowUnder rel under over, l, prev, nxt => do
    let ru ← under.denote { l with style := .script, stacked := true } .opening .closing
    let r ← over.denote true { ru.2 with style := .script }
    .ok ((.relation, arrowNode rel (relationSpacing l.style prev nxt false) (some (nodeVecToNode ru.1 false)) r.1),
      { r.2 with style := l.style, stacked := l.stacked })
  | .cramped st f, l, _, _ => do
    let r ← f.denote l .opening .ending
    .ok ((.default, .row [nodeVecToNode r.1 true] { style := st, mathShiftCompact := true }), { r.2 with style := l.style })
  | .fence lt rt f, l, _, _ => do
    let opening ← fenceDelim .left lt.unwrapMath
    let r ← f.denote l .opening .closing
    let closing ← fenceDelim .right rt.unwrapMath
    .ok ((.default, fenced r.1 opening closing none), { r.2 with style := l.style })
  | .env e e' o f, l, _, _ => do
    let spec ← o.columns e
    let r ← f.denote { l with style := envStyle e, env := envState e } .opening .ending
    endEnv e e' spec o.line r.1 l r.2
/-- The node of an argument; `reset` says that a single operator loses its spacing. -/
def Arg.denote : Arg → Bool → Loc → Except LatexErrKind (Node × Loc)
  | .tok t, _, l =>
    match t.unwrapMath with
    | .digit c => .ok (.number [c], l)
    | t => .ok ((atomNode l.style false .default .default t).2, l)
  | .braces f, reset, l => do
    let r ← f.denote l .opening .ending
    .ok (nodeVecToNode r.1 reset, { r.2 with style := l.style })
/-- The scripts, in addition to those which have been read before -/
def Scripts.denote : Scripts → Loc → Bounds → Except LatexErrKind (Bounds × Loc)
  | .nil, l, b => .ok (b, l)
  | .sub a s, l, b => do
    let r ← a.denote true { l with style := scriptStyle l.style }
    let b ← addSub r.1 b
    s.denote { r.2 with style := l.style } b
  | .sup a s, l, b => do
    let r ← a.denote true { l with style := scriptStyle l.style }
    let b ← addSup r.1 b
    s.denote { r.2 with style := l.style } b
  | .primes t ts s, l, b => do
    let b ← addSup (Rec.rowUnlessSingle (primesNodes (t :: ts))) b
    s.denote l b
  | .primesSup t ts a s, l, b => do
    let r ← a.denote true { l with style := scriptStyle l.style }
    let b ← addSup (Rec.rowUnlessSingle (primesNodes (t :: ts) ++ [r.1])) b
    s.denote { r.2 with style := l.style } b
end

/-! ### Well-formedness -/

/-- Can a number go on with this token? -/
def continuesNumber (t : Token) : Bool :=
  match t with
  | .digit _ => true
  | t => t.isFullStop

/-- Does a run of primes go on with this token? -/
def continuesPrimes (t : Token) : Bool :=
  match t.unwrapMath with
  | .prime _ | .circumflex => true
  | _ => false

/-- The first of some tokens (if there is one) does not satisfy `p`. -/
def headNot (p : Token → Bool) : List Tk → Bool
  | [] => true
  | t :: _ => !p t.tok

/-- Environments without arguments -/
def noSpec (e : Env) : Bool := !(e = .array || e = .dArray || e = .subarray)

/-- There is a column specification where one is expected, and a line only where it is allowed. -/
def EnvArgs.ok (o : EnvArgs) (e : Env) : Bool :=
  (match o.spec with
    | none => noSpec e
    | some text => !noSpec e && (plainText text).isSome) && (o.line.isNone || envLines e)

/-- Delimiters are single tokens; text is text. -/
def Leaf.ok : Leaf → Bool
  | .big _ _ t | .middle t => Named t.unwrapMath && !t.isWs
  | .eqRef text | .hspace _ text => (plainText text).isSome
  | .textBox _ text => (textBy textChar text).isSome
  | .font tf text => !text.isEmpty && (fontWord tf text).isSome
  | .fontTok tf t => (fontChar tf t).isSome

/-- A token which is something alone -/
def isAlone (t : Token) : Bool :=
  match t.unwrapMath with
  | .digit _ => true
  | t => isAtom t

/-- Delimiters are single tokens; the thickness of the line is text. -/
def GenFrac.ok (x : GenFrac) : Bool :=
  (x.left.toList ++ x.right.toList).all (fun t => !t.isWs && (match t.unwrapMath with
    | .groupBegin | .groupEnd | .eoi => false
    | t => Named t)) && (plainText x.line).isSome

/-- Some operators have no limits. -/
def BigOp.ok (o : BigOp) : Bool := !(o.op.cat = .C) || o.lim.isNone

/-- The name of a function is text. -/
def Func.ok (x : Func) : Bool :=
  match x.name with
  | .known _ => true
  | .spelled text => (textBy (fun t => nameChar t.unwrapMath) text).isSome

/-- Would this be the label of a brace? -/
def startsLabel (isOver : Bool) : Token → Bool
  | .circumflex => isOver
  | .underscore => !isOver
  | _ => false

/-- A call of a macro, built-in or not -/
def isCall : Token → Bool
  | .customCmd _ _ | .customCmdRef _ _ _ _ _ | .mathOrTextMode (.customCmd _ _) _ => true
  | _ => false

/-- The argument of a macro is a token (not a brace), or balanced text in braces. -/
def CallArg.ok : CallArg → Bool
  | .tok t => !t.isWs && (match t.unwrapMath with
    | .groupBegin | .eoi => false
    | t => Named t)
  | .braces ts => ts.all (fun x => !x.tok.isWs && !x.tok.isEoi && Named x.tok) &&
    braceDepth 0 (ts.map (·.tok)) == some 0

/-- The formula begins with something which has a node (or is a call). -/
def Form.speaks : Form → Bool
  | .nil | .noNumber _ | .tag _ _ _ | .label _ _ => false
  | _ => true

/-- There may be whitespace in front of the first token. -/
def looseHead : List Tk → Bool
  | [] => true
  | t :: _ => !t.tight

mutual
/-- The tokens of the formula are what the grammar says: atoms are atoms, numbers and primes end where the
grammar says, and directly in square brackets there is no closing square bracket. -/
def Form.ok (bracket : Bool) : Form → Bool
  | .nil => true
  | .item b s rest => b.ok bracket (s.tokens ++ rest.tokens) && s.ok rest.tokens && rest.ok bracket
  | .bigOp o s rest => o.ok && s.ok rest.tokens && rest.ok bracket
  | .func x _ s rest => x.ok && s.ok rest.tokens && rest.ok bracket
  | .amp rest | .newLine _ rest | .noNumber rest => rest.ok bracket
  | .tag _ text rest | .label text rest => (plainText text).isSome && rest.ok bracket
  | .style _ rest => !bracket && rest.ok bracket
  | .color x rest => !bracket && x.ok && rest.ok bracket
  | .call t args k cont => isCall t && args.all CallArg.ok && cont.speaks && looseHead (cont.tokens.drop k) &&
    cont.ok bracket
  | .emptyCall t args s rest => isCall t && args.all CallArg.ok && s.ok rest.tokens && rest.ok bracket
/-- The same for bases; `after` are the tokens which follow. -/
def Base.ok (bracket : Bool) : Base → List Tk → Bool
  | .atom t, _ =>
    isAtom t.unwrapMath && !(bracket && (match t with | .squareBracketClose => true | _ => false))
  | .number _ _, after => headNot continuesNumber after
  | .group f, _ => f.ok false
  | .frac _ _ num den, _ => num.ok && den.ok
  | .genfrac x num den, _ => x.ok && num.ok && den.ok
  | .sqrt a, _ => a.ok
  | .root degree a, _ => degree.ok true && a.ok
  | .deco _ a, _ => a.ok
  | .brace _ isOver a, after => a.ok && headNot (startsLabel isOver) after
  | .braceLabel _ _ a label, _ => a.ok && label.ok
  | .prescript sup sub a, _ => sup.ok && sub.ok && a.ok
  | .leaf x, _ => x.ok
  | .mathClass _ b, after | .overlay _ b, after => b.ok false after
  | .stackTok _ symbol t, _ => symbol.ok && isAlone t
  | .stackGroup _ symbol f, _ => symbol.ok && f.ok false
  | .arrow _ over, _ => over.ok
  | .arrowUnder _ under over, _ => under.ok true && over.ok
  | .cramped _ f, _ => f.ok false
  | .fence l r f, _ => Named l.unwrapMath && !l.isWs && Named r.unwrapMath && !r.isWs && f.ok false
  | .env e _ o f, _ => o.ok e && f.ok false
/-- The same for arguments -/
def Arg.ok : Arg → Bool
  | .tok t =>
    match t.unwrapMath with
    | .digit _ => true
    | .squareBracketOpen => false
    | t => isAtom t
  | .braces f => f.ok false
/-- The same for scripts -/
def Scripts.ok : Scripts → List Tk → Bool
  | .nil, _ => true
  | .sub a s, after | .sup a s, after => a.ok && s.ok after
  | .primes t ts s, after =>
    (t :: ts).all (fun t => (primeOf t).isSome) && headNot continuesPrimes (s.tokens ++ after) && s.ok after
  | .primesSup t ts a s, after => (t :: ts).all (fun t => (primeOf t).isSome) && a.ok && s.ok after
end

/-! ### Macros -/

/-- A piece of the body of a macro: the parameter `#(i+1)`, or a token -/
inductive Piece
  | param (i : Nat)
  | tok (t : Token)

/-- What a call means: the number of arguments and the body -/
abbrev Macros := Token → Option (Nat × List Piece)

/-- The body of a macro with the arguments in it. `sp` says that there may be whitespace in front of it. -/
def expandTks (args : List CallArg) : Bool → List Piece → List Tk
  | _, [] => []
  | sp, .tok t :: body =>
    if t.isWs then expandTks args true body else ⟨t, !sp⟩ :: expandTks args false body
  | sp, .param i :: body =>
    match (args[i]?).map CallArg.inner with
    | some (x :: xs) => ⟨x.tok, x.tight && !sp⟩ :: xs ++ expandTks args true body
    | _ => ⟨.groupBegin, !sp⟩ :: ⟨.groupEnd, true⟩ :: expandTks args false body

/-- The same tokens, of which fewer have to be tight -/
inductive Loosens : List Tk → List Tk → Prop
  | nil : Loosens [] []
  | cons {t b b' xs ys} : (b = true → b' = true) → Loosens xs ys → Loosens (⟨t, b⟩ :: xs) (⟨t, b'⟩ :: ys)

mutual
/-- All calls in the formula are expanded correctly. -/
def Form.linked (M : Macros) : Form → Prop
  | .nil => True
  | .item b s rest => b.linked M ∧ s.linked M ∧ rest.linked M
  | .bigOp _ s rest | .func _ _ s rest => s.linked M ∧ rest.linked M
  | .amp rest | .newLine _ rest | .noNumber rest | .tag _ _ rest | .label _ rest | .style _ rest
  | .color _ rest => rest.linked M
  | .call t args k cont => (∃ body, M t = some (args.length, body) ∧ body ≠ [] ∧ args.length ≤ 9 ∧
      (∀ i, .param i ∈ body → i < 9) ∧ Loosens (cont.tokens.take k) (expandTks args false body)) ∧ cont.linked M
  | .emptyCall t args s rest => (M t = some (args.length, []) ∧ args.length ≤ 9) ∧ s.linked M ∧ rest.linked M
/-- The same for bases -/
def Base.linked (M : Macros) : Base → Prop
  | .atom _ | .number _ _ | .leaf _ => True
  | .group f | .fence _ _ f | .env _ _ _ f | .cramped _ f => f.linked M
  | .frac _ _ a b | .genfrac _ a b | .braceLabel _ _ a b => a.linked M ∧ b.linked M
  | .prescript a b c => a.linked M ∧ b.linked M ∧ c.linked M
  | .sqrt a | .deco _ a | .brace _ _ a | .stackTok _ a _ | .arrow _ a => a.linked M
  | .mathClass _ b | .overlay _ b => b.linked M
  | .root f a | .arrowUnder _ f a => f.linked M ∧ a.linked M
  | .stackGroup _ a f => a.linked M ∧ f.linked M
/-- The same for arguments -/
def Arg.linked (M : Macros) : Arg → Prop
  | .tok _ => True
  | .braces f => f.linked M
/-- The same for scripts -/
def Scripts.linked (M : Macros) : Scripts → Prop
  | .nil => True
  | .sub a s | .sup a s | .primesSup _ _ a s => a.linked M ∧ s.linked M
  | .primes _ _ s => s.linked M
end

/-- A token of a body, with its meaning at the time of the call -/
def pieceOf (known : Str → Option Token) : RecordedToken → Piece
  | .token (.customCmdArg i) => .param i
  | .token t => .tok t
  | .commandName name => .tok ((known name).getD (.unresolvedCommand name))

/-- The macros which are known: those which are built in and those which have been defined -/
def macrosOf (cfg : ParserConfig) (stores : CmdStores) : Macros
  | .customCmd n body | .mathOrTextMode (.customCmd n body) _ =>
    some (n, body.map fun t => pieceOf (stores.resolveCommand cfg.builtin) (.token t))
  | .customCmdRef src n _ start stop =>
    (stores.getBody src start stop).map fun body => (n, body.map (pieceOf (stores.resolveCommand cfg.builtin)))
  | _ => none

end Verif.Spec

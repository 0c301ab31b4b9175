import Verif.Spec.Tame
import Verif.Spec.Mathml
/-!
The MathML elements of a formula, apart from their attributes: which element belongs to which construct, and what is
in it. This depends on nothing but the formula: neither on the style nor on the neighbours nor on what was converted
before.
-/
namespace Verif.Spec
open Model

/-- A cell for the number of an equation, or the one at the other side: no other cells have a width. -/
def isNumberCell (name : Str) (attrs : Attrs) : Bool :=
  name == c!"mtd" && attrs.any fun a => a.1 == c!"style" && c!"width".isPrefixOf a.2

mutual
/-- An element without its attributes and without the numbers of equations -/
def Xml.bare : Xml → Xml
  | .text s => .text s
  | .elem name attrs kids => .elem name [] (if isNumberCell name attrs then [] else Xml.bares kids)
/-- The same for lists -/
def Xml.bares : List Xml → List Xml
  | [] => []
  | x :: xs => x.bare :: Xml.bares xs
end

/-- What is shown -/
inductive Shape
  /-- a symbol -/
  | op (c : SuperChar)
  /-- a letter -/
  | letter (upright : Bool) (c : SuperChar)
  /-- the name of a function -/
  | funcName (text : Str)
  /-- several letters which are one word -/
  | word (text : Str)
  /-- an empty group -/
  | nothing
  /-- something with scripts in front of it -/
  | pre (base sub sup : Shape)
  /-- an element with text -/
  | leaf (name : Str) (text : Str)
  /-- an element with elements -/
  | elem (name : Str) (kids : List Shape)

mutual
/-- The element. A letter which is not a single character is not alone in its element, so that it is not in italics. -/
def Shape.xml : Shape → Xml
  | .op c => el c!"mo" (txt c.text)
  | .letter upright c =>
    if upright || c.tryAsChar.isNone then el c!"mrow" [el c!"mspace" [], el c!"mi" (txt c.text)]
    else el c!"mi" (txt c.text)
  | .funcName s => el c!"mo" (txt s)
  | .word s => el c!"mrow" [el c!"mspace" [], el c!"mi" (txt s)]
  | .nothing => el c!"mrow" []
  | .pre base sub sup => el c!"mmultiscripts" [base.xml, el c!"mprescripts" [], sub.xml, sup.xml]
  | .leaf name s => el name (txt s)
  | .elem name kids => el name (Shape.xmls kids)
/-- The elements -/
def Shape.xmls : List Shape → List Xml
  | [] => []
  | s :: ss => s.xml :: Shape.xmls ss
end

/-- Several things in the place of one -/
def Shape.one : List Shape → Shape
  | [s] => s
  | [] => .nothing
  | ss => .elem c!"mrow" ss

/-- Scripts: below and above -/
abbrev ScriptShapes := Option Shape × Option Shape

/-- Something with scripts at its side -/
def Shape.withScripts : Shape → ScriptShapes → Shape
  | s, (none, none) => s
  | .pre base sub sup, (a, b) =>
    .elem c!"mmultiscripts" [base, a.getD .nothing, b.getD .nothing, .leaf c!"mprescripts" [], sub, sup]
  | s, (some a, none) => .elem c!"msub" [s, a]
  | s, (none, some b) => .elem c!"msup" [s, b]
  | s, (some a, some b) => .elem c!"msubsup" [s, a, b]

/-- Something with scripts below and above it -/
def Shape.withLimits : Shape → ScriptShapes → Shape
  | s, (none, none) => s
  | s, (some a, none) => .elem c!"munder" [s, a]
  | s, (none, some b) => .elem c!"mover" [s, b]
  | s, (some a, some b) => .elem c!"munderover" [s, a, b]

/-- A symbol -/
def symbolShape (op : MathMLOperator) : Shape := .op op.sc

/-- A symbol which is a single character -/
def charShape (c : Char) : Shape := .op (SuperChar.fromChar c)

/-- A token which stands for itself -/
def atomShape : Token → Shape
  | .letter c _ => .letter false c
  | .uprightLetter c => .letter true c
  | .relation rel => symbolShape rel.asOp
  | .punctuation p => symbolShape p.asOp
  | .ord o | .opening o | .closing o => symbolShape o.asOp
  | .binaryOp b => symbolShape b.asOp
  | .inner b => symbolShape b.asOp
  | .forceRelation op | .forcePunctuation op | .forceOrd op | .forceBinaryOp op | .forceMathInner op
  | .forceOpen op _ | .forceClose op _ => symbolShape op
  | .squareBracketOpen => charShape '['
  | .squareBracketClose => charShape ']'
  | .space _ => .leaf c!"mspace" []
  | .nonBreakingSpace => .leaf c!"mtext" [Char.ofNat 0xA0]
  | _ => .nothing

/-- A token as an argument -/
def aloneShape (t : Token) : Shape :=
  match t.unwrapMath with
  | .digit c => .leaf c!"mn" [c]
  | t => atomShape t

/-- A delimiter; none is shown as a separator which cannot be seen. -/
def delimShape : Option StretchableOp → Shape
  | some d => symbolShape d.op
  | none => charShape (Char.ofNat 0x2063)

/-- The delimiter a token stands for -/
def tokenDelim (t : Token) : Option StretchableOp :=
  if t.isFullStop then none else t.delimiter

/-- Primes: up to four (or three) have a symbol of their own, and more are written one after the other. -/
def primeShapes (d : PrimeDirection) (n : Nat) : List Shape :=
  let first : OrdLike := match d with
    | .forward => Sym.PRIME
    | .reversed => Sym.REVERSED_PRIME
  match d.ops[n - 1]? with
  | some o => [symbolShape o.asOp]
  | none => symbolShape first.asOp :: (List.replicate (n - 1) [.leaf c!"mspace" [], symbolShape first.asOp]).flatten

/-- The primes which tokens stand for -/
def primesShapes (ts : List Token) : List Shape := (primeRuns ts).reverse.flatMap fun (d, n) => primeShapes d n

/-- A brace or an accent -/
def Shape.accent (isOver : Bool) (op : MathMLOperator) (s : Shape) : Shape :=
  .elem (if isOver then c!"mover" else c!"munder") [s, symbolShape op]

/-- What is put on an argument -/
def Deco.shape (s : Shape) : Deco → Shape
  | .accent o isOver _ => s.accent isOver o.asOp
  | .enclose n => .elem c!"menclose" (s :: (notationMarks n).map fun _ => .leaf c!"mrow" [])
  | .phantom .full => .elem c!"mphantom" [s]
  | .phantom _ => .elem c!"mpadded" [.elem c!"mphantom" [s]]

/-- Text -/
def textShape (style : Option HtmlTextStyle) (s : Str) : Shape :=
  match style with
  | none => .leaf c!"mtext" s
  | some .bold => .elem c!"mtext" [.leaf c!"b" s]
  | some .italic => .elem c!"mtext" [.leaf c!"i" s]
  | some .boldItalic => .elem c!"mtext" [.elem c!"b" [.leaf c!"i" s]]
  | some .emphasis => .elem c!"mtext" [.leaf c!"em" s]
  | some .typewriter => .elem c!"mtext" [.leaf c!"code" s]
  | some .smallCaps | some .sansSerif | some .serif => .elem c!"mtext" [.leaf c!"span" s]
  | some .strikethrough => .elem c!"mtext" [.leaf c!"s" s]
  | some .underline => .elem c!"mtext" [.leaf c!"u" s]

/-- A word in a font -/
def wordShape (tf : MathVariant) : List SuperChar → Shape
  | [c] => .letter (tf = .normal) c
  | cs => .word (cs.flatMap SuperChar.text)

/-- Commands with arguments which are not formulas. `labels` says what the labels stand for. -/
def Leaf.shape (labels : Str → Option Str) : Leaf → Shape
  | .big _ _ t | .middle t => delimShape t.unwrapMath.delimiter
  | .eqRef text => .elem c!"mtext" [.leaf c!"a" (c!"(" ++ (labels ((plainText text).getD [])).getD c!"??" ++ c!")")]
  | .hspace _ _ => .leaf c!"mspace" []
  | .textBox style text =>
    match (textBy textChar text).getD [] with
    | [] => .nothing
    | s => textShape style s
  | .font tf text => wordShape tf ((fontWord tf text).getD [])
  | .fontTok tf t => wordShape tf (fontChar tf t).toList

/-- Something between delimiters -/
def Shape.between (l r : Option Token) (s : Shape) : Shape :=
  .elem c!"mrow" [delimShape (l.bind (·.unwrapMath.delimiter)), s, delimShape (r.bind (·.unwrapMath.delimiter))]

/-- The label of an arrow, which is at least as wide as the space above or below it -/
def labelShape (isOver : Bool) (s : Shape) : Shape :=
  .elem (if isOver then c!"mover" else c!"munder")
    [.elem c!"mrow" [.leaf c!"mspace" [], s, .leaf c!"mspace" []], .leaf c!"mspace" []]

/-- An arrow with labels -/
def arrowShape (rel : Rel) (under : Option Shape) (over : Shape) : Shape :=
  .elem c!"mrow" [.leaf c!"mspace" [],
    (match under with
      | none => .elem c!"mover" [symbolShape rel.asOp, labelShape true over]
      | some u => .elem c!"munderover" [symbolShape rel.asOp, labelShape false u, labelShape true over]),
    .leaf c!"mspace" []]

/-- The argument of `\mathrel` and so on -/
def Shape.inClass : Shape → Shape
  | .op c => .op c
  | .nothing => charShape (Char.ofNat 0x2063)
  | s => .elem c!"mpadded" [s]

/-- The argument of `\not` and so on -/
def Shape.struck (o : OverlayChar) : Shape → Shape
  | .op c => .op (c.withOverlay o)
  | .letter upright c => .letter upright (c.withOverlay o)
  | .funcName s => .funcName (overlayText o s)
  | .word s => .word (overlayText o s)
  | s => s

/-- What a formula is made of: things which are shown, and separators -/
inductive ShapePiece
  | shape (s : Shape)
  | nextCell
  | nextRow

/-- What is shown, without the separators -/
def shapesOf : List ShapePiece → List Shape
  | [] => []
  | .shape s :: ps => s :: shapesOf ps
  | _ :: ps => shapesOf ps

/-- Rows and cells -/
def rowsOfPieces : List ShapePiece → List (List (List Shape))
  | [] => [[[]]]
  | .shape s :: ps =>
    match rowsOfPieces ps with
    | (cell :: cells) :: rows => ((s :: cell) :: cells) :: rows
    | rows => rows
  | .nextCell :: ps =>
    match rowsOfPieces ps with
    | row :: rows => ([] :: row) :: rows
    | rows => rows
  | .nextRow :: ps => [[]] :: rowsOfPieces ps

/-- The cells of a row of an array, from column `j` on: each line but the first one between two columns has an empty
cell of its own. -/
def cellShapes (columns : List ColumnSpecEntry) : Nat → List (List Shape) → List Shape
  | _, [] => []
  | j, c :: cs =>
    (column columns j).1.map (fun _ => .elem c!"mtd" []) ++ .elem c!"mtd" c :: cellShapes columns (j + 1) cs

/-- A table -/
def tableShape (columns : List ColumnSpecEntry) (ps : List ShapePiece) : Shape :=
  .elem c!"mtable" ((rowsOfPieces ps).map fun row => .elem c!"mtr" (cellShapes columns 0 row))

/-- The delimiters of an environment without numbers -/
def envDelims : Env → Option (Option StretchableOp × Option StretchableOp)
  | .cases | .dCases => some (some openBrace, none)
  | .rCases | .drCases => some (none, some closeBrace)
  | .pMatrix => some (some openParen, some closeParen)
  | .bMatrix => some (some openBracket, some closeBracket)
  | .Bmatrix => some (some openBrace, some closeBrace)
  | .vMatrix => some (some lineDelim, some lineDelim)
  | .Vmatrix => some (some doubleLineDelim, some doubleLineDelim)
  | _ => none

/-- The columns which are given as an argument -/
def givenColumns (e : Env) (o : EnvArgs) : List ColumnSpecEntry :=
  match e, o.columns e with
  | .array, .ok (some s) | .dArray, .ok (some s) | .subarray, .ok (some s) => s.columnSpec
  | _, _ => []

/-- A table with empty cells at both sides of every row, for the numbers -/
def numberedShape (ps : List ShapePiece) : Shape :=
  .elem c!"mtable" ((rowsOfPieces ps).map fun row => .elem c!"mtr" (.elem c!"mtd" [] :: (cellShapes [] 0 row ++ [.elem c!"mtd" []])))

/-- An environment -/
def envShape (e : Env) (o : EnvArgs) (ps : List ShapePiece) : Shape :=
  let table := if (envNumbering e).isSome then numberedShape ps else tableShape (givenColumns e o) ps
  match envDelims e with
  | some (l, r) => .elem c!"mrow" [delimShape l, table, delimShape r]
  | none => table

mutual
/-- What a formula shows -/
def Form.pieces (labels : Str → Option Str) : Form → List ShapePiece
  | .nil => []
  | .item b s rest => .shape ((b.shape labels).withScripts (s.shapes labels)) :: rest.pieces labels
  | .bigOp o s rest =>
    .shape (if o.op.cat ≠ .C && limitsSet o.lim (o.op.cat = .J) then (symbolShape o.op.asOp).withLimits (s.shapes labels)
      else (symbolShape o.op.asOp).withScripts (s.shapes labels)) :: rest.pieces labels
  | .func x limits s rest =>
    .shape (if limitsSet x.lim limits then (Shape.funcName x.name.shown).withLimits (s.shapes labels)
      else (Shape.funcName x.name.shown).withScripts (s.shapes labels)) :: rest.pieces labels
  | .amp rest => .nextCell :: rest.pieces labels
  | .newLine _ rest => .nextRow :: rest.pieces labels
  | .noNumber rest | .tag _ _ rest | .label _ rest => rest.pieces labels
  | .style _ rest | .color _ rest => [.shape (.elem c!"mrow" (shapesOf (rest.pieces labels)))]
  | .call _ _ _ cont => cont.pieces labels
  | .emptyCall _ _ s rest => .shape (Shape.nothing.withScripts (s.shapes labels)) :: rest.pieces labels
/-- What a base shows -/
def Base.shape (labels : Str → Option Str) : Base → Shape
  | .atom t => atomShape t.unwrapMath
  | .number d more => .leaf c!"mn" (d :: digitText more)
  | .group f => .one (shapesOf (f.pieces labels))
  | .frac _ isBinom num den =>
    let frac := Shape.elem c!"mfrac" [num.shape labels, den.shape labels]
    if isBinom then .elem c!"mrow" [charShape '(', frac, charShape ')'] else frac
  | .genfrac x num den => .between x.left x.right (.elem c!"mfrac" [num.shape labels, den.shape labels])
  | .sqrt a => .elem c!"msqrt" [a.shape labels]
  | .root degree a => .elem c!"mroot" [a.shape labels, .one (shapesOf (degree.pieces labels))]
  | .deco d a => d.shape (a.shape labels)
  | .brace x isOver a => (a.shape labels).accent isOver x.asOp
  | .braceLabel x isOver a label =>
    .elem (if isOver then c!"mover" else c!"munder") [(a.shape labels).accent isOver x.asOp, label.shape labels]
  | .prescript sup sub a => .pre (a.shape labels) (sub.shape labels) (sup.shape labels)
  | .leaf x => x.shape labels
  | .mathClass _ b => (b.shape labels).inClass
  | .overlay o b => (b.shape labels).struck o
  | .stackTok isOver symbol t => .elem (if isOver then c!"mover" else c!"munder") [aloneShape t, symbol.shape labels]
  | .stackGroup isOver symbol f =>
    .elem (if isOver then c!"mover" else c!"munder") [.one (shapesOf (f.pieces labels)), symbol.shape labels]
  | .arrow rel over => arrowShape rel none (over.shape labels)
  | .arrowUnder rel under over => arrowShape rel (some (.one (shapesOf (under.pieces labels)))) (over.shape labels)
  | .cramped _ f => .elem c!"mrow" [.one (shapesOf (f.pieces labels))]
  | .fence l r f =>
    .elem c!"mrow" (delimShape (tokenDelim l.unwrapMath) :: shapesOf (f.pieces labels) ++ [delimShape (tokenDelim r.unwrapMath)])
  | .env e _ o f => envShape e o (f.pieces labels)
/-- What an argument shows -/
def Arg.shape (labels : Str → Option Str) : Arg → Shape
  | .tok t => aloneShape t
  | .braces f => .one (shapesOf (f.pieces labels))
/-- What scripts show: below and above -/
def Scripts.shapes (labels : Str → Option Str) : Scripts → ScriptShapes
  | .nil => (none, none)
  | .sub a s => (some (a.shape labels), (s.shapes labels).2)
  | .sup a s => ((s.shapes labels).1, some (a.shape labels))
  | .primes t ts s => ((s.shapes labels).1, some (.one (primesShapes (t :: ts))))
  | .primesSup t ts a s => ((s.shapes labels).1, some (.one (primesShapes (t :: ts) ++ [a.shape labels])))
end

mutual
/-- There is no `\\` in `equation`, where it would not be the end of a row. -/
def Form.unbroken : Form → Bool
  | .nil => true
  | .item b s rest => b.unbroken && s.unbroken && rest.unbroken
  | .bigOp _ s rest | .func _ _ s rest | .emptyCall _ _ s rest => s.unbroken && rest.unbroken
  | .amp rest | .newLine _ rest | .noNumber rest | .tag _ _ rest | .label _ rest | .style _ rest
  | .color _ rest => rest.unbroken
  | .call _ _ _ cont => cont.unbroken
/-- The same for bases -/
def Base.unbroken : Base → Bool
  | .atom _ | .number _ _ | .leaf _ => true
  | .group f | .fence _ _ f | .cramped _ f => f.unbroken
  | .frac _ _ a b | .genfrac _ a b | .braceLabel _ _ a b => a.unbroken && b.unbroken
  | .prescript a b c => a.unbroken && b.unbroken && c.unbroken
  | .sqrt a | .deco _ a | .brace _ _ a | .stackTok _ a _ | .arrow _ a => a.unbroken
  | .mathClass _ b | .overlay _ b => b.unbroken
  | .root f a | .arrowUnder _ f a => f.unbroken && a.unbroken
  | .stackGroup _ a f => a.unbroken && f.unbroken
  | .env e _ _ f => (envRows e || f.tame false) && f.unbroken
/-- The same for arguments -/
def Arg.unbroken : Arg → Bool
  | .tok _ => true
  | .braces f => f.unbroken
/-- The same for scripts -/
def Scripts.unbroken : Scripts → Bool
  | .nil => true
  | .sub a s | .sup a s | .primesSup _ _ a s => a.unbroken && s.unbroken
  | .primes _ _ s => s.unbroken
end

end Verif.Spec

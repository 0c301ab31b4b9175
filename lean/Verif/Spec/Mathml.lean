import Verif.Spec.Xml
import Verif.Model.Emit
/-!
Which MathML tree a syntax tree stands for. This says nothing about text: no quoting, escaping,
layout or order of writing. Tables are described by their rows and cells.
-/
namespace Verif.Spec
open Verif.Model

abbrev Attrs := List (Str × Str)

/-- An element without attributes -/
def el (name : Str) (children : List Xml) : Xml := .elem name [] children

/-- Text, unless it is empty -/
def txt (s : Str) : List Xml := if s = [] then [] else [.text s]

/-- An attribute which may be missing -/
def optAttr (name : Str) : Option Str → Attrs
  | none => []
  | some v => [(name, v)]

/-- An attribute which is there if a condition holds -/
def attrIf (cond : Bool) (name value : Str) : Attrs := if cond then [(name, value)] else []

/-- A `style` attribute, unless it is empty -/
def styleAttr (s : Str) : Attrs := if s = [] then [] else [(c!"style", s)]

/-- The attributes of an operator that its flags stand for -/
def flagAttrs (a : OpAttrs) : Attrs :=
  attrIf (a.getLsbD 0) c!"stretchy" c!"false" ++
  attrIf (a.getLsbD 1) c!"stretchy" c!"true" ++
  attrIf (a.getLsbD 2) c!"movablelimits" c!"false" ++
  attrIf (a.getLsbD 3) c!"movablelimits" c!"true" ++
  attrIf (a.getLsbD 4) c!"form" c!"prefix" ++
  attrIf (a.getLsbD 5) c!"form" c!"infix" ++
  attrIf (a.getLsbD 6) c!"form" c!"postfix" ++
  attrIf (a.getLsbD 7) c!"symmetric" c!"true" ++
  attrIf (a.getLsbD 8) c!"largeop" c!"true"

/-- Spaces of 0, 3, 4 and 5 mu, where 18 mu are 1 em -/
def spacing : MathSpacing → Str
  | .zero => c!"0"
  | .threeMu => c!"0.1667em"
  | .fourMu => c!"0.2222em"
  | .fiveMu => c!"0.2778em"

def spacingAttrs (left right : Option MathSpacing) : Attrs :=
  optAttr c!"lspace" (left.map spacing) ++ optAttr c!"rspace" (right.map spacing)

def sizeAttrs : Option Size → Attrs
  | none => []
  | some s => [(c!"minsize", s.str), (c!"maxsize", s.str)]

/-- The four styles of TeX -/
def styleAttrs : Option Style → Attrs
  | none => []
  | some .display => [(c!"displaystyle", c!"true"), (c!"scriptlevel", c!"0")]
  | some .text => [(c!"displaystyle", c!"false"), (c!"scriptlevel", c!"0")]
  | some .script => [(c!"displaystyle", c!"false"), (c!"scriptlevel", c!"1")]
  | some .scriptScript => [(c!"displaystyle", c!"false"), (c!"scriptlevel", c!"2")]

def fracAttrs : Option FracAttr → Attrs
  | none => []
  | some .displayStyleTrue => [(c!"displaystyle", c!"true")]
  | some .displayStyleFalse => [(c!"displaystyle", c!"false")]
  | some .cfracStyle =>
    [(c!"displaystyle", c!"true"), (c!"scriptlevel", c!"0"), (c!"style", c!"padding-top: 0.1667em")]

/-- CSS for the attributes of a row -/
def rowCss (a : RowAttrs) : Str :=
  (match a.color with
    | some (r, g, b) => c!"color:#" ++ u8Hex r ++ u8Hex g ++ u8Hex b ++ c!";"
    | none => []) ++
  (if a.mathShiftCompact then c!"math-shift:compact;" else [])

/-- CSS for padding -/
def paddingCss (left right : Option MathSpacing) : Str :=
  (match left with
    | some l => c!"padding-left:" ++ spacing l ++ c!";"
    | none => []) ++
  (match right with
    | some r => c!"padding-right:" ++ spacing r ++ c!";"
    | none => [])

/-- HTML around a piece of styled text -/
def textStyleXml (s : Option HtmlTextStyle) (kids : List Xml) : List Xml :=
  match s with
  | none => kids
  | some .bold => [el c!"b" kids]
  | some .italic => [el c!"i" kids]
  | some .boldItalic => [el c!"b" [el c!"i" kids]]
  | some .emphasis => [el c!"em" kids]
  | some .typewriter => [el c!"code" kids]
  | some .smallCaps => [.elem c!"span" [(c!"style", c!"font-variant-caps: small-caps")] kids]
  | some .sansSerif => [.elem c!"span" [(c!"class", c!"math-core-sans-serif-font")] kids]
  | some .serif => [.elem c!"span" [(c!"class", c!"math-core-serif-font")] kids]
  | some .strikethrough => [el c!"s" kids]
  | some .underline => [el c!"u" kids]

/-- Space; a negative one is a margin. -/
def spaceAttrs (fmt : Rat → Str) (l : Length) : Attrs :=
  if l.isNegative then [(c!"style", c!"margin-left:" ++ l.str fmt ++ c!";")]
  else (c!"width", l.str fmt) ::
    attrIf (l.unit = .rem) c!"style" (c!"width:" ++ l.str fmt)

/-- The names of a set of notations -/
def notationNames (n : Notation) : List Str :=
  (if n.getLsbD 2 then [c!"box"] else []) ++ (if n.getLsbD 3 then [c!"actuarial"] else []) ++
  (if n.getLsbD 4 then [c!"phasorangle"] else []) ++
  (if n.getLsbD 0 then [c!"updiagonalstrike"] else []) ++
  (if n.getLsbD 1 then [c!"downdiagonalstrike"] else [])

/-- Elements which the style sheet draws strokes with -/
def notationMarks (n : Notation) : List Xml :=
  (if n.getLsbD 4 then [.elem c!"mrow" [(c!"class", c!"menclose-phasorangle")] []] else []) ++
  (if n.getLsbD 0 then [.elem c!"mrow" [(c!"class", c!"menclose-updiagonalstrike")] []] else []) ++
  (if n.getLsbD 1 then [.elem c!"mrow" [(c!"class", c!"menclose-downdiagonalstrike")] []] else [])

/-- A vertical offset with several components is a nest of elements, one for each component; the
other attributes are those of the innermost one. -/
def paddedXml (fmt : Rat → Str) (attrs : Attrs) (child : Xml) : List Length → Xml
  | [] => .elem c!"mpadded" attrs [child]
  | [l] => .elem c!"mpadded" ((c!"voffset", l.str fmt) :: attrs) [child]
  | l :: ls => .elem c!"mpadded" [(c!"voffset", l.str fmt)] [paddedXml fmt attrs child ls]

/-! ### Tables -/

/-- What a table is made of: content, `&` and `\\` (with the label of the row it ends and the line
above the row it starts). -/
inductive Item
  | node (x : Xml)
  | nextCell
  | nextRow (label : Option RowLabelInfo) (line : Option LineType)

/-- A row of a table -/
structure TRow where
  line : Option LineType
  label : Option RowLabelInfo
  cells : List (List Xml)

/-- Put something in front of the first cell -/
def TRow.cons (x : Xml) (r : TRow) : TRow :=
  match r.cells with
  | [] => { r with cells := [[x]] }
  | c :: cs => { r with cells := (x :: c) :: cs }

/-- Add an empty first cell -/
def TRow.consCell (r : TRow) : TRow := { r with cells := [] :: r.cells }

/-- Change the first row -/
def onFirst (f : TRow → TRow) : List TRow → List TRow
  | [] => []
  | r :: rs => f r :: rs

/-- The rows of a table: `line` is above the first row, `last` the label of the last row. -/
def rowsOf (last : Option RowLabelInfo) : Option LineType → List Item → List TRow
  | line, [] => [⟨line, last, [[]]⟩]
  | line, .node x :: rest => onFirst (TRow.cons x) (rowsOf last line rest)
  | line, .nextCell :: rest => onFirst TRow.consCell (rowsOf last line rest)
  | line, .nextRow label line' :: rest => ⟨line, label, [[]]⟩ :: rowsOf last line' rest

/-- The `j`-th column of a column specification: the lines in front of it, the alignment and the
line behind it. Behind the last column there are centred columns without lines. -/
def column : List ColumnSpecEntry → Nat → List LineType × ColumnAlignment × Option LineType
  | [], _ => ([], .center, none)
  | .onlyLine l :: rest, 0 => (l :: (column rest 0).1, (column rest 0).2)
  | .onlyLine _ :: rest, j + 1 => column rest (j + 1)
  | .withContent a b :: _, 0 => ([], a, b)
  | .withContent _ _ :: rest, j + 1 => column rest j

def lineName : LineType → Str
  | .solid => c!"solid"
  | .dashed => c!"dashed"

def lineCss (side : Str) : Option LineType → Str
  | none => []
  | some l => c!"border-" ++ side ++ c!": 0.05em " ++ lineName l ++ c!" currentcolor;"

def alignCss : ColumnAlignment → Str
  | .left => c!"text-align: left;justify-items: start;"
  | .center => []
  | .right => c!"text-align: right;justify-items: end;"

/-- Kinds of tables -/
inductive Layout
  | columns (a : Alignment)
  | spec (s : ArraySpec)
  | multline (numRows : Nat)

/-- CSS for a cell of row `i`, column `j`, apart from a line above the row -/
def cellCss : Layout → Nat → Nat → Str
  | .columns .centered, _, _ => []
  | .columns .cases, _, j =>
    alignCss .left ++ c!"padding-right: 0;" ++ if j % 2 = 1 then c!"padding-left:1em;" else []
  | .columns .alternating, _, j =>
    if j % 2 = 0 then alignCss .right ++ c!"padding-right: 0;"
    else alignCss .left ++ c!"padding-left: 0;"
  | .spec s, _, j =>
    alignCss (column s.columnSpec j).2.1 ++ lineCss c!"right" (column s.columnSpec j).2.2 ++
      if s.isSub then c!"padding-top: 0;padding-bottom: 0;" else []
  | .multline n, i, _ =>
    if i = 0 then alignCss .left else if i + 1 = n then alignCss .right else []

/-- Cells which are only lines, in front of column `j` -/
def lineCells (lay : Layout) (line : Option LineType) (j : Nat) : List Xml :=
  match lay with
  | .spec s => (column s.columnSpec j).1.map fun l =>
      .elem c!"mtd" [(c!"style", lineCss c!"top" line ++ lineCss c!"right" (some l) ++
        (if s.isSub then c!"padding-top: 0;padding-bottom: 0;" else []) ++
        c!"padding-left: 0.1em;padding-right: 0.1em;")] []
  | _ => []

/-- The cells of row `i` from column `j` on -/
def cellsXml (lay : Layout) (line : Option LineType) (i : Nat) : Nat → List (List Xml) → List Xml
  | _, [] => []
  | j, c :: cs =>
    lineCells lay line j ++
      .elem c!"mtd" (styleAttr (lineCss c!"top" line ++ cellCss lay i j)) c :: cellsXml lay line i (j + 1) cs

/-- The width of the columns at the sides of a numbered equation -/
def numberWidth : NumberColums → Str
  | .narrow => c!"width: 7.5%"
  | .wide => c!"width: 50%"

/-- What is shown for a tag -/
def tagText (t : EquationTag) : Str := if t.parenthesized then c!"(" ++ t.text ++ c!")" else t.text

/-- The cell with the number of an equation -/
def numberCell (idPrefix : Str) (n : NumberColums) : Option RowLabelInfo → Xml
  | none => .elem c!"mtd" [(c!"style", numberWidth n)] []
  | some l => .elem c!"mtd"
      ((c!"style", numberWidth n ++ c!";" ++ alignCss .right) ::
        optAttr c!"id" (l.linkTarget.map (equationId idPrefix)))
      [el c!"mtext" (txt (tagText l.tag))]

/-- Rows of a table from row `i` on -/
def rowsXml (idPrefix : Str) (lay : Layout) (nums : Option NumberColums) : Nat → List TRow → List Xml
  | _, [] => []
  | i, r :: rs =>
    el c!"mtr" (match nums with
      | none => cellsXml lay r.line i 0 r.cells
      | some n => .elem c!"mtd" [(c!"style", numberWidth n)] [] ::
          (cellsXml lay r.line i 0 r.cells ++ [numberCell idPrefix n r.label])) ::
      rowsXml idPrefix lay nums (i + 1) rs

/-- Attributes of a numbered table -/
def numberedAttrs : Attrs :=
  [(c!"displaystyle", c!"true"), (c!"scriptlevel", c!"0"), (c!"style", c!"width: 100%")]

/-! ### Nodes -/

mutual
/-- The element a node stands for. (Separators are only meaningful in tables.) -/
def toXml (cfg : EmitCfg) : Node → Xml
  | .number n => el c!"mn" (txt n)
  | .identifierChar letter attr =>
    if attr = .forcedUpright then
      el c!"mrow" [el c!"mspace" [], .elem c!"mi" [(c!"mathvariant", c!"normal")] (txt letter.text)]
    else if letter.tryAsChar.isSome then el c!"mi" (txt letter.text)
    else el c!"mrow" [el c!"mspace" [], el c!"mi" (txt letter.text)]
  | .identifierStr s => el c!"mrow" [el c!"mspace" [], el c!"mi" (txt s)]
  | .operator op attrs size left right =>
    .elem c!"mo" (flagAttrs attrs ++ spacingAttrs left right ++ sizeAttrs size) (txt op.sc.text)
  | .pseudoOp attrs left right name =>
    .elem c!"mo" (flagAttrs attrs ++ spacingAttrs left right) (txt name)
  | .space l => .elem c!"mspace" (spaceAttrs cfg.fmt l) []
  | .sub target symbol => el c!"msub" [toXml cfg target, toXml cfg symbol]
  | .sup target symbol => el c!"msup" [toXml cfg target, toXml cfg symbol]
  | .subSup target sub sup => el c!"msubsup" [toXml cfg target, toXml cfg sub, toXml cfg sup]
  | .overAccent op attrs target =>
    .elem c!"mover" [(c!"accent", c!"true")] [toXml cfg target, .elem c!"mo" (flagAttrs attrs) (txt op.sc.text)]
  | .underAccent op attrs target =>
    .elem c!"munder" [(c!"accentunder", c!"true")]
      [toXml cfg target, .elem c!"mo" (flagAttrs attrs) (txt op.sc.text)]
  | .over symbol target => el c!"mover" [toXml cfg target, toXml cfg symbol]
  | .under symbol target => el c!"munder" [toXml cfg target, toXml cfg symbol]
  | .underOver target under over => el c!"munderover" [toXml cfg target, toXml cfg under, toXml cfg over]
  | .sqrt content => el c!"msqrt" [toXml cfg content]
  | .root degree content => el c!"mroot" [toXml cfg content, toXml cfg degree]
  | .frac num denom ltValue ltUnit attr =>
    .elem c!"mfrac"
      (optAttr c!"linethickness" ((Length.fromParts ltValue ltUnit).map (·.str cfg.fmt)) ++ fracAttrs attr)
      [toXml cfg num, toXml cfg denom]
  | .row nodes attrs =>
    .elem c!"mrow" (styleAttr (rowCss attrs) ++ styleAttrs attrs.style) (toXmls cfg nodes)
  | .padded node width0 height0 left right voffset =>
    paddedXml cfg.fmt
      (attrIf width0 c!"width" c!"0" ++ attrIf height0 c!"height" c!"0" ++
        styleAttr (paddingCss left right))
      (toXml cfg node) (match voffset with
        | none => []
        | some v => v.iter)
  | .phantom node => el c!"mphantom" [toXml cfg node]
  | .text style size s =>
    .elem c!"mtext" (optAttr c!"style" (size.map fun z => c!"font-size:" ++ z.str))
      (textStyleXml style (txt s))
  | .aHref href s => el c!"mtext" [.elem c!"a" [(c!"href", href)] (txt s)]
  | .eqRef label =>
    el c!"mtext" [.elem c!"a" [(c!"href", eqrefHref cfg.idPrefix label)]
      [.text (c!"(" ++ (cfg.labelMap label).getD c!"??" ++ c!")")]]
  | .table align style line content =>
    .elem c!"mtable" (styleAttr (lineCss c!"top" line) ++ styleAttrs style)
      (rowsXml cfg.idPrefix (.columns align) none 0 (rowsOf none none (toItems cfg content)))
  | .equationArray align last content =>
    .elem c!"mtable" numberedAttrs
      (rowsXml cfg.idPrefix (.columns align) (some .wide) 0 (rowsOf last none (toItems cfg content)))
  | .multLine numRows last content =>
    .elem c!"mtable" numberedAttrs
      (rowsXml cfg.idPrefix (.multline numRows) (some .narrow) 0 (rowsOf last none (toItems cfg content)))
  | .array style s content =>
    .elem c!"mtable"
      (styleAttr (lineCss c!"left" s.borderLeft ++ lineCss c!"top" s.borderTop) ++ styleAttrs style)
      (rowsXml cfg.idPrefix (.spec s) none 0 (rowsOf none none (toItems cfg content)))
  | .columnSeparator => .text []
  | .rowSeparator _ _ => .text []
  | .enclose content notn =>
    .elem c!"menclose" [(c!"notation", [' '].intercalate (notationNames notn))]
      (toXml cfg content :: notationMarks notn)
  | .multiscripts base pre post =>
    el c!"mmultiscripts" (toXml cfg base :: (toXmlPairs cfg post ++
      if pre = [] then [] else el c!"mprescripts" [] :: toXmlPairs cfg pre))
  | .unknownCommand name =>
    .elem c!"merror" [(c!"class", cfg.unknownClass)] [el c!"mtext" (txt ('\\' :: name))]

/-- The elements of a list of nodes -/
def toXmls (cfg : EmitCfg) : List Node → List Xml
  | [] => []
  | n :: ns => toXml cfg n :: toXmls cfg ns

/-- Pairs of scripts -/
def toXmlPairs (cfg : EmitCfg) : List (Node × Node) → List Xml
  | [] => []
  | (a, b) :: ps => toXml cfg a :: toXml cfg b :: toXmlPairs cfg ps

/-- The content of a table -/
def toItems (cfg : EmitCfg) : List Node → List Item
  | [] => []
  | .columnSeparator :: ns => .nextCell :: toItems cfg ns
  | .rowSeparator label line :: ns => .nextRow label line :: toItems cfg ns
  | n :: ns => .node (toXml cfg n) :: toItems cfg ns
end

/-- The whole document -/
def documentXml (flags : EmitterConfig) (ast : List Node) (latex : Str) (display : MathDisplay) : Xml :=
  .elem c!"math"
    (attrIf flags.xmlNamespace c!"xmlns" c!"http://www.w3.org/1998/Math/MathML" ++
      attrIf (display = .block) c!"display" c!"block")
    (if flags.annotation then
      [el c!"semantics" [toXml flags.emitter (nodeVecToNode ast false),
        .elem c!"annotation" [(c!"encoding", c!"application/x-tex")] (txt latex)]]
     else toXmls flags.emitter ast)

end Verif.Spec

import Verif.Model.Ast
import Verif.Model.Escape
import Verif.Model.ErrorHtml
/-!
Model of the emitter: crates/mathml-renderer/src/ast.rs, table.rs, fmt.rs, attribute.rs, and `emit`
of crates/math-core/src/lib.rs. The code appends to a string and sets warning flags; the model
returns what is appended and the flags which are set. Writing to a string never fails, so there are
no errors.
-/
namespace Verif.Model

/-- What a piece of the emitter does: the text it appends and the warnings it sets (ast.rs:1022-1057). -/
structure Out where
  s : Str
  undefinedReferences : Bool := false
  unknownCommands : Bool := false
  deriving DecidableEq, Repr

/-- One piece after another -/
def Out.append (a b : Out) : Out :=
  ⟨a.s ++ b.s, a.undefinedReferences || b.undefinedReferences, a.unknownCommands || b.unknownCommands⟩

instance : Append Out := ⟨Out.append⟩

/-- `write!` of a text -/
def lit (s : Str) : Out := ⟨s, false, false⟩

/-- ast.rs:243-270 -/
inductive Indentation | tab | spaces (n : Nat)
  deriving DecidableEq, Repr

/-- ast.rs:272-280 `Emitter`, the parts which do not change. `fmt` is `dtoa::Buffer::format`, how a
finite number is written (external code). -/
structure EmitCfg where
  labelMap : Str → Option Str
  unknownClass : Str
  indentation : Indentation
  idPrefix : Str
  fmt : Rat → Str

/-- fmt.rs:5-19 `new_line_and_indent` -/
def newLineAndIndent (indentNum : Nat) (i : Indentation) : Str :=
  (if indentNum > 0 then ['\n'] else []) ++
    (List.replicate indentNum (match i with
      | .spaces n => List.replicate n ' '
      | .tab => ['\t'])).flatten

/-- attribute.rs:29-70 `write_to` (without the debug assertions) -/
def OpAttrs.text (a : OpAttrs) : Str :=
  (if a.contains stretchyFalse then c!" stretchy=\"false\"" else []) ++
  (if a.contains stretchyTrue then c!" stretchy=\"true\"" else []) ++
  (if a.contains noMovableLimits then c!" movablelimits=\"false\"" else []) ++
  (if a.contains forceMovableLimits then c!" movablelimits=\"true\"" else []) ++
  (if a.contains formPrefix then c!" form=\"prefix\"" else []) ++
  (if a.contains formInfix then c!" form=\"infix\"" else []) ++
  (if a.contains formPostfix then c!" form=\"postfix\"" else []) ++
  (if a.contains symmetricTrue then c!" symmetric=\"true\"" else []) ++
  (if a.contains largeopTrue then c!" largeop=\"true\"" else [])

/-- attribute.rs:82-91 -/
def Size.str : Size → Str
  | .scale1 => c!"1.2em"
  | .scale2 => c!"1.623em"
  | .scale3 => c!"2.047em"
  | .scale4 => c!"2.470em"

/-- attribute.rs:96-103 -/
def FracAttr.attrs : FracAttr → Str
  | .displayStyleTrue => c!" displaystyle=\"true\""
  | .displayStyleFalse => c!" displaystyle=\"false\""
  | .cfracStyle => c!" displaystyle=\"true\" scriptlevel=\"0\" style=\"padding-top: 0.1667em\""

/-- attribute.rs:107-116 -/
def Style.attrs : Style → Str
  | .display => c!" displaystyle=\"true\" scriptlevel=\"0\""
  | .text => c!" displaystyle=\"false\" scriptlevel=\"0\""
  | .script => c!" displaystyle=\"false\" scriptlevel=\"1\""
  | .scriptScript => c!" displaystyle=\"false\" scriptlevel=\"2\""

/-- attribute.rs:139-151 -/
def MathSpacing.str : MathSpacing → Str
  | .zero => c!"0"
  | .threeMu => c!"0.1667em"
  | .fourMu => c!"0.2222em"
  | .fiveMu => c!"0.2778em"

/-- attribute.rs:181-206 -/
def HtmlTextSize.str : HtmlTextSize → Str
  | .size50 => c!"50%"
  | .size60 => c!"60%"
  | .size70 => c!"70%"
  | .size80 => c!"80%"
  | .size90 => c!"90%"
  | .size100 => c!"100%"
  | .size120 => c!"120%"
  | .size140 => c!"140%"
  | .size170 => c!"170%"
  | .size200 => c!"200%"
  | .size250 => c!"250%"

/-- length.rs:9-20 -/
def LengthUnit.str : LengthUnit → Str
  | .rem => c!"rem"
  | .em => c!"em"
  | .ex => c!"ex"

/-- `str::strip_suffix(".0")`, or the text itself -/
def stripDotZero (s : Str) : Str :=
  if s.drop (s.length - 2) = c!".0" ∧ 2 ≤ s.length then s.take (s.length - 2) else s

/-- length.rs:43-51 `push_to_string` -/
def Length.str (fmt : Rat → Str) (l : Length) : Str :=
  match l.value with
  | some v => stripDotZero (fmt v) ++ (if v ≠ 0 then l.unit.str else [])
  | Option.none => c!"NaN" ++ l.unit.str

/-- symbol.rs:49-63 `Display for MathMLOperator` -/
def MathMLOperator.text (op : MathMLOperator) : Str :=
  op.sc.text.flatMap (fun c =>
    if c == '<' then c!"&lt;" else if c == '>' then c!"&gt;" else if c == '&' then c!"&amp;" else [c])

/-- itoa.rs:3-16 `append_u8_as_hex` -/
def u8Hex (b : UInt8) : Str := [hexDigit (b.toNat / 16), hexDigit (b.toNat % 16)]

/-- ast.rs:918-944 `emit_operator_attributes` -/
def operatorAttributes (attrs : OpAttrs) (left right : Option MathSpacing) : Str :=
  c!"<mo" ++ attrs.text ++
    match left, right with
    | some left, some right => c!" lspace=\"" ++ left.str ++ c!"\" rspace=\"" ++ right.str ++ c!"\""
    | some left, none => c!" lspace=\"" ++ left.str ++ c!"\""
    | none, some right => c!" rspace=\"" ++ right.str ++ c!"\""
    | none, none => []

/-- table.rs:94 -/
def leftAlign : Str := c!"text-align: left;justify-items: start;"
/-- table.rs:95 -/
def rightAlign : Str := c!"text-align: right;justify-items: end;"
/-- table.rs:96 -/
def paddingRightZero : Str := c!"padding-right: 0;"
/-- table.rs:97 -/
def paddingLeftZero : Str := c!"padding-left: 0;"
/-- table.rs:98 -/
def paddingTopBottomZero : Str := c!"padding-top: 0;padding-bottom: 0;"
/-- table.rs:99-100 -/
def borderRight : LineType → Str
  | .solid => c!"border-right: 0.05em solid currentcolor;"
  | .dashed => c!"border-right: 0.05em dashed currentcolor;"
/-- table.rs:101-102 -/
def borderTopStr : LineType → Str
  | .solid => c!"border-top: 0.05em solid currentcolor;"
  | .dashed => c!"border-top: 0.05em dashed currentcolor;"
/-- table.rs:92 -/
def mtdOpenStyle : Str := c!"<mtd style=\""
/-- table.rs:93 -/
def mtdCloseStyle : Str := c!"\">"

/-- table.rs:86-90 `AlignmentType` -/
inductive AlignmentType
  | predefined (align : Alignment)
  | custom (spec : ArraySpec)
  | multLine (numRows : Nat)

/-- table.rs:105-113 `ColumnGenerator` -/
structure ColumnGenerator where
  typ : AlignmentType
  columnIdx : Nat
  rowIdx : Nat
  rowBorderTop : Option LineType

/-- table.rs:116-141, the three constructors -/
def ColumnGenerator.new (typ : AlignmentType) : ColumnGenerator := ⟨typ, 0, 0, none⟩

/-- table.rs:143-146 -/
def ColumnGenerator.resetToNewRow (g : ColumnGenerator) : ColumnGenerator :=
  { g with columnIdx := 0, rowIdx := g.rowIdx + 1 }

/-- table.rs:149-151 -/
def ColumnGenerator.setRowBorderTop (g : ColumnGenerator) (b : Option LineType) : ColumnGenerator :=
  { g with rowBorderTop := b }

/-- table.rs:293-299 -/
def simpleMtd (borderTop : Str) : Str :=
  if borderTop.isEmpty then c!"<mtd>" else mtdOpenStyle ++ borderTop ++ mtdCloseStyle

/-- table.rs:207-228, the loop over columns which are only a line: the text, the new
`self.column_idx` and the entry for the cell. `fuel` bounds the number of iterations (there are at
most as many as entries). -/
def onlyLines (spec : ArraySpec) (borderTop : Str) (indentNum : Nat) (i : Indentation) :
    Nat → ColumnSpecEntry → Nat → Str × Nat × ColumnSpecEntry
  | 0, entry, selfIdx => ([], selfIdx, entry)
  | fuel + 1, .onlyLine lineType, selfIdx =>
    let entry := spec.columnSpec[selfIdx]?.getD (.withContent .center none)
    let t := mtdOpenStyle ++ borderTop ++ borderRight lineType ++
      (if spec.isSub then paddingTopBottomZero else []) ++
      c!"padding-left: 0.1em;padding-right: 0.1em;" ++ c!"\"></mtd>" ++ newLineAndIndent indentNum i
    let (t', idx, entry) := onlyLines spec borderTop indentNum i fuel entry (selfIdx + 1)
    (t ++ t', idx, entry)
  | _ + 1, entry, selfIdx => ([], selfIdx, entry)

/-- table.rs:165-169 -/
def rowBorderCss : Option LineType → Str
  | none => []
  | some l => borderTopStr l

/-- table.rs:153-288 `write_next_mtd` -/
def ColumnGenerator.writeNextMtd (g : ColumnGenerator) (indentNum : Nat) (i : Indentation) :
    Str × ColumnGenerator :=
  let t := newLineAndIndent indentNum i
  let columnIdx := g.columnIdx
  let g := { g with columnIdx := g.columnIdx + 1 }
  let borderTop := rowBorderCss g.rowBorderTop
  match g.typ with
  | .predefined align =>
    let isEven := columnIdx % 2 == 0
    match align with
    | .cases =>
      (t ++ mtdOpenStyle ++ borderTop ++ leftAlign ++ paddingRightZero ++
        (if !isEven then c!"padding-left:1em;" else []) ++ mtdCloseStyle, g)
    | .centered => (t ++ simpleMtd borderTop, g)
    | .alternating =>
      (t ++ mtdOpenStyle ++ borderTop ++
        (if isEven then rightAlign ++ paddingRightZero else leftAlign ++ paddingLeftZero) ++
        mtdCloseStyle, g)
  | .custom spec =>
    let entry := spec.columnSpec[columnIdx]?.getD (.withContent .center none)
    let (lines, idx, entry) :=
      onlyLines spec borderTop indentNum i (spec.columnSpec.length + 1) entry g.columnIdx
    let g := { g with columnIdx := idx }
    match entry with
    | .withContent alignment borderRight' =>
      if alignment == .center && borderRight'.isNone && !spec.isSub then
        (t ++ lines ++ simpleMtd borderTop, g)
      else
        (t ++ lines ++ mtdOpenStyle ++ borderTop ++
          (match alignment with
            | .left => leftAlign
            | .center => []
            | .right => rightAlign) ++
          (match borderRight' with
            | some l => borderRight l
            | none => []) ++
          (if spec.isSub then paddingTopBottomZero else []) ++ mtdCloseStyle, g)
    | .onlyLine _ => (t ++ lines, g)
  | .multLine numRows =>
    if g.rowIdx = 0 then (t ++ mtdOpenStyle ++ borderTop ++ leftAlign ++ mtdCloseStyle, g)
    else if g.rowIdx + 1 = numRows then
      (t ++ mtdOpenStyle ++ borderTop ++ rightAlign ++ mtdCloseStyle, g)
    else (t ++ simpleMtd borderTop, g)

/-- ast.rs:946-950 -/
inductive NumberColums | narrow | wide
  deriving DecidableEq, Repr

/-- ast.rs:953-970 -/
def NumberColums.dummyColumnOpening (n : NumberColums) (childIndent2 : Nat) (i : Indentation) : Str :=
  newLineAndIndent childIndent2 i ++
    match n with
    | .narrow => c!"<mtd style=\"width: 7.5%"
    | .wide => c!"<mtd style=\"width: 50%"

/-- ast.rs:974-983 -/
def NumberColums.initialDummyColumn (n : NumberColums) (childIndent2 : Nat) (i : Indentation) : Str :=
  n.dummyColumnOpening childIndent2 i ++ c!"\"></mtd>"

/-- ast.rs:986-1020 `write_equation_num` -/
def writeEquationNum (childIndent2 childIndent3 : Nat) (labelInfo : Option RowLabelInfo)
    (n : NumberColums) (i : Indentation) (idPrefix : Str) : Str :=
  n.dummyColumnOpening childIndent2 i ++
    match labelInfo with
    | some labelInfo =>
      c!";" ++ rightAlign ++ c!"\"" ++
      (match labelInfo.linkTarget with
        | some linkTarget => c!" id=\"" ++ idPrefix ++ percentEncode linkTarget ++ c!"\">"
        | none => c!">") ++
      newLineAndIndent childIndent3 i ++
      (let tag := escapeHtml labelInfo.tag.text
       if labelInfo.tag.parenthesized then c!"<mtext>(" ++ tag ++ c!")</mtext>"
       else c!"<mtext>" ++ tag ++ c!"</mtext>") ++
      newLineAndIndent childIndent2 i ++ c!"</mtd>"
    | none => c!"\"></mtd>"

/-- ast.rs:383-401 -/
def textTags : Option HtmlTextStyle → Str × Str
  | none => ([], [])
  | some .bold => (c!"<b>", c!"</b>")
  | some .italic => (c!"<i>", c!"</i>")
  | some .boldItalic => (c!"<b><i>", c!"</i></b>")
  | some .emphasis => (c!"<em>", c!"</em>")
  | some .typewriter => (c!"<code>", c!"</code>")
  | some .smallCaps => (c!"<span style=\"font-variant-caps: small-caps\">", c!"</span>")
  | some .sansSerif => (c!"<span class=\"math-core-sans-serif-font\">", c!"</span>")
  | some .serif => (c!"<span class=\"math-core-serif-font\">", c!"</span>")
  | some .strikethrough => (c!"<s>", c!"</s>")
  | some .underline => (c!"<u>", c!"</u>")

/-- ast.rs:728-762, the names of the notations with spaces between them -/
def notationText (n : Notation) : Str :=
  let s := if n.contains .box then c!"box" else []
  let first := !n.contains .box
  let s := s ++ if n.contains .actuarial then (if !first then c!" " else []) ++ c!"actuarial" else []
  let first := first && !n.contains .actuarial
  let s := s ++ if n.contains .phasorAngle then (if !first then c!" " else []) ++ c!"phasorangle" else []
  let first := first && !n.contains .phasorAngle
  let s := s ++ if n.contains .upDiagonal then (if !first then c!" " else []) ++ c!"updiagonalstrike" else []
  let first := first && !n.contains .upDiagonal
  s ++ if n.contains .downDiagonal then (if !first then c!" " else []) ++ c!"downdiagonalstrike" else []

/-- ast.rs:823-905 `emit_table`; `cells` is the loop over the content (`emitCells`), given the
indentations and the generator of the cells. -/
def emitTable (cfg : EmitCfg) (baseIndent childIndent : Nat)
    (cells : Nat → Nat → ColumnGenerator → Out)
    (colGen : ColumnGenerator) (numberingCols : Option NumberColums)
    (lastRowInfo : Option RowLabelInfo) : Out :=
  let childIndent2 := if baseIndent > 0 then childIndent + 1 else 0
  let childIndent3 := if baseIndent > 0 then childIndent2 + 1 else 0
  let nl (n : Nat) (s : Str) : Out := lit (newLineAndIndent n cfg.indentation ++ s)
  nl childIndent c!"<mtr>" ++
  lit (match numberingCols with
    | some n => n.initialDummyColumn childIndent2 cfg.indentation
    | none => []) ++
  lit (colGen.writeNextMtd childIndent2 cfg.indentation).1 ++
  cells childIndent2 childIndent3 (colGen.writeNextMtd childIndent2 cfg.indentation).2 ++
  nl childIndent2 c!"</mtd>" ++
  lit (match numberingCols with
    | some n => writeEquationNum childIndent2 childIndent3 lastRowInfo n cfg.indentation cfg.idPrefix
    | none => []) ++
  nl childIndent c!"</mtr>" ++ nl baseIndent c!"</mtable>"

mutual
/-- ast.rs:300-821 `emit` -/
def emit (cfg : EmitCfg) (node : Node) (baseIndent : Nat) : Out :=
  let childIndent := if baseIndent > 0 then baseIndent + 1 else 0
  let nl (n : Nat) (s : Str) : Out := lit (newLineAndIndent n cfg.indentation ++ s)
  nl baseIndent [] ++
  match node with
  | .number number => lit (c!"<mn>" ++ number ++ c!"</mn>")
  | .identifierChar letter attr =>
    if attr = .forcedUpright then
      lit (c!"<mrow><mspace/><mi mathvariant=\"normal\">" ++ letter.text ++ c!"</mi></mrow>")
    else if letter.tryAsChar.isNone then
      lit (c!"<mrow><mspace/><mi>" ++ letter.text ++ c!"</mi></mrow>")
    else lit (c!"<mi>" ++ letter.text ++ c!"</mi>")
  | .operator op attrs size left right =>
    lit (operatorAttributes attrs left right ++
      (match size with
        | some size => c!" minsize=\"" ++ size.str ++ c!"\" maxsize=\"" ++ size.str ++ c!"\""
        | none => []) ++
      c!">" ++ op.text ++ c!"</mo>")
  | .pseudoOp attrs left right name =>
    lit (operatorAttributes attrs left right ++ c!">" ++ name ++ c!"</mo>")
  | .identifierStr letters =>
    lit (c!"<mrow><mspace/><mi>" ++ escapeHtml letters ++ c!"</mi></mrow>")
  | .text style size letters =>
    lit (c!"<mtext" ++
      (match size with
        | some size => c!" style=\"font-size:" ++ size.str ++ c!"\""
        | none => []) ++
      c!">" ++ (textTags style).1 ++ escapeHtml letters ++ (textTags style).2 ++ c!"</mtext>")
  | .space space =>
    lit (c!"<mspace " ++
      (if space.isNegative then c!"style=\"margin-left:" ++ space.str cfg.fmt ++ c!";"
       else c!"width=\"" ++ space.str cfg.fmt ++
        (if space.unit = .rem then c!"\" style=\"width:" ++ space.str cfg.fmt else [])) ++
      c!"\"/>")
  | .sub first second =>
    lit c!"<msub>" ++ emit cfg first childIndent ++ emit cfg second childIndent ++ nl baseIndent c!"</msub>"
  | .sup first second =>
    lit c!"<msup>" ++ emit cfg first childIndent ++ emit cfg second childIndent ++ nl baseIndent c!"</msup>"
  | .over second first =>
    lit c!"<mover>" ++ emit cfg first childIndent ++ emit cfg second childIndent ++ nl baseIndent c!"</mover>"
  | .under second first =>
    lit c!"<munder>" ++ emit cfg first childIndent ++ emit cfg second childIndent ++ nl baseIndent c!"</munder>"
  | .root second first =>
    lit c!"<mroot>" ++ emit cfg first childIndent ++ emit cfg second childIndent ++ nl baseIndent c!"</mroot>"
  | .subSup first second third =>
    lit c!"<msubsup>" ++ emit cfg first childIndent ++ emit cfg second childIndent ++
      emit cfg third childIndent ++ nl baseIndent c!"</msubsup>"
  | .underOver first second third =>
    lit c!"<munderover>" ++ emit cfg first childIndent ++ emit cfg second childIndent ++
      emit cfg third childIndent ++ nl baseIndent c!"</munderover>"
  | .multiscripts base pre post =>
    lit c!"<mmultiscripts>" ++ emit cfg base childIndent ++ emitPairs cfg post childIndent ++
      (if pre.isEmpty then lit []
       else nl childIndent c!"<mprescripts/>" ++ emitPairs cfg pre childIndent) ++
      nl baseIndent c!"</mmultiscripts>"
  | .overAccent op attr target =>
    lit c!"<mover accent=\"true\">" ++ emit cfg target childIndent ++ nl childIndent c!"<mo" ++
      lit (attr.text ++ c!">" ++ op.text ++ c!"</mo>") ++ nl baseIndent c!"</mover>"
  | .underAccent op attr target =>
    lit c!"<munder accentunder=\"true\">" ++ emit cfg target childIndent ++ nl childIndent c!"<mo" ++
      lit (attr.text ++ c!">" ++ op.text ++ c!"</mo>") ++ nl baseIndent c!"</munder>"
  | .sqrt content => lit c!"<msqrt>" ++ emit cfg content childIndent ++ nl baseIndent c!"</msqrt>"
  | .frac num den lineLength lineUnit attr =>
    lit (c!"<mfrac" ++
      (match Length.fromParts lineLength lineUnit with
        | some lt => c!" linethickness=\"" ++ lt.str cfg.fmt ++ c!"\""
        | none => []) ++
      (match attr with
        | some style => style.attrs
        | none => []) ++ c!">") ++
      emit cfg num childIndent ++ emit cfg den childIndent ++ nl baseIndent c!"</mfrac>"
  | .row nodes attrs =>
    lit (c!"<mrow" ++
      (if attrs.color.isSome || attrs.mathShiftCompact then
        c!" style=\"" ++
        (match attrs.color with
          | some (r, g, b) => c!"color:#" ++ u8Hex r ++ u8Hex g ++ u8Hex b ++ c!";"
          | none => []) ++
        (if attrs.mathShiftCompact then c!"math-shift:compact;" else []) ++ c!"\""
       else []) ++
      (match attrs.style with
        | some style => style.attrs
        | none => []) ++ c!">") ++
      (if nodes.isEmpty then lit c!"</mrow>"
       else emitList cfg nodes childIndent ++ nl baseIndent c!"</mrow>")
  | .padded node width0 height0 left right voffset =>
    lit (c!"<mpadded" ++
      (match voffset with
        | some voffset =>
          (match voffset.iter.head? with
            | some l => c!" voffset=\"" ++ l.str cfg.fmt ++ c!"\""
            | none => []) ++
          voffset.iter.tail.flatMap (fun l => c!"><mpadded voffset=\"" ++ l.str cfg.fmt ++ c!"\"")
        | none => []) ++
      (if width0 then c!" width=\"0\"" else []) ++
      (if height0 then c!" height=\"0\"" else []) ++
      (if left.isSome || right.isSome then
        c!" style=\"" ++
        (match left with
          | some left => c!"padding-left:" ++ left.str ++ c!";"
          | none => []) ++
        (match right with
          | some right => c!"padding-right:" ++ right.str ++ c!";"
          | none => []) ++ c!"\""
       else []) ++ c!">") ++
      emit cfg node childIndent ++ nl baseIndent c!"</mpadded>" ++
      lit (match voffset with
        | some voffset => (voffset.iter.drop 1).flatMap (fun _ => c!"</mpadded>")
        | none => [])
  | .phantom node =>
    lit c!"<mphantom>" ++ emit cfg node childIndent ++ nl baseIndent c!"</mphantom>"
  | .table align style borderTop content =>
    lit (c!"<mtable" ++
      (match borderTop with
        | some l => c!" style=\"" ++ borderTopStr l ++ c!"\""
        | none => []) ++
      (match style with
        | some style => style.attrs
        | none => []) ++ c!">") ++
      emitTable cfg baseIndent childIndent
        (fun i2 i3 g => emitCells cfg childIndent i2 i3 content g none)
        (.new (.predefined align)) none none
  | .equationArray align lastRowInfo content =>
    lit c!"<mtable displaystyle=\"true\" scriptlevel=\"0\" style=\"width: 100%\">" ++
      emitTable cfg baseIndent childIndent
        (fun i2 i3 g => emitCells cfg childIndent i2 i3 content g (some .wide))
        (.new (.predefined align)) (some .wide) lastRowInfo
  | .multLine numRows lastRowInfo content =>
    lit c!"<mtable displaystyle=\"true\" scriptlevel=\"0\" style=\"width: 100%\">" ++
      emitTable cfg baseIndent childIndent
        (fun i2 i3 g => emitCells cfg childIndent i2 i3 content g (some .narrow))
        (.new (.multLine numRows)) (some .narrow) lastRowInfo
  | .array style spec content =>
    lit (c!"<mtable" ++
      (if spec.borderLeft.isSome || spec.borderTop.isSome then
        c!" style=\"" ++
        (match spec.borderLeft with
          | some .solid => c!"border-left: 0.05em solid currentcolor;"
          | some .dashed => c!"border-left: 0.05em dashed currentcolor;"
          | none => []) ++
        (match spec.borderTop with
          | some l => borderTopStr l
          | none => []) ++ c!"\""
       else []) ++
      (match style with
        | some style => style.attrs
        | none => []) ++ c!">") ++
      emitTable cfg baseIndent childIndent
        (fun i2 i3 g => emitCells cfg childIndent i2 i3 content g none)
        (.new (.custom spec)) none none
  -- only in tables, where `emit_table` handles them (a debug assertion)
  | .rowSeparator _ _ => lit []
  | .columnSeparator => lit []
  | .enclose content notn =>
    lit (c!"<menclose notation=\"" ++ notationText notn ++ c!"\">") ++ emit cfg content childIndent ++
      (if notn.contains .phasorAngle then
        nl childIndent c!"<mrow class=\"menclose-phasorangle\"></mrow>" else lit []) ++
      (if notn.contains .upDiagonal then
        nl childIndent c!"<mrow class=\"menclose-updiagonalstrike\"></mrow>" else lit []) ++
      (if notn.contains .downDiagonal then
        nl childIndent c!"<mrow class=\"menclose-downdiagonalstrike\"></mrow>" else lit []) ++
      nl baseIndent c!"</menclose>"
  | .aHref href text =>
    lit (c!"<mtext><a href=\"" ++ escapeHtml href ++ c!"\">" ++ escapeHtml text ++ c!"</a></mtext>")
  | .eqRef label =>
    let (tag, undefinedRef) := match cfg.labelMap label with
      | some tag => (tag, false)
      | none => (c!"??", true)
    ⟨c!"<mtext><a href=\"#" ++ cfg.idPrefix ++ percentEncode label ++ c!"\">(" ++ escapeHtml tag ++
      c!")</a></mtext>", undefinedRef, false⟩
  | .unknownCommand name =>
    ⟨c!"<merror class=\"" ++ cfg.unknownClass ++ c!"\"><mtext>\\" ++ name ++ c!"</mtext></merror>", false, true⟩

/-- ast.rs:572-574, the loop over the nodes of a row -/
def emitList (cfg : EmitCfg) (nodes : List Node) (indent : Nat) : Out :=
  match nodes with
  | [] => lit []
  | node :: rest => emit cfg node indent ++ emitList cfg rest indent

/-- ast.rs:481-484 and 487-490, the loops over pairs of scripts -/
def emitPairs (cfg : EmitCfg) (pairs : List (Node × Node)) (indent : Nat) : Out :=
  match pairs with
  | [] => lit []
  | (sub, sup) :: rest => emit cfg sub indent ++ emit cfg sup indent ++ emitPairs cfg rest indent

/-- ast.rs:847-889, the loop over the content of a table -/
def emitCells (cfg : EmitCfg) (childIndent childIndent2 childIndent3 : Nat) (content : List Node)
    (colGen : ColumnGenerator) (numberingCols : Option NumberColums) : Out :=
  match content with
  | [] => lit []
  | node :: rest =>
    let nl (n : Nat) (s : Str) : Out := lit (newLineAndIndent n cfg.indentation ++ s)
    match node with
    | .columnSeparator =>
      nl childIndent2 c!"</mtd>" ++ lit (colGen.writeNextMtd childIndent2 cfg.indentation).1 ++
        emitCells cfg childIndent childIndent2 childIndent3 rest
          (colGen.writeNextMtd childIndent2 cfg.indentation).2 numberingCols
    | .rowSeparator labelInfo borderTop =>
      let colGen := colGen.resetToNewRow.setRowBorderTop borderTop
      nl childIndent2 c!"</mtd>" ++
      lit (match numberingCols with
        | some n => writeEquationNum childIndent2 childIndent3 labelInfo n cfg.indentation cfg.idPrefix
        | none => []) ++
      nl childIndent c!"</mtr>" ++ nl childIndent c!"<mtr>" ++
      lit (match numberingCols with
        | some n => n.initialDummyColumn childIndent2 cfg.indentation
        | none => []) ++
      lit (colGen.writeNextMtd childIndent2 cfg.indentation).1 ++
        emitCells cfg childIndent childIndent2 childIndent3 rest
          (colGen.writeNextMtd childIndent2 cfg.indentation).2 numberingCols
    | _ =>
      emit cfg node childIndent3 ++
        emitCells cfg childIndent childIndent2 childIndent3 rest colGen numberingCols
end

/-- lib.rs:109-117 `PrettyPrint` -/
inductive PrettyPrint | never | always | auto
  deriving DecidableEq, Repr

/-- lib.rs:247-254 `EmitterConfig`; the label map and the number format are part of `emit`. -/
structure EmitterConfig where
  prettyPrint : PrettyPrint
  xmlNamespace : Bool
  annotation : Bool
  emitter : EmitCfg

/-- parser.rs:3328-3356 `node_vec_to_node` -/
def nodeVecToNode (nodes : List Node) (resetSpacing : Bool) : Node :=
  match nodes with
  | [single] =>
    if resetSpacing then
      match single with
      | .operator op attrs _ _ _ => .operator op attrs none none none
      | node => node
    else single
  | nodes => .row nodes {}

/-- lib.rs:425-494 `emit` -/
def emitDocument (flags : EmitterConfig) (ast : List Node) (latex : Str) (display : MathDisplay) : Out :=
  let pretty := flags.prettyPrint = .always || (flags.prettyPrint = .auto && display = .block)
  let baseIndent := if pretty then 1 else 0
  let childrenIndent := if pretty then 2 else 0
  let nl (n : Nat) (s : Str) : Out := lit (newLineAndIndent n flags.emitter.indentation ++ s)
  lit (c!"<math" ++
    (if flags.xmlNamespace then c!" xmlns=\"http://www.w3.org/1998/Math/MathML\"" else []) ++
    (if display = .block then c!" display=\"block\"" else []) ++ c!">") ++
  (if flags.annotation then
    nl baseIndent c!"<semantics>" ++
    emit flags.emitter (nodeVecToNode ast false) childrenIndent ++
    nl childrenIndent c!"<annotation encoding=\"application/x-tex\">" ++
    lit (escapeHtmlContent [] latex ++ c!"</annotation>") ++
    nl baseIndent c!"</semantics>"
   else emitList flags.emitter ast baseIndent) ++
  lit ((if pretty then c!"\n" else []) ++ c!"</math>")

end Verif.Model

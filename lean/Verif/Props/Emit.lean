import Verif.Lemmas.EmitDoc
import Verif.Lemmas.EmitPretty
import Verif.Lemmas.EmitWarn
import Verif.Lemmas.EmitShape
/-! Properties C22, C23, C24 and C25, and the annotation of C01. -/
namespace Verif
open Verif.Model Verif.Spec

/-- A converter for the examples -/
def exCfg : EmitCfg where
  labelMap l := if l = c!"a" then some c!"1" else none
  unknownClass := c!"math-core-error"
  indentation := .spaces 4
  idPrefix := c!"eq-"
  fmt _ := c!"0.5"

def exFlags : EmitterConfig := ⟨.auto, true, true, exCfg⟩

theorem exCfg_ok : CfgOk exCfg := ⟨.of rfl, .of rfl, fun _ => .of rfl⟩

/-- `x^2 < \begin{array}{c|r} \text{<} & 1 \\ \eqref{b} \end{array}` -/
def exAst : List Node :=
  [.sup (.identifierChar (.fromChar 'x') .default) (.number c!"2"),
   .array none ⟨none, none, false, [.withContent .center (some .solid), .withContent .right none]⟩
    [.text none none c!"<", .columnSeparator, .number c!"1", .rowSeparator none none, .eqRef c!"b"]]

theorem exAst_ok : NodesOk exAst := by
  simp [exAst, NodesOk, NodeOk, ContentOk, PlainText, LabelOk]
  decide

/-! ### C22 -/

/-- C22: the output is well-formed, and a reader gets exactly the MathML tree that the syntax tree
stands for: the elements, the attributes and the text. (Missing: that the trees the parser makes meet
`NodesOk`. This does not hold for all of them, see `C22_operator_name_not_escaped`.) -/
theorem C22_well_formed_partial (flags : EmitterConfig) (ast : List Node) (latex : Str) (display : MathDisplay)
    (hc : CfgOk flags.emitter) (h : NodesOk ast) :
    readXml (emitDocument flags ast latex display).s = some [documentXml flags ast latex display] :=
  readXml_of_reads (emitDocument_reads hc h latex display)

example : readXml (emitDocument exFlags exAst c!"x^2 &c." .block).s =
    some [documentXml exFlags exAst c!"x^2 &c." .block] :=
  C22_well_formed_partial _ _ _ _ exCfg_ok exAst_ok

/-- C22: in this tree fractions, roots and scripts have the number of children they need; rows are
only in tables and cells only in rows. -/
theorem C22_shape (flags : EmitterConfig) (ast : List Node) (latex : Str) (display : MathDisplay) :
    shaped (documentXml flags ast latex display) := (documentXml_fine flags ast latex display).1

/-- The name of an operator is written as it is, so markup in it is markup in the output. The parser
makes such nodes: `\operatorname{<b>x</b>}`. -/
theorem C22_operator_name_not_escaped :
    readXml (emitDocument { exFlags with annotation := false, xmlNamespace := false }
        [.pseudoOp 0 none none c!"<b>x</b>"] [] .inline).s =
      some [el c!"math" [el c!"mo" [el c!"b" [.text c!"x"]]]] := by rfl

/-- … and an operator name may break the structure. -/
theorem C22_operator_name_breaks :
    readXml (emitDocument exFlags [.pseudoOp 0 none none c!"<"] [] .inline).s = none := by decide +kernel

/-- An unknown command is written as it is: `\<` with unknown commands ignored. -/
theorem C22_unknown_command_breaks :
    readXml (emitDocument exFlags [.unknownCommand c!"<"] [] .inline).s = none := by decide +kernel

/-- A label with `&` gives an attribute with a raw `&`. -/
theorem C22_label_ampersand :
    readXml (emitDocument exFlags [.eqRef c!"a&b"] [] .inline).s = none := by decide +kernel

/-! ### C01 -/

/-- C01, the annotation: the source is the text of the `annotation` element, whatever it contains. -/
theorem C01_annotation (flags : EmitterConfig) (ast : List Node) (latex : Str) (display : MathDisplay)
    (hc : CfgOk flags.emitter) (h : NodesOk ast) (ha : flags.annotation = true) :
    ∃ attrs math, readXml (emitDocument flags ast latex display).s =
      some [.elem c!"math" attrs [.elem c!"semantics" [] [math,
        .elem c!"annotation" [(c!"encoding", c!"application/x-tex")] (if latex = [] then [] else [.text latex])]]] := by
  rw [C22_well_formed_partial flags ast latex display hc h]
  simp only [documentXml, ha, if_true]
  exact ⟨_, _, rfl⟩

example : ∃ attrs math, readXml (emitDocument exFlags exAst c!"</annotation>&lt;" .inline).s =
    some [.elem c!"math" attrs [.elem c!"semantics" [] [math,
      .elem c!"annotation" [(c!"encoding", c!"application/x-tex")] [.text c!"</annotation>&lt;"]]]] :=
  C01_annotation _ _ _ _ exCfg_ok exAst_ok rfl

/-! ### C23 -/

/-- C23: with any setting for pretty-printing and any indentation, the output is the compact output
with line breaks and indentation inserted. -/
theorem C23_layout_only (flags : EmitterConfig) (ast : List Node) (latex : Str) (display : MathDisplay) :
    LaidOut (indentUnit flags.emitter.indentation)
      (emitDocument { flags with prettyPrint := .never } ast latex display).s
      (emitDocument flags ast latex display).s := emitDocument_laidOut flags ast latex display

/-- C23: what is inserted is not part of any text or attribute: all settings give the same tree. -/
theorem C23_same_tree (flags : EmitterConfig) (ast : List Node) (latex : Str) (display : MathDisplay)
    (hc : CfgOk flags.emitter) (h : NodesOk ast) (p : PrettyPrint) (ind : Indentation) :
    readXml (emitDocument { flags with prettyPrint := p, emitter := withIndent flags.emitter ind }
        ast latex display).s =
      readXml (emitDocument flags ast latex display).s ∧
    (readXml (emitDocument flags ast latex display).s).isSome := by
  rw [C22_well_formed_partial flags ast latex display hc h,
    C22_well_formed_partial { flags with prettyPrint := p, emitter := withIndent flags.emitter ind } ast latex display
      ⟨hc.1, hc.2, hc.3⟩ h]
  refine ⟨?_, rfl⟩
  simp only [documentXml, toXml_indent, toXmls_indent]

/-- Pretty-printing does something. -/
example : (emitDocument { exFlags with annotation := false, xmlNamespace := false }
    [.sqrt (.number c!"2")] [] .block).s =
    c!"<math display=\"block\">\n    <msqrt>\n        <mn>2</mn>\n    </msqrt>\n</math>" := by rfl
example : (emitDocument { exFlags with annotation := false, xmlNamespace := false }
    [.sqrt (.number c!"2")] [] .inline).s = c!"<math><msqrt><mn>2</mn></msqrt></math>" := by rfl

/-! ### C24 -/

/-- C24: there is a warning about undefined references exactly if somewhere in the tree there is a
reference to a label without a tag. -/
theorem C24_undefined_references (flags : EmitterConfig) (ast : List Node) (latex : Str) (display : MathDisplay) :
    (emitDocument flags ast latex display).undefinedReferences = true ↔
      ∃ label, Node.eqRef label ∈ nodesInList ast ∧ flags.emitter.labelMap label = none := by
  rw [(emitDocument_warns flags ast latex display).1, List.any_eq_true]
  constructor
  · rintro ⟨x, hx, h⟩
    unfold undefRef at h
    split at h
    · exact ⟨_, hx, by simpa using h⟩
    · cases h
  · rintro ⟨l, hl, h⟩
    exact ⟨_, hl, by simp [undefRef, h]⟩

/-- C24: there is a warning about unknown commands exactly if there is one in the tree. -/
theorem C24_unknown_commands (flags : EmitterConfig) (ast : List Node) (latex : Str) (display : MathDisplay) :
    (emitDocument flags ast latex display).unknownCommands = true ↔
      ∃ name, Node.unknownCommand name ∈ nodesInList ast := by
  rw [(emitDocument_warns flags ast latex display).2, List.any_eq_true]
  constructor
  · rintro ⟨x, hx, h⟩
    unfold isUnknown at h
    split at h
    · exact ⟨_, hx⟩
    · cases h
  · rintro ⟨l, hl⟩
    exact ⟨_, hl, rfl⟩

example : (emitDocument exFlags exAst [] .inline).undefinedReferences = true :=
  (C24_undefined_references ..).2 ⟨c!"b", by simp [exAst, nodesInList, nodesIn], by decide⟩
example : (emitDocument exFlags [.eqRef c!"a"] [] .inline).undefinedReferences = false := by decide +kernel

/-! ### C25 -/

/-- The items of a cell list, with `&` between cells -/
def joinCells : List (List Xml) → List Item
  | [] => []
  | [c] => c.map .node
  | c :: cs => c.map .node ++ .nextCell :: joinCells cs

/-- The items of a list of rows, with `\\` between rows -/
def joinRows : List TRow → List Item
  | [] => []
  | [r] => joinCells r.cells
  | r :: r' :: rs => joinCells r.cells ++ .nextRow r.label r'.line :: joinRows (r' :: rs)

/-- C25: the rows and cells of a table are what is between the separators: putting the separators
between them again gives the content of the table. The label of the last row and the line above the
first one are the given ones. -/
theorem C25_rows_and_cells (last : Option RowLabelInfo) (line : Option LineType) (items : List Item) :
    joinRows (rowsOf last line items) = items ∧
    (rowsOf last line items).head?.map TRow.line = some line ∧
    (rowsOf last line items).getLast?.map TRow.label = some last := by
  induction items generalizing line with
  | nil => exact ⟨rfl, rfl, rfl⟩
  | cons it rest ih =>
    cases it with
    | node x =>
      obtain ⟨h1, h2, h3⟩ := ih line
      obtain ⟨l, c, cs, rs, hr⟩ := rowsOf_shape last line rest
      simp only [rowsOf, hr, onFirst, TRow.cons] at h1 h2 h3 ⊢
      refine ⟨?_, rfl, ?_⟩
      · rw [← h1]
        cases rs <;> cases cs <;> simp [joinRows, joinCells]
      · rw [← h3]
        cases rs <;> simp
    | nextCell =>
      obtain ⟨h1, h2, h3⟩ := ih line
      obtain ⟨l, c, cs, rs, hr⟩ := rowsOf_shape last line rest
      simp only [rowsOf, hr, onFirst, TRow.consCell] at h1 h2 h3 ⊢
      refine ⟨?_, rfl, ?_⟩
      · rw [← h1]
        cases rs <;> cases cs <;> simp [joinRows, joinCells]
      · rw [← h3]
        cases rs <;> simp
    | nextRow label line' =>
      obtain ⟨h1, h2, h3⟩ := ih line'
      obtain ⟨l, c, cs, rs, hr⟩ := rowsOf_shape last line' rest
      simp only [rowsOf, hr] at h1 h2 h3 ⊢
      exact ⟨by simp [joinRows, joinCells, h1], rfl, by simpa using h3⟩

/-- C25: what is written for an array. There is a row for each row, and in it a cell for each cell
in the same order, plus the cells that draw the lines of the column specification. (Missing: that the
parser makes a separator node for each `&` and `\\` of the source, in order.) -/
theorem C25_array_partial (cfg : EmitCfg) (hc : CfgOk cfg) (style : Option Style) (spec : ArraySpec) (content : List Node)
    (h : ContentOk content) (i : Nat) :
    readXml (emit cfg (.array style spec content) i).s =
      some [.elem c!"mtable"
        (styleAttr (lineCss c!"left" spec.borderLeft ++ lineCss c!"top" spec.borderTop) ++ styleAttrs style)
        (rowsXml cfg.idPrefix (.spec spec) none 0 (rowsOf none none (toItems cfg content)))] :=
  readXml_of_reads (emit_reads hc i (.array style spec content) h)

/-- C25: the same for the other environments -/
theorem C25_table_partial (cfg : EmitCfg) (hc : CfgOk cfg) (align : Alignment) (style : Option Style)
    (line : Option LineType) (content : List Node) (h : ContentOk content) (i : Nat) :
    readXml (emit cfg (.table align style line content) i).s =
      some [.elem c!"mtable" (styleAttr (lineCss c!"top" line) ++ styleAttrs style)
        (rowsXml cfg.idPrefix (.columns align) none 0 (rowsOf none none (toItems cfg content)))] :=
  readXml_of_reads (emit_reads hc i (.table align style line content) h)

/-- C25: environments with numbers, which have an empty cell in front of each row and a cell with
the number behind it -/
theorem C25_numbered_partial (cfg : EmitCfg) (hc : CfgOk cfg) (align : Alignment) (last : Option RowLabelInfo)
    (content : List Node) (hl : LabelOk last) (h : ContentOk content) (i : Nat) :
    readXml (emit cfg (.equationArray align last content) i).s =
      some [.elem c!"mtable" numberedAttrs
        (rowsXml cfg.idPrefix (.columns align) (some .wide) 0 (rowsOf last none (toItems cfg content)))] :=
  readXml_of_reads (emit_reads hc i (.equationArray align last content) ⟨hl, h⟩)

/-- C25: in a table without a column specification the cells of row `i` are exactly the cells of
the source, each with its content. -/
theorem C25_cells (align : Alignment) (line : Option LineType) (i : Nat) (cells : List (List Xml)) (j : Nat) :
    (cellsXml (.columns align) line i j cells).map (fun x => match x with
      | .elem n _ kids => (n, kids)
      | .text t => (t, [])) = cells.map (fun c => (c!"mtd", c)) := by
  induction cells generalizing j with
  | nil => rfl
  | cons c cs ih => simp [cellsXml, lineCells, ih]

/-- C25: there are as many rows in the output as in the source. -/
theorem C25_row_count (idPrefix : Str) (lay : Layout) (nums : Option NumberColums) (i : Nat) (rows : List TRow) :
    (rowsXml idPrefix lay nums i rows).length = rows.length := by
  induction rows generalizing i with
  | nil => rfl
  | cons r rs ih => simp [rowsXml, ih]

example : readXml (emit exCfg (.table .centered none none
    [.number c!"1", .columnSeparator, .rowSeparator none (some .solid), .number c!"2"]) 0).s =
    some [el c!"mtable" [
      el c!"mtr" [el c!"mtd" [el c!"mn" [.text c!"1"]], el c!"mtd" []],
      el c!"mtr" [.elem c!"mtd" [(c!"style", c!"border-top: 0.05em solid currentcolor;")]
        [el c!"mn" [.text c!"2"]]]]] := by rfl

end Verif

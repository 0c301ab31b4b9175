import Verif.Model.Attrs
/-! The syntax tree of crates/mathml-renderer/src/ast.rs (data only; arena references are modelled
by the values they point to). -/
namespace Verif.Model

/-- length.rs:86-90 `LengthSet`, with exact values -/
structure LengthSet where
  rem : Rat
  em : Rat
  ex : Rat
  deriving DecidableEq, Repr

/-- length.rs:93-99 -/
def LengthSet.zero : LengthSet := ⟨0, 0, 0⟩

/-- length.rs:151-162, `+`. A length which is not finite cannot occur in the code calling this. -/
def LengthSet.addLength (s : LengthSet) (l : Length) : LengthSet :=
  match l.value with
  | none => s
  | some v =>
    match l.unit with
    | .rem => { s with rem := s.rem + v }
    | .em => { s with em := s.em + v }
    | .ex => { s with ex := s.ex + v }

/-- length.rs:132-149, `+=` -/
def LengthSet.add (a b : LengthSet) : LengthSet := ⟨a.rem + b.rem, a.em + b.em, a.ex + b.ex⟩

/-- length.rs:100-123, all values of `iter` -/
def LengthSet.iter (s : LengthSet) : List Length :=
  (if s.rem ≠ 0 then [⟨some s.rem, .rem⟩] else []) ++
  (if s.em ≠ 0 then [⟨some s.em, .em⟩] else []) ++
  (if s.ex ≠ 0 then [⟨some s.ex, .ex⟩] else [])

/-- table.rs:42-53 -/
structure ArraySpec where
  borderLeft : Option LineType
  borderTop : Option LineType
  isSub : Bool
  columnSpec : List ColumnSpecEntry
  deriving DecidableEq, Repr

/-- ast.rs:53-208 `Node` -/
inductive Node
  | number (number : Str)
  | identifierChar (letter : SuperChar) (attr : LetterAttr)
  | identifierStr (letters : Str)
  | operator (op : MathMLOperator) (attrs : OpAttrs) (size : Option Size)
      (left right : Option MathSpacing)
  | pseudoOp (attrs : OpAttrs) (left right : Option MathSpacing) (name : Str)
  | space (l : Length)
  | sub (target symbol : Node)
  | sup (target symbol : Node)
  | subSup (target sub sup : Node)
  | overAccent (op : MathMLOperator) (attrs : OpAttrs) (target : Node)
  | underAccent (op : MathMLOperator) (attrs : OpAttrs) (target : Node)
  | over (symbol target : Node)
  | under (symbol target : Node)
  | underOver (target under over : Node)
  | sqrt (content : Node)
  | root (degree content : Node)
  | frac (num denom : Node) (ltValue : LengthValue) (ltUnit : LengthUnit) (attr : Option FracAttr)
  | row (nodes : List Node) (attrs : RowAttrs)
  | padded (node : Node) (width0 height0 : Bool) (left right : Option MathSpacing)
      (voffset : Option LengthSet)
  | phantom (node : Node)
  | text (style : Option HtmlTextStyle) (size : Option HtmlTextSize) (text : Str)
  | aHref (href text : Str)
  | eqRef (label : Str)
  | table (align : Alignment) (style : Option Style) (borderTop : Option LineType)
      (content : List Node)
  | equationArray (align : Alignment) (lastRowInfo : Option RowLabelInfo) (content : List Node)
  | multLine (numRows : Nat) (lastRowInfo : Option RowLabelInfo) (content : List Node)
  | array (style : Option Style) (spec : ArraySpec) (content : List Node)
  | columnSeparator
  | rowSeparator (labelInfo : Option RowLabelInfo) (borderTop : Option LineType)
  | enclose (content : Node) (notn : Notation)
  | multiscripts (base : Node) (pre post : List (Node × Node))
  | unknownCommand (name : Str)
  deriving Repr

/-- ast.rs:221-224 -/
def Node.emptyRow : Node := .row [] {}

end Verif.Model

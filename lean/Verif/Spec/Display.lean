import Verif.Spec.Tex
/-!
Displays of LaTeX: `equation`, `align`, `gather` and `multline`, with numbers, tags and labels. Nothing here is about the
converter.
-/
namespace Verif.Spec

/-! ### Syntax -/

/-- What is said about the number of a line -/
inductive LineMark
  | automatic
  /-- `\nonumber` or `\notag` -/
  | without (name : Str)
  /-- `\tag{…}` or `\tag*{…}` -/
  | tagged (starred : Bool) (text : Str)
  deriving DecidableEq

/-- A line of a display: its cells, what is said about its number, and its label, perhaps at the start of the line -/
structure DisplayLine where
  cell : Tex
  cells : List Tex
  mark : LineMark
  label : Option Str
  early : Bool

/-- A display: its environment and its lines -/
structure Display where
  row : DisplayRow
  line : DisplayLine
  lines : List DisplayLine

/-- What is written about the number of a line -/
def LineMark.lexemes : LineMark → List Lexeme
  | .automatic => []
  | .without name => [.command name]
  | .tagged starred text => .command (if starred then c!"tag*" else c!"tag") :: Lexeme.textIn text

/-- How a label is written -/
def labelLexemes : Option Str → List Lexeme
  | none => []
  | some label => .command c!"label" :: Lexeme.textIn label

/-- Cells with `&` between them -/
def cellLexemes : Tex → List Tex → List Lexeme
  | f, [] => f.lexemes
  | f, g :: rest => f.lexemes ++ .char '&' :: cellLexemes g rest

/-- What a line is written with -/
def DisplayLine.lexemes (l : DisplayLine) : List Lexeme :=
  (if l.early then labelLexemes l.label else []) ++ (cellLexemes l.cell l.cells ++
    (l.mark.lexemes ++ if l.early then [] else labelLexemes l.label))

/-- Lines with `\\` between them -/
def lineLexemes : DisplayLine → List DisplayLine → List Lexeme
  | l, [] => l.lexemes
  | l, m :: rest => l.lexemes ++ .command c!"\\" :: lineLexemes m rest

/-- What a display is written with -/
def Display.lexemes (d : Display) : List Lexeme :=
  .opens d.row.name :: (lineLexemes d.line d.lines ++ [.closes d.row.name])

/-! ### Meaning -/

/-- What is shown for a display, without the numbers: there is an empty cell at each side. -/
def Display.tree (d : Display) : Tree :=
  tableTree true ((d.line :: d.lines).map fun l => (l.cell :: l.cells).map Tex.trees)

/-- Does the line get the next number? -/
def DisplayLine.counted (l : DisplayLine) (which : WhichRows) (isLast : Bool) : Bool :=
  decide (l.mark = .automatic) && (decide (which = .every) || (decide (which = .last) && isLast))

/-- The tag of a line (what a reference to it shows), and what is shown beside it -/
def DisplayLine.tag (l : DisplayLine) (which : WhichRows) (isLast : Bool) (count : Nat) : Option (Str × Str) :=
  match l.mark with
  | .tagged true text => some (text, text)
  | .tagged false text => some (text, c!"(" ++ text ++ c!")")
  | .without _ => none
  | .automatic =>
    if l.counted which isLast then some (Nat.toDigits 10 (count + 1), c!"(" ++ Nat.toDigits 10 (count + 1) ++ c!")") else none

/-- The tags of lines after `count` numbers -/
def tagsFrom (which : WhichRows) : Nat → DisplayLine → List DisplayLine → List (Option (Str × Str))
  | count, l, [] => [l.tag which true count]
  | count, l, m :: rest => l.tag which false count :: tagsFrom which (if l.counted which false then count + 1 else count) m rest

/-- How many numbers there are after the lines -/
def countAfter (which : WhichRows) : Nat → DisplayLine → List DisplayLine → Nat
  | count, l, [] => if l.counted which true then count + 1 else count
  | count, l, m :: rest => countAfter which (if l.counted which false then count + 1 else count) m rest

/-- The tags of a display after `count` numbers -/
def Display.tags (d : Display) (count : Nat) : List (Option (Str × Str)) := tagsFrom d.row.numbered count d.line d.lines

/-- The labels of a display, with what a reference to them shows -/
def Display.labels (d : Display) (count : Nat) : List (Str × Str) :=
  (((d.line :: d.lines).map (·.label)).zip (d.tags count)).filterMap fun (label, tag) =>
    label.bind fun label => tag.map fun tag => (label, tag.1)

/-! ### Which displays there are -/

/-- The mark is written with known commands. -/
def LineMark.proper : LineMark → Bool
  | .automatic => true
  | .without name => decide (name ∈ [c!"nonumber", c!"notag"])
  | .tagged _ text => text.all isTagChar

/-- The line is well-formed: several cells only if there are `columns`, a label only if there is a number, and (where only the
last line has a number) tags and labels only on the last line. -/
def DisplayLine.proper (l : DisplayLine) (row : DisplayRow) (isLast : Bool) : Bool :=
  (l.cell :: l.cells).all (·.proper false true) && (row.columns || l.cells.isEmpty) && l.mark.proper &&
    (l.label.all fun s => s.all isTagChar) && (l.label.isNone || (l.tag row.numbered isLast 0).isSome) &&
    (isLast || decide (row.numbered ≠ .last) || (decide (l.mark = .automatic) && l.label.isNone))

/-- The same for several lines -/
def linesProper (row : DisplayRow) : DisplayLine → List DisplayLine → Bool
  | l, [] => l.proper row true
  | l, m :: rest => row.rows && l.proper row false && linesProper row m rest && (lineLexemes m rest).head?.all Lexeme.afterNewRow

/-- The display is well-formed. -/
def Display.proper (d : Display) : Bool := decide (d.row ∈ displayRows) && linesProper d.row d.line d.lines

end Verif.Spec

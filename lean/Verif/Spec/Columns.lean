import Verif.Model.Atof
/-! Specification of array column specifications: how a parsed specification is written, and when
it is in normal form. Uses only the data types of the model. -/
namespace Verif.Spec
open Model

/-- The lower-case name of a unit. -/
def unitName : LatexUnit → Str
  | .pt => c!"pt" | .mm => c!"mm" | .cm => c!"cm" | .inch => c!"in"
  | .ex => c!"ex" | .em => c!"em" | .mu => c!"mu" | .sp => c!"sp"

def bar : LineType → Char
  | .solid => '|'
  | .dashed => ':'

def letter : ColumnAlignment → Char
  | .left => 'l'
  | .center => 'c'
  | .right => 'r'

def barOpt : Option LineType → Str
  | none => []
  | some l => [bar l]

/-- How an entry is written. -/
def showEntry : ColumnSpecEntry → Str
  | .withContent a b => letter a :: barOpt b
  | .onlyLine l => [bar l]

/-- How a whole specification is written. -/
def showSpec (s : ColumnSpec) : Str := barOpt s.borderLeft ++ s.columns.flatMap showEntry

def IsLine : ColumnSpecEntry → Prop
  | .onlyLine _ => True
  | .withContent _ _ => False

/-- A separate line entry never follows something that still could carry the line as a border. -/
def NormalFrom (prevHasBorder : Bool) : List ColumnSpecEntry → Prop
  | [] => True
  | .withContent _ b :: rest => NormalFrom b.isSome rest
  | .onlyLine _ :: rest => prevHasBorder = true ∧ NormalFrom true rest

def Normal (s : ColumnSpec) : Prop := NormalFrom s.borderLeft.isSome s.columns

def HasContent (s : ColumnSpec) : Prop := ∃ a b, ColumnSpecEntry.withContent a b ∈ s.columns

end Verif.Spec

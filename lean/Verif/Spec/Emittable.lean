import Verif.Model.Emit
/-!
Conditions on a syntax tree under which its output is well-formed. The emitter writes some strings
as they are; these must not contain markup.
-/
namespace Verif.Spec
open Verif.Model

/-- Text which needs no escaping -/
def PlainText (s : Str) : Prop := '<' ∉ s ∧ '>' ∉ s ∧ '&' ∉ s

/-- An attribute value which needs no escaping -/
def PlainValue (s : Str) : Prop := '"' ∉ s ∧ '<' ∉ s ∧ '&' ∉ s

/-- No two flags which contradict each other -/
def FlagsOk (a : OpAttrs) : Prop :=
  ¬ (a.getLsbD 0 ∧ a.getLsbD 1) ∧ ¬ (a.getLsbD 2 ∧ a.getLsbD 3) ∧ ¬ (a.getLsbD 4 ∧ a.getLsbD 5) ∧
  ¬ (a.getLsbD 4 ∧ a.getLsbD 6) ∧ ¬ (a.getLsbD 5 ∧ a.getLsbD 6)

/-- A row label whose link target can be written into an attribute -/
def LabelOk (l : Option RowLabelInfo) : Prop :=
  ∀ info, l = some info → ∀ t, info.linkTarget = some t → '&' ∉ t

/-- A node which separates cells or rows -/
def isSeparator : Node → Bool
  | .columnSeparator => true
  | .rowSeparator _ _ => true
  | _ => false

mutual
/-- A node which can be emitted -/
def NodeOk : Node → Prop
  | .number n => PlainText n
  | .identifierChar letter _ => PlainText letter.text
  | .identifierStr _ => True
  | .operator _ attrs _ _ _ => FlagsOk attrs
  | .pseudoOp attrs _ _ name => FlagsOk attrs ∧ PlainText name
  | .space _ => True
  | .sub a b => NodeOk a ∧ NodeOk b
  | .sup a b => NodeOk a ∧ NodeOk b
  | .subSup a b c => NodeOk a ∧ NodeOk b ∧ NodeOk c
  | .overAccent _ attrs a => FlagsOk attrs ∧ NodeOk a
  | .underAccent _ attrs a => FlagsOk attrs ∧ NodeOk a
  | .over a b => NodeOk a ∧ NodeOk b
  | .under a b => NodeOk a ∧ NodeOk b
  | .underOver a b c => NodeOk a ∧ NodeOk b ∧ NodeOk c
  | .sqrt a => NodeOk a
  | .root a b => NodeOk a ∧ NodeOk b
  | .frac a b _ _ _ => NodeOk a ∧ NodeOk b
  | .row nodes _ => NodesOk nodes
  | .padded a _ _ _ _ _ => NodeOk a
  | .phantom a => NodeOk a
  | .text _ _ _ => True
  | .aHref _ _ => True
  | .eqRef label => '&' ∉ label
  | .table _ _ _ content => ContentOk content
  | .equationArray _ last content => LabelOk last ∧ ContentOk content
  | .multLine _ last content => LabelOk last ∧ ContentOk content
  | .array _ _ content => ContentOk content
  | .columnSeparator => False
  | .rowSeparator _ _ => False
  | .enclose a _ => NodeOk a
  | .multiscripts a pre post => NodeOk a ∧ PairsOk pre ∧ PairsOk post
  | .unknownCommand name => PlainText name

/-- All nodes of a list -/
def NodesOk : List Node → Prop
  | [] => True
  | n :: ns => NodeOk n ∧ NodesOk ns

/-- All nodes of a list of pairs -/
def PairsOk : List (Node × Node) → Prop
  | [] => True
  | (a, b) :: ps => NodeOk a ∧ NodeOk b ∧ PairsOk ps

/-- The content of a table, where separators are allowed -/
def ContentOk : List Node → Prop
  | [] => True
  | .columnSeparator :: ns => ContentOk ns
  | .rowSeparator label _ :: ns => LabelOk label ∧ ContentOk ns
  | n :: ns => NodeOk n ∧ ContentOk ns
end

/-- Settings which are written into attributes as they are, and a number format which does not
produce markup -/
structure CfgOk (cfg : EmitCfg) : Prop where
  unknownClass : PlainValue cfg.unknownClass
  idPrefix : PlainValue cfg.idPrefix
  fmt : ∀ r, PlainValue (cfg.fmt r)

end Verif.Spec

import Verif.Spec.Mathml
/-! What the properties of the output mention: the parts of a syntax tree, the shape of MathML, and
inserted layout. -/
namespace Verif.Spec
open Verif.Model

/-! ### The nodes of a syntax tree -/

mutual
/-- A node and all nodes in it -/
def nodesIn : Node → List Node
  | .sub a b => .sub a b :: (nodesIn a ++ nodesIn b)
  | .sup a b => .sup a b :: (nodesIn a ++ nodesIn b)
  | .subSup a b c => .subSup a b c :: (nodesIn a ++ nodesIn b ++ nodesIn c)
  | .overAccent op at_ a => .overAccent op at_ a :: nodesIn a
  | .underAccent op at_ a => .underAccent op at_ a :: nodesIn a
  | .over a b => .over a b :: (nodesIn a ++ nodesIn b)
  | .under a b => .under a b :: (nodesIn a ++ nodesIn b)
  | .underOver a b c => .underOver a b c :: (nodesIn a ++ nodesIn b ++ nodesIn c)
  | .sqrt a => .sqrt a :: nodesIn a
  | .root a b => .root a b :: (nodesIn a ++ nodesIn b)
  | .frac a b v u at_ => .frac a b v u at_ :: (nodesIn a ++ nodesIn b)
  | .row ns at_ => .row ns at_ :: nodesInList ns
  | .padded a w h l r v => .padded a w h l r v :: nodesIn a
  | .phantom a => .phantom a :: nodesIn a
  | .table al st l c => .table al st l c :: nodesInList c
  | .equationArray al l c => .equationArray al l c :: nodesInList c
  | .multLine n l c => .multLine n l c :: nodesInList c
  | .array st sp c => .array st sp c :: nodesInList c
  | .enclose a n => .enclose a n :: nodesIn a
  | .multiscripts a pre post => .multiscripts a pre post :: (nodesIn a ++ nodesInPairs pre ++ nodesInPairs post)
  | n => [n]

def nodesInList : List Node → List Node
  | [] => []
  | n :: ns => nodesIn n ++ nodesInList ns

def nodesInPairs : List (Node × Node) → List Node
  | [] => []
  | (a, b) :: ps => nodesIn a ++ nodesIn b ++ nodesInPairs ps
end

/-- The nodes directly inside of a node -/
def kids : Node → List Node
  | .sub a b => [a, b]
  | .sup a b => [a, b]
  | .subSup a b c => [a, b, c]
  | .overAccent _ _ a => [a]
  | .underAccent _ _ a => [a]
  | .over a b => [a, b]
  | .under a b => [a, b]
  | .underOver a b c => [a, b, c]
  | .sqrt a => [a]
  | .root a b => [a, b]
  | .frac a b _ _ _ => [a, b]
  | .row ns _ => ns
  | .padded a _ _ _ _ _ => [a]
  | .phantom a => [a]
  | .table _ _ _ c => c
  | .equationArray _ _ c => c
  | .multLine _ _ c => c
  | .array _ _ c => c
  | .enclose a _ => [a]
  | .multiscripts a pre post => a :: (pre.flatMap (fun p => [p.1, p.2]) ++ post.flatMap fun p => [p.1, p.2])
  | _ => []

/-! ### The shape of MathML -/

/-- The name of an element -/
def Xml.name : Xml → Str
  | .text _ => []
  | .elem n _ _ => n

/-- How many children an element must have, if this is fixed -/
def arity (n : Str) : Option Nat :=
  if n = c!"mfrac" ∨ n = c!"mroot" ∨ n = c!"msub" ∨ n = c!"msup" ∨ n = c!"munder" ∨ n = c!"mover" then some 2
  else if n = c!"msubsup" ∨ n = c!"munderover" then some 3
  else if n = c!"mspace" ∨ n = c!"mprescripts" then some 0
  else none

/-- Which elements may be inside of which: rows only in tables and all children of tables are rows;
cells only in rows and all children of rows are cells. -/
def mayContain (parent child : Str) : Bool :=
  (decide (parent = c!"mtable") == decide (child = c!"mtr")) &&
  (decide (parent = c!"mtr") == decide (child = c!"mtd"))

mutual
/-- Every element has the number of children it needs and only children of the right kind. -/
def shaped : Xml → Prop
  | .text _ => True
  | .elem n _ kids =>
    (∀ k, arity n = some k → kids.length = k) ∧ (∀ x ∈ kids, mayContain n x.name) ∧ shapedAll kids

def shapedAll : List Xml → Prop
  | [] => True
  | x :: xs => shaped x ∧ shapedAll xs
end

/-! ### Layout -/

/-- `s` is `t` with line breaks inserted, each followed by some indentation. -/
inductive LaidOut (unit : Str) : Str → Str → Prop
  | nil : LaidOut unit [] []
  | same (c : Char) {t s : Str} : LaidOut unit t s → LaidOut unit (c :: t) (c :: s)
  | line (n : Nat) {t s : Str} : LaidOut unit t s →
      LaidOut unit t ('\n' :: ((List.replicate n unit).flatten ++ s))

/-- One step of indentation -/
def indentUnit : Indentation → Str
  | .tab => ['\t']
  | .spaces n => List.replicate n ' '

/-- The configuration with another indentation -/
def withIndent (cfg : EmitCfg) (ind : Indentation) : EmitCfg := { cfg with indentation := ind }

end Verif.Spec

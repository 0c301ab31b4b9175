import Verif.Spec.Tree
import Verif.Spec.Emittable
/-!
What can go wrong in the output of a conversion. Everything else which well-formed output needs
(`Verif/Spec/Emittable.lean`) is guaranteed by the parser.
-/
namespace Verif.Spec
open Verif.Model

/-- A node whose children are the rows and cells of a table, with separators between them -/
def isTable : Node → Bool
  | .table .. | .equationArray .. | .multLine .. | .array .. => true
  | _ => false

/-- None of the four known defects is in the nodes: separators which are not directly in a table, operators which
are both stretchy and not stretchy, markup in the names of operators (`\operatorname`), and markup in the
names of unknown commands (if these are shown at all). -/
structure Harmless (showUnknown : Bool) (ns : List Node) : Prop where
  top : ∀ n ∈ ns, isSeparator n = false
  inner : ∀ m ∈ nodesInList ns, isTable m = false → ∀ k ∈ kids m, isSeparator k = false
  stretch : ∀ op attrs size l r, Node.operator op attrs size l r ∈ nodesInList ns →
    ¬ (attrs.getLsbD 0 ∧ attrs.getLsbD 1)
  names : ∀ attrs l r name, Node.pseudoOp attrs l r name ∈ nodesInList ns → PlainText name
  unknown : showUnknown = true → ∀ name, Node.unknownCommand name ∈ nodesInList ns → PlainText name

end Verif.Spec

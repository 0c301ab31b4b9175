import Verif.Spec.Tree
import Verif.Model.CustomCmds
/-! How rows are numbered: the equation counter, the labels, and the rows of a syntax tree which show a
tag. -/
namespace Verif.Spec
open Verif.Model

/-- The equation counter, and which text a reference to a label shows -/
structure Counters where
  count : Nat
  labels : StrMap Str

/-- The automatic tag with this number: the number, in parentheses -/
def autoTag (n : Nat) : EquationTag := ⟨Nat.toDigits 10 n, true⟩

/-- A row which shows a tag: its tag, its label, and whether the tag is automatic -/
structure TaggedRow where
  info : RowLabelInfo
  auto : Bool

/-- The counters after a row with this tag: an automatic tag uses up a number. A label of the row stands for its
tag. -/
def Counters.after (c : Counters) (r : TaggedRow) : Counters where
  count := if r.auto then c.count + 1 else c.count
  labels := match r.info.linkTarget with
    | some l => c.labels.insert l r.info.tag.text
    | none => c.labels

/-- The rows show tags which follow on from the counters `c`, and leave the counters at `c'`: every automatic tag
is the next number. -/
def Numbered : Counters → List TaggedRow → Counters → Prop
  | c, [], c' => c = c'
  | c, r :: rs, c' => (r.auto = true → r.info.tag = autoTag (c.count + 1)) ∧ Numbered (c.after r) rs c'

/-- The tag which a node shows -/
def tagOf : Node → Option RowLabelInfo
  | .rowSeparator info _ => info
  | .equationArray _ last _ => last
  | .multLine _ last _ => last
  | _ => none

/-- All tags in a list of nodes -/
def tagsIn (ns : List Node) : List RowLabelInfo := (nodesInList ns).filterMap tagOf

end Verif.Spec

import Verif.Spec.Session
/-! What replies to calls of the interface are like. -/
namespace Verif.Spec
open Verif.Model

/-- A conversion came to an end, with a document or with an error -/
def Returned : Outcome Out → Prop
  | .ok _ | .err _ => True
  | .panic | .fuel => False

/-- The position is between two characters of the source, or at one of its ends. -/
def CharBoundary (source : Str) (p : Nat) : Prop := ∃ pre post, source = pre ++ post ∧ blen pre = p

/-- If the conversion of this source failed, then both ends of the range which the error reports are positions
between characters of the source. -/
def PointsInto (source : Str) : Outcome Out → Prop
  | .err e => CharBoundary source e.start ∧ CharBoundary source e.stop
  | _ => True

/-- The reply fits the call, the conversions in it have come to an end, and their errors point into the
source. -/
def Answers : Call → Reply → Prop
  | .withGlobalState latex _, .one r => Returned r ∧ PointsInto latex r
  | .withLocalState latex _, .one r => Returned r ∧ PointsInto latex r
  | .all snippets, .many rs => rs.length = snippets.length ∧
      ∀ (i : Nat) latex display r, snippets[i]? = some (latex, display) → rs[i]? = some r →
        Returned r ∧ PointsInto latex r
  | .reset, .unit => True
  | _, _ => False

/-- The sources which a call converts -/
def Call.sources : Call → List Str
  | .withGlobalState latex _ => [latex]
  | .withLocalState latex _ => [latex]
  | .all snippets => snippets.map (·.1)
  | .reset => []

/-- The error which is meant for bugs of the library is among the replies. -/
def ReportsInternal (r : Reply) : Prop := .error .internal ∈ replyTexts r

end Verif.Spec

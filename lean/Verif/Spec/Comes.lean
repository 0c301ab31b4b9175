import Verif.Spec.Stream
/-! What it means that a source consists of given tokens. -/
namespace Verif.Spec
open Model

/-- A token which is expected. There may be whitespace in front of it unless it is `tight`. -/
structure Tk where
  tok : Token
  tight : Bool := false

instance : Coe Token Tk := ⟨fun t => ⟨t, false⟩⟩

/-- The next tokens of the stream are these, apart from whitespace in front of those which are not tight. -/
def Comes : Stream → List Tk → Prop
  | _, [] => True
  | u, x :: xs => ∃ k qt, (x.tight = true → k = 0) ∧ (∀ j < k, ∃ w, u j = .ok w ∧ w.tok.isWs = true) ∧
      u k = .ok qt ∧ qt.tok = x.tok ∧ Comes (u.drop (k + 1)) xs

/-- Not a command without meaning -/
def Named : Token → Bool
  | .unresolvedCommand _ => false
  | _ => true

end Verif.Spec

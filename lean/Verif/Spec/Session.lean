import Verif.Model.Convert
/-! Sequences of calls of a converter. -/
namespace Verif.Spec
open Verif.Model

/-- A call of the interface -/
inductive Call
  | withGlobalState (latex : Str) (display : MathDisplay)
  | withLocalState (latex : Str) (display : MathDisplay)
  | all (snippets : List (Str × MathDisplay))
  | reset

/-- What a call returns -/
inductive Reply
  | one (r : Outcome Out)
  | many (rs : List (Outcome Out))
  | unit

/-- Perform a call; what remains is the converter afterwards. -/
def perform (fuel : Nat) (c : Converter) : Call → Reply × Converter
  | .withGlobalState latex display =>
    let (r, c') := c.convertWithGlobalState fuel latex display
    (.one r, c')
  | .withLocalState latex display => (.one (c.convertWithLocalState fuel latex display), c)
  | .all snippets => (.many (c.convertAll fuel snippets), c)
  | .reset => (.unit, c.resetGlobalState)

/-- Perform calls one after the other. -/
def session (fuel : Nat) : Converter → List Call → List Reply × Converter
  | c, [] => ([], c)
  | c, call :: calls =>
    let (r, c') := perform fuel c call
    let (rs, c'') := session fuel c' calls
    (r :: rs, c'')

/-- The converter after some calls -/
def after (fuel : Nat) (c : Converter) (calls : List Call) : Converter := (session fuel c calls).2

/-- The call returns this reply and leaves the converter like this, with any sufficient number of steps. -/
def Gives (c : Converter) (call : Call) (r : Reply) (c' : Converter) : Prop :=
  ∃ steps, ∀ n, steps ≤ n → perform n c call = (r, c')

/-- The calls, one after the other, leave the converter like this, with any sufficient number of steps. -/
def Reaches (c : Converter) (calls : List Call) (c' : Converter) : Prop :=
  ∃ steps, ∀ n, steps ≤ n → after n c calls = c'

/-- Does the call have anything to do with the global state? -/
def Call.isGlobal : Call → Bool
  | .withGlobalState .. | .reset => true
  | _ => false

/-- A new converter with this configuration converts the source to this text. -/
def Converts (config : MathCoreConfig) (src : Str) (display : MathDisplay) (text : Str) : Prop :=
  ∃ c out, Converter.new config = .ok c ∧ Gives c (.withLocalState src display) (.one (.ok out)) c ∧ out.s = text

/-- What a call returns, with only the text of documents and the kind of errors -/
inductive ReplyText
  | text (s : Str)
  | error (k : LatexErrKind)
  | crash
deriving DecidableEq

/-- The texts and errors in a reply -/
def replyTexts : Reply → List ReplyText
  | .one r => [one r]
  | .many rs => rs.map one
  | .unit => []
where
  one : Outcome Out → ReplyText
    | .ok out => .text out.s
    | .err e => .error e.kind
    | _ => .crash

/-- A new converter with this configuration gives these texts and errors in reply to calls, one after the
other. -/
def Replies (config : MathCoreConfig) (calls : List Call) (texts : List (List ReplyText)) : Prop :=
  ∃ c rs c', Converter.new config = .ok c ∧ (∃ steps, ∀ n, steps ≤ n → session n c calls = (rs, c')) ∧
    rs.map replyTexts = texts

/-- A new converter with this configuration reports an error of this kind for the source. -/
def Rejects (config : MathCoreConfig) (src : Str) (display : MathDisplay) (k : LatexErrKind) : Prop :=
  ∃ c e, Converter.new config = .ok c ∧ Gives c (.withLocalState src display) (.one (.err e)) c ∧ e.kind = k

end Verif.Spec

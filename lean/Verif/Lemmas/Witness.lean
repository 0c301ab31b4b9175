import Lean.Elab.Tactic
import Verif.Props.Calls
/-! A way to show what the converter does with a given source. -/
namespace Verif
open Model Spec

/-- Close a goal `a = b` by reflexivity, where only the kernel checks that both sides are the same. -/
elab "kernel_rfl" : tactic => Lean.Elab.Tactic.liftMetaFinishingTactic fun g => do
  let t ← g.getType
  match t.consumeMData.eq? with
  | some (α, _, b) =>
    let u ← Lean.Meta.getLevel α
    g.assign (Lean.mkApp2 (Lean.mkConst ``Eq.refl [u]) α b)
  | none => throwError "not an equation"

/-- The text which a call of a new converter returns, with so many steps -/
def textOf (config : MathCoreConfig) (src : Str) (display : MathDisplay) (n : Nat) : Option Str :=
  match Converter.new config with
  | .error _ => none
  | .ok c =>
    match c.convertWithLocalState n src display with
    | .ok out => some out.s
    | _ => none

/-- The kind of error which a call of a new converter reports, with so many steps -/
def errorOf (config : MathCoreConfig) (src : Str) (display : MathDisplay) (n : Nat) : Option LatexErrKind :=
  match Converter.new config with
  | .error _ => none
  | .ok c =>
    match c.convertWithLocalState n src display with
    | .err e => some e.kind
    | _ => none

theorem converts_of {config : MathCoreConfig} {src : Str} {display : MathDisplay} {text : Str} (k : Nat)
    (h : ∀ n, textOf config src display (n + k) = some text) : Converts config src display text := by
  cases hc : Converter.new config with
  | error e =>
    have := h 0
    simp only [textOf, hc] at this
    cases this
  | ok c =>
    obtain ⟨n0, r, c', h1, h2, -⟩ := perform_spec (.new hc) (.withLocalState src display)
      fun _ _ => sourceOk_nothing _
    have h3 := h1 (n0 + k) (by omega)
    have h4 := h n0
    simp only [textOf, hc] at h4
    cases hr : c.convertWithLocalState (n0 + k) src display with
    | ok out =>
      rw [hr] at h4
      simp only [perform, hr, Prod.mk.injEq] at h3
      obtain ⟨rfl, rfl⟩ := h3
      exact ⟨c, out, hc, ⟨n0, h1⟩, Option.some.inj h4⟩
    | _ => rw [hr] at h4; cases h4

theorem rejects_of {config : MathCoreConfig} {src : Str} {display : MathDisplay} {kind : LatexErrKind} (k : Nat)
    (h : ∀ n, errorOf config src display (n + k) = some kind) : Rejects config src display kind := by
  cases hc : Converter.new config with
  | error e =>
    have := h 0
    simp only [errorOf, hc] at this
    cases this
  | ok c =>
    obtain ⟨n0, r, c', h1, h2, -⟩ := perform_spec (.new hc) (.withLocalState src display)
      fun _ _ => sourceOk_nothing _
    have h3 := h1 (n0 + k) (by omega)
    have h4 := h n0
    simp only [errorOf, hc] at h4
    cases hr : c.convertWithLocalState (n0 + k) src display with
    | err e =>
      rw [hr] at h4
      simp only [perform, hr, Prod.mk.injEq] at h3
      obtain ⟨rfl, rfl⟩ := h3
      exact ⟨c, e, hc, ⟨n0, h1⟩, Option.some.inj h4⟩
    | _ => rw [hr] at h4; cases h4

/-- The texts and errors which calls of a new converter give, with so many steps -/
def textsOf (config : MathCoreConfig) (calls : List Call) (n : Nat) : Option (List (List ReplyText)) :=
  match Converter.new config with
  | .error _ => none
  | .ok c => some ((session n c calls).1.map replyTexts)

theorem replies_of {config : MathCoreConfig} {calls : List Call} {texts : List (List ReplyText)} (k : Nat)
    (h : ∀ n, textsOf config calls (n + k) = some texts) : Replies config calls texts := by
  cases hc : Converter.new config with
  | error e =>
    have := h 0
    simp only [textsOf, hc] at this
    cases this
  | ok c =>
    obtain ⟨n0, rs, c', h1, -⟩ := session_spec (.new hc) calls
    have h3 := h1 (n0 + k) (by omega)
    have h4 := h n0
    simp only [textsOf, hc, h3, Option.some.injEq] at h4
    exact ⟨c, rs, c', hc, ⟨n0, h1⟩, h4⟩

/-- The default configuration (with the rendering of numbers left out) -/
def plainConfig : MathCoreConfig := { unknownClass := c!"unknown", indentation := .spaces 2, fmt := fun _ => [] }

example : Converts plainConfig c!"x^2" .inline c!"<math><msup><mi>x</mi><mn>2</mn></msup></math>" :=
  converts_of 20 fun n => by kernel_rfl

end Verif

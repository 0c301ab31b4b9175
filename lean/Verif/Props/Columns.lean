import Verif.Lemmas.Columns
/-! Property C26. -/
namespace Verif
open Model Spec

/-- C26: a column specification is accepted exactly if, apart from whitespace, it is the written
form of a specification with at least one column; then the result is the one specification in
normal form (a bar is the border of the column before it if that has none yet, or else a
separate line) which is written that way. So alignments, order and number of bars are kept. -/
theorem C26_columns (s : Str) (spec : ColumnSpec) :
    parseColumnSpecification s = some spec ↔
      showSpec spec = s.filter (fun c => !isAsciiWs c) ∧ Normal spec ∧ HasContent spec :=
  parseColumn_iff s spec

example : parseColumnSpecification c!"|| l: |c" =
    some ⟨some .solid, [.onlyLine .solid, .withContent .left (some .dashed), .onlyLine .solid,
      .withContent .center none]⟩ := by decide

/-- C26: acceptance in terms of the text alone. -/
theorem C26_accepts (s : Str) :
    (parseColumnSpecification s).isSome = true ↔
      (∀ c ∈ s, c ∈ c!"lcr|:" ∨ isAsciiWs c = true) ∧ ∃ c ∈ s, c ∈ c!"lcr" := by
  have h0 : ColInv ⟨[], none, false⟩ [] :=
    ⟨rfl, by simp [NormalFrom], by simp, by simp⟩
  obtain ⟨hA, hB⟩ := colLoop_spec s ⟨[], none, false⟩ [] h0
  have hchars : s.all colCharOk = true ↔ (∀ c ∈ s, c ∈ c!"lcr|:" ∨ isAsciiWs c = true) := by
    rw [List.all_eq_true]
    constructor <;> intro h c hc <;> have := h c hc <;>
      simpa [colCharOk, or_assoc] using this
  rw [← hchars, ← hB]
  unfold parseColumnSpecification
  cases hst : colLoop s ⟨[], none, false⟩ with
  | none => simp
  | some st =>
    have hi := hA st hst
    simp only [Option.isSome_some, true_and]
    have hl := hi.letters
    simp only [List.nil_append] at hl
    have e : (∃ c ∈ s, c ∈ c!"lcr") ↔ st.hasContent = true := by
      rw [hl]; simp
    rw [e]
    cases hc : st.hasContent with
    | false => simp
    | true =>
      obtain ⟨a, b, hm⟩ := hi.content.1 hc
      cases h : st.revSpec with
      | nil => rw [h] at hm; simp at hm
      | cons _ _ => simp

example : parseColumnSpecification c!"||" = none ∧ parseColumnSpecification c!"lx" = none := by
  decide

end Verif

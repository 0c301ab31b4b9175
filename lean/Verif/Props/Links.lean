import Verif.Lemmas.Percent
/-! Property C03. -/
namespace Verif
open Model Spec

/-- C03: with one id prefix, the link of `\eqref{a}` leads to the equation labelled `b` exactly if
the labels are equal. -/
theorem C03_link_iff (idPrefix a b : Str) :
    eqrefHref idPrefix a = '#' :: equationId idPrefix b ↔ a = b := by
  constructor
  · intro h
    simp only [eqrefHref, equationId, List.cons.injEq, true_and] at h
    exact percentEncode_inj (List.append_cancel_left h)
  · rintro rfl; rfl

/-- Two labels which differ only in a character that has to be encoded. -/
example : eqrefHref c!"p-" c!"eq: 1" = '#' :: equationId c!"p-" c!"eq: 1" ∧
    eqrefHref c!"p-" c!"eq: 1" ≠ '#' :: equationId c!"p-" c!"eq:%201" :=
  ⟨(C03_link_iff _ _ _).2 rfl, fun h => absurd ((C03_link_iff _ _ _).1 h) (by decide)⟩

/-- C03: distinct labels get distinct ids. -/
theorem C03_id_injective (idPrefix a b : Str) :
    equationId idPrefix a = equationId idPrefix b ↔ a = b :=
  ⟨fun h => percentEncode_inj (List.append_cancel_left h), fun h => by rw [h]⟩

example : equationId [] c!"é" = c!"%C3%A9" := by decide

/-- C03: what is written for the label, whatever the label is, contains no double quote, `<`,
`>`, `#`, space, control or non-ASCII character, and decoding it gives the UTF-8 bytes of the
label. -/
theorem C03_fragment_safe (label : Str) :
    (∀ c ∈ percentEncode label, fragmentForbidden c = false) ∧
      percentDecode (percentEncode label) = some (label.flatMap String.utf8EncodeChar) := by
  refine ⟨?_, percentDecode_flatMap _⟩
  intro c hc
  simp only [percentEncode, List.mem_flatMap] at hc
  obtain ⟨b, -, hb⟩ := hc
  exact encodeByte_safe b c hb

example : percentEncode c!"a\"<b>#" = c!"a%22%3Cb%3E%23" := by decide

end Verif

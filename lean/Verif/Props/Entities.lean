import Verif.Lemmas.Entities
/-! Property C32. -/
namespace Verif
open Model Spec

/-- C32: decoding recovers the text from any way of writing it in HTML. -/
theorem C32_decodes (raw html : Str) (h : WrittenAs raw html) :
    replaceHtmlEntities html = raw := by
  induction h with
  | nil => decide
  | plain c hc t ih =>
    rename_i raw html
    have := replace_prefix [c] html (by simp [Ne.symm hc])
    simpa [ih] using this
  | entity c name hn t ih =>
    rw [replace_entity _ _ (entityNames_no_semi hn), ih, (lookup_iff name c).mpr hn]; rfl

example : WrittenAs c!"a<b&c" c!"a&lt;b&#38;c" :=
  .plain _ (by decide) <| .entity _ c!"lt" (by decide) <| .plain _ (by decide) <|
    .entity _ c!"#38" (by decide) <| .plain _ (by decide) .nil

/-- C32: the exact behaviour on every text.  Text before the first `&` is kept; `&name;` is
replaced if (and only if) `name` is one of the known names, and otherwise copied; decoding
continues after the `;`; a `&` with no `;` after it ends the decoding. These cases cover all
texts (`C32_cases`). -/
theorem C32_behaviour :
    (∀ p : Str, '&' ∉ p → replaceHtmlEntities p = p) ∧
    (∀ p r : Str, '&' ∉ p → ';' ∉ r → replaceHtmlEntities (p ++ '&' :: r) = p ++ '&' :: r) ∧
    (∀ p name rest : Str, ∀ c, '&' ∉ p → name ∈ entityNames c →
      replaceHtmlEntities (p ++ '&' :: (name ++ ';' :: rest)) =
        p ++ c :: replaceHtmlEntities rest) ∧
    (∀ p name rest : Str, '&' ∉ p → ';' ∉ name → (∀ c, name ∉ entityNames c) →
      replaceHtmlEntities (p ++ '&' :: (name ++ ';' :: rest)) =
        p ++ '&' :: (name ++ ';' :: replaceHtmlEntities rest)) := by
  refine ⟨replace_plain, ?_, ?_, ?_⟩
  · intro p r hp hr
    rw [replace_prefix _ _ hp, replace_unterminated _ hr]
  · intro p name rest c hp hn
    rw [replace_prefix _ _ hp, replace_entity _ _ (entityNames_no_semi hn),
      (lookup_iff name c).mpr hn]; rfl
  · intro p name rest hp hs hn
    rw [replace_prefix _ _ hp, replace_entity _ _ hs]
    cases h : reservedMap.lookup name with
    | some c => exact absurd ((lookup_iff name c).mp h) (hn c)
    | none => simp

/-- The cases of `C32_behaviour` cover every text. -/
theorem C32_cases (s : Str) :
    '&' ∉ s ∨ (∃ p r, s = p ++ '&' :: r ∧ '&' ∉ p ∧ ';' ∉ r) ∨
    (∃ p name rest, s = p ++ '&' :: (name ++ ';' :: rest) ∧ '&' ∉ p ∧ ';' ∉ name) := by
  rcases split_first s '&' with h | ⟨p, r, rfl, h⟩
  · exact Or.inl h
  · rcases split_first r ';' with h' | ⟨name, rest, rfl, h'⟩
    · exact Or.inr (Or.inl ⟨p, r, rfl, h, h'⟩)
    · exact Or.inr (Or.inr ⟨p, name, rest, rfl, h, h'⟩)

/-- The limitation of C32: a raw `&` directly before an entity prevents its decoding. -/
theorem C32_raw_ampersand_blocks :
    replaceHtmlEntities c!"you &&amp; I" = c!"you &&amp; I" := by
  have := C32_behaviour.2.2.2 c!"you " c!"&amp" c!" I" (by decide) (by decide)
    (by intro c h; unfold entityNames at h; split at h <;> revert h <;> decide)
  have h2 := C32_behaviour.1 c!" I" (by decide)
  rw [h2] at this
  exact this

end Verif

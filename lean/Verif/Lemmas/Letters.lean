import Verif.Lemmas.Weights
import Verif.Lemmas.Transform
/-! Letters keep needing no escaping when they are transformed or overlaid. -/
namespace Verif
open Model Spec

theorem LetterOk.plain {s : SuperChar} (h : LetterOk s) : PlainText s.text := by
  obtain ⟨c, v, so, l, rfl, hc⟩ := h
  rw [symWord_text]
  have hv : ∀ k : Fin 15, VariationSelector.toChar k ≠ '<' ∧ VariationSelector.toChar k ≠ '>' ∧
      VariationSelector.toChar k ≠ '&' := by decide
  simp only [plainCharB, Bool.and_eq_true, bne_iff_ne, ne_eq] at hc
  obtain ⟨⟨h1, h2⟩, h3⟩ := hc
  have e1 : ('̸' : Char) ≠ '<' ∧ ('̸' : Char) ≠ '>' ∧ ('̸' : Char) ≠ '&' := by decide
  have e2 : ('⃒' : Char) ≠ '<' ∧ ('⃒' : Char) ≠ '>' ∧ ('⃒' : Char) ≠ '&' := by decide
  have hm : ∀ x ∈ c :: ((v.map VariationSelector.toChar).toList ++ (if so then ['̸'] else []) ++
        (if l then ['⃒'] else [])), x ≠ '<' ∧ x ≠ '>' ∧ x ≠ '&' := by
    intro x hx
    rcases List.mem_cons.1 hx with rfl | hx
    · exact ⟨h1, h2, h3⟩
    · rcases List.mem_append.1 hx with hx | hx
      · rcases List.mem_append.1 hx with hx | hx
        · cases v with
          | none => cases hx
          | some k =>
            rw [Option.map_some, Option.toList_some, List.mem_singleton] at hx
            rw [hx]; exact hv k
        · cases so with
          | true => rw [if_pos rfl, List.mem_singleton] at hx; rw [hx]; exact e1
          | false => cases hx
      · cases l with
        | true => rw [if_pos rfl, List.mem_singleton] at hx; rw [hx]; exact e2
        | false => cases hx
  exact ⟨fun hx => (hm _ hx).1 rfl, fun hx => (hm _ hx).2.1 rfl, fun hx => (hm _ hx).2.2 rfl⟩

theorem mapped_big_inside : ∀ n ∈ interesting, ∀ t, ∀ m ∈ mappedCode t n, 0x3E < m := by
  decide +kernel

theorem mapped_plain {n m : Nat} {t : TextTransform} (h : mappedCode t n = some m) :
    plainCharB (Char.ofNat m) = true := by
  have hi : n ∈ interesting := by
    apply Decidable.byContradiction
    intro hi; rw [mapped_outside hi] at h; cases h
  have h1 := mapped_big_inside n hi t m h
  have h2 := ofNat_toNat_valid (mapped_valid h)
  simp only [plainCharB, Bool.and_eq_true, bne_iff_ne, ne_eq]
  refine ⟨⟨?_, ?_⟩, ?_⟩ <;>
    (intro e; rw [e] at h2; revert h2; simp; omega)

theorem letterOk_transformChar {t : TextTransform} {c : Char} {up : Bool} (h : plainCharB c = true) :
    LetterOk (transformChar t c up) := by
  unfold transformChar
  generalize (if up && (t == .boldItalic) then TextTransform.bold else t) = t'
  simp only
  split
  · rename_i m hm
    have hp := mapped_plain hm
    split
    · rw [fromCharWithVs_eq]; exact ⟨_, _, _, _, rfl, hp⟩
    · rw [fromCharWithVs_eq]; exact ⟨_, _, _, _, rfl, hp⟩
    · exact letterOk_fromChar hp
  · exact letterOk_fromChar h

theorem LetterOk.transform {t : TextTransform} {s : SuperChar} {up : Bool} (h : LetterOk s) :
    LetterOk (transform t s up) := by
  unfold Model.transform
  split
  · rename_i c hc
    obtain ⟨c', v, so, l, rfl, hp⟩ := h
    rw [symWord_tryAsChar] at hc
    split at hc
    · cases hc; exact letterOk_transformChar hp
    · cases hc
  · exact h

theorem precomposed_plain {c p : Char} (h : getPrecomposed c = some p) : plainCharB p = true := by
  have hall : (precomposedSorted.all fun e => plainCharB (Char.ofNat e.2)) = true := by decide +kernel
  rw [getPrecomposed_eq, Option.map_eq_some_iff] at h
  obtain ⟨v, hv, rfl⟩ := h
  exact List.all_eq_true.1 hall _ (lookup_mem hv)

theorem LetterOk.withOverlay {s : SuperChar} (o : OverlayChar) (h : LetterOk s) : LetterOk (s.withOverlay o) := by
  obtain ⟨c, v, so, l, rfl, hp⟩ := h
  cases o with
  | solidus =>
    rw [symWord_solidus]
    split
    · rename_i p hc
      exact ⟨_, _, _, _, rfl, precomposed_plain hc⟩
    · exact ⟨_, _, _, _, rfl, hp⟩
  | verticalLine => rw [symWord_vline]; exact ⟨_, _, _, _, rfl, hp⟩

theorem plainChar_digit {c : Char} (h : isAsciiDigit c = true) : plainCharB c = true := by
  simp only [plainCharB, Bool.and_eq_true, bne_iff_ne, ne_eq]
  refine ⟨⟨?_, ?_⟩, ?_⟩ <;> (rintro rfl; revert h; decide)

end Verif

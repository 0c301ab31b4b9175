import Verif.Lemmas.Transform
/-! Properties C28 and C29. -/
namespace Verif
open Model Spec

/-- The text of a symbol after drawing the given overlays over it, one after the other. -/
def overlaid (s : SuperChar) (os : List OverlayChar) : Str :=
  (os.foldl SuperChar.withOverlay s).text

theorem foldl_plain (os : List OverlayChar) (c : Char) (s l : Bool)
    (hs : s = true → getPrecomposed c = none) :
    os.foldl SuperChar.withOverlay (symWord c none s l) =
      symWord (if OverlayChar.solidus ∈ os then (getPrecomposed c).getD c else c) none
        (s || (decide (OverlayChar.solidus ∈ os) && (getPrecomposed c).isNone))
        (l || decide (OverlayChar.verticalLine ∈ os)) := by
  induction os generalizing c s l with
  | nil => simp
  | cons o os ih =>
    rw [List.foldl_cons]
    cases o with
    | solidus =>
      rw [symWord_solidus]
      cases h : getPrecomposed c with
      | none =>
        simp only
        rw [ih c true l (fun _ => h)]
        simp [h]
      | some p =>
        simp only
        have hp := getPrecomposed_idem h
        have hsf : s = false := by
          cases s
          · rfl
          · rw [hs rfl] at h; simp at h
        subst hsf
        rw [ih p false l (by simp), hp]
        simp
    | verticalLine =>
      rw [symWord_vline, ih c s true hs]
      simp

theorem foldl_vs (os : List OverlayChar) (c : Char) (v : Fin 15) (s l : Bool) :
    os.foldl SuperChar.withOverlay (symWord c (some v) s l) =
      symWord c (some v) (s || decide (OverlayChar.solidus ∈ os))
        (l || decide (OverlayChar.verticalLine ∈ os)) := by
  induction os generalizing s l with
  | nil => simp
  | cons o os ih =>
    rw [List.foldl_cons]
    cases o with
    | solidus => rw [symWord_solidus]; simp only; rw [ih]; simp
    | verticalLine => rw [symWord_vline, ih]; simp

/-- The table of the code is the one of Unicode. -/
theorem lookup_negated (n : Nat) : precomposedSorted.lookup n = negated n := by
  by_cases hn : n ∈ precomposedSorted.map (·.1)
  · have : ∀ n ∈ precomposedSorted.map (·.1), precomposedSorted.lookup n = negated n := by decide +kernel
    exact this n hn
  · have no : ∀ (l : List (Nat × Nat)), (∀ p ∈ l, p.1 ≠ n) → l.lookup n = none := by
      intro l hl
      rw [List.lookup_eq_none_iff]
      intro p hp
      simpa using fun h => hl p hp h.symm
    have h1 : ∀ p ∈ solidusCompositions, p.1 ∈ precomposedSorted.map (·.1) ∧
        p.2 ∈ precomposedSorted.map (·.1) := by decide +kernel
    rw [no _ (fun p hp h => hn (List.mem_map.2 ⟨p, hp, h⟩)), negated, if_neg, no]
    · intro p hp h
      exact hn (h ▸ (h1 p hp).1)
    · simp only [List.any_eq_true, beq_iff_eq, not_exists, not_and]
      intro p hp h
      exact hn (h ▸ (h1 p hp).2)

/-- C28: the text of an overlaid character. Negation uses the precomposed character exactly if
Unicode has one, and the combining solidus otherwise; negating again, in any
order with other overlays, changes nothing; no other character appears. -/
theorem C28_overlay (c : Char) (os : List OverlayChar) :
    overlaid (SuperChar.fromChar c) os =
      (if OverlayChar.solidus ∈ os then
        match negated c.toNat with
        | some p => [Char.ofNat p]
        | none => [c, solidusOverlay]
       else [c]) ++
      (if OverlayChar.verticalLine ∈ os then [verticalOverlay] else []) := by
  unfold overlaid
  rw [fromChar_eq, foldl_plain os c false false (by simp), symWord_text, getPrecomposed_eq, lookup_negated]
  cases negated c.toNat <;> by_cases h1 : OverlayChar.solidus ∈ os <;>
    by_cases h2 : OverlayChar.verticalLine ∈ os <;>
    simp [h1, h2, solidusOverlay, verticalOverlay]

example : overlaid (SuperChar.fromChar '∈') [.solidus, .solidus] = ['∉'] ∧
    overlaid (SuperChar.fromChar 'x') [.verticalLine, .solidus, .solidus] =
      ['x', solidusOverlay, verticalOverlay] := by
  rw [C28_overlay, C28_overlay]; decide +kernel

/-- C28: with a variation selector, the selector directly follows the base character and
negation always uses the combining character. -/
theorem C28_overlay_vs (c : Char) (v : Fin 15) (os : List OverlayChar) :
    overlaid (SuperChar.fromCharWithVs c v) os =
      [c, Char.ofNat (vsCode v.val)] ++
      (if OverlayChar.solidus ∈ os then [solidusOverlay] else []) ++
      (if OverlayChar.verticalLine ∈ os then [verticalOverlay] else []) := by
  unfold overlaid
  rw [fromCharWithVs_eq, foldl_vs, symWord_text]
  have : VariationSelector.toChar v = Char.ofNat (vsCode v.val) := by
    simp [VariationSelector.toChar, vsCode]; congr 1; omega
  by_cases h1 : OverlayChar.solidus ∈ os <;>
    by_cases h2 : OverlayChar.verticalLine ∈ os <;>
    simp [h1, h2, solidusOverlay, verticalOverlay, this]

example : overlaid (SuperChar.fromCharWithVs '∩' 0) [.verticalLine] =
    ['∩', Char.ofNat 0xFE00, verticalOverlay] := by
  rw [C28_overlay_vs]; decide

/-- C28: the order and multiplicity of overlays do not matter, not even for the internal
representation (so symbols that look the same are equal). -/
theorem C28_commute (s : SuperChar) (os os' : List OverlayChar)
    (hs : (∃ c, s = SuperChar.fromChar c) ∨ ∃ c v, s = SuperChar.fromCharWithVs c v)
    (h : ∀ o, o ∈ os ↔ o ∈ os') :
    os.foldl SuperChar.withOverlay s = os'.foldl SuperChar.withOverlay s := by
  rcases hs with ⟨c, rfl⟩ | ⟨c, v, rfl⟩
  · rw [fromChar_eq, foldl_plain os c false false (by simp),
      foldl_plain os' c false false (by simp)]
    simp only [h]
  · rw [fromCharWithVs_eq, foldl_vs, foldl_vs]
    simp only [h]

example : ∀ o, o ∈ [OverlayChar.solidus, .verticalLine, .solidus] ↔
    o ∈ [OverlayChar.verticalLine, .solidus] := by intro o; cases o <;> decide

/-- C28: a symbol counts as a single character exactly if its text is that one character. -/
theorem C28_single (s : SuperChar) (os : List OverlayChar) (ch : Char)
    (hs : (∃ c, s = SuperChar.fromChar c) ∨ ∃ c v, s = SuperChar.fromCharWithVs c v) :
    (os.foldl SuperChar.withOverlay s).tryAsChar = some ch ↔ overlaid s os = [ch] := by
  have key : ∀ c v s l, SuperChar.tryAsChar (symWord c v s l) = some ch ↔
      SuperChar.text (symWord c v s l) = [ch] := by
    intro c v s l
    rw [symWord_tryAsChar, symWord_text]
    cases v <;> cases s <;> cases l <;> simp
  unfold overlaid
  rcases hs with ⟨c, rfl⟩ | ⟨c, v, rfl⟩
  · rw [fromChar_eq, foldl_plain os c false false (by simp)]; exact key _ _ _ _
  · rw [fromCharWithVs_eq, foldl_vs]; exact key _ _ _ _

example : (SuperChar.withOverlay (SuperChar.fromChar '=') .solidus).tryAsChar = some '≠' := by
  have := (C28_single (SuperChar.fromChar '=') [.solidus] '≠' (Or.inl ⟨_, rfl⟩)).mpr
    (by rw [C28_overlay]; decide +kernel)
  exact this

/-- C29: a font command leaves a character that is not in its alphabet unchanged, and maps every
character of the alphabet to a single character (plus the selector of the script style). -/
theorem C29_unchanged (t : TextTransform) (c : Char) (upright : Bool) (hc : c.toNat ≠ 0x3A2) :
    if ((alphabetOf (if upright then uprightAlphabet t else t)).code c.toNat).isSome then
      ∃ m, SuperChar.text (transformChar t c upright) = m :: selectorOf t
    else SuperChar.text (transformChar t c upright) = [c] := by
  rw [transformChar_eq, ← mapped_isSome _ hc]
  generalize (if upright then uprightAlphabet t else t) = t'
  cases mappedCode t' c.toNat with
  | none => simp
  | some m => simp

example : SuperChar.text (transformChar .italic '+' false) = ['+'] := by
  have := C29_unchanged .italic '+' false (by decide)
  rwa [if_neg (by decide)] at this

/-- C29: the result is always a valid scalar value (the conversion in the code is unchecked). -/
theorem C29_valid (t : TextTransform) (c : Char) (m : Nat) (h : mappedCode t c.toNat = some m) :
    m.isValidChar := mapped_valid h

example : mappedCode .bold 'ω'.toNat = some 0x1D6DA := by decide

/-- C29: within an alphabet different characters stay different. -/
theorem C29_injective (t : TextTransform) (upright : Bool) (c d : Char)
    (hc : c.toNat ≠ 0x3A2) (hd : d.toNat ≠ 0x3A2)
    (mc : ((alphabetOf (if upright then uprightAlphabet t else t)).code c.toNat).isSome)
    (md : ((alphabetOf (if upright then uprightAlphabet t else t)).code d.toNat).isSome)
    (h : transformChar t c upright = transformChar t d upright) : c = d := by
  have h' := congrArg SuperChar.text h
  rw [transformChar_eq, transformChar_eq] at h'
  rw [← mapped_isSome _ hc] at mc
  rw [← mapped_isSome _ hd] at md
  generalize (if upright then uprightAlphabet t else t) = t' at *
  obtain ⟨x, hx⟩ := Option.isSome_iff_exists.mp mc
  obtain ⟨y, hy⟩ := Option.isSome_iff_exists.mp md
  rw [hx, hy] at h'
  simp only [List.cons.injEq, and_true] at h'
  have := congrArg Char.toNat h'
  rw [ofNat_toNat_valid (mapped_valid hx), ofNat_toNat_valid (mapped_valid hy)] at this
  subst this
  exact Char.ext (UInt32.toNat.inj (mapped_inj hc hd hx hy))

example : ((alphabetOf .doubleStruck).code 'C'.toNat).isSome ∧
    ((alphabetOf .doubleStruck).code 'γ'.toNat).isSome := by decide

/-- C29, limitation: the unassigned code point U+03A2 is mapped like ϴ. -/
theorem C29_unassigned :
    transformChar .bold (Char.ofNat 0x3A2) false = transformChar .bold 'ϴ' false ∧
    Char.ofNat 0x3A2 ≠ 'ϴ' := by decide

/-- C29: a symbol that already carries overlays or a selector is left unchanged. -/
theorem C29_composite (t : TextTransform) (s : SuperChar) (upright : Bool)
    (h : s.tryAsChar = none) : transform t s upright = s := by
  unfold transform; rw [h]

example : (SuperChar.fromCharWithVs 'x' 3).tryAsChar = none := by decide

/-- C40, except for `\mathfrak{I}` (see `C40_fraktur_I`): a font command maps every character to
its code point in the Unicode alphabet if it has one there (followed by the selector of the
script style), and leaves every other character unchanged. -/
theorem C40_unicode_partial (t : TextTransform) (c : Char) (upright : Bool)
    (hc : c.toNat ≠ 0x3A2) (hI : ¬ (t = .fraktur ∧ c = 'I')) :
    SuperChar.text (transformChar t c upright) =
      match (alphabetOf (if upright then uprightAlphabet t else t)).code c.toNat with
      | some m => Char.ofNat m :: selectorOf t
      | none => [c] := by
  have h' : ¬ ((if upright then uprightAlphabet t else t) = .fraktur ∧ c.toNat = 0x49) := by
    rintro ⟨h1, h2⟩
    apply hI
    refine ⟨?_, Char.ext (UInt32.toNat.inj h2)⟩
    cases upright <;> cases t <;> simp_all [uprightAlphabet]
  rw [transformChar_eq, mapped_eq _ hc _ h']
  rfl

example : SuperChar.text (transformChar .fraktur 'R' false) = ['ℜ'] ∧
    SuperChar.text (transformChar .doubleStruck 'A' false) = ['𝔸'] ∧
    SuperChar.text (transformChar .boldItalic 'x' true) = ['𝐱'] := by
  rw [C40_unicode_partial _ _ _ (by decide) (by decide),
    C40_unicode_partial _ _ _ (by decide) (by decide),
    C40_unicode_partial _ _ _ (by decide) (by decide)]; decide +kernel

/-- C40 fails for `\mathfrak{I}`: the code yields the double-struck ℍ (U+210D) where Unicode's
Fraktur I is ℑ (U+2111). -/
theorem C40_fraktur_I :
    SuperChar.text (transformChar .fraktur 'I' false) = ['ℍ'] ∧
    (alphabetOf .fraktur).code 'I'.toNat = some 'ℑ'.toNat := by
  rw [transformChar_eq]; decide +kernel

end Verif

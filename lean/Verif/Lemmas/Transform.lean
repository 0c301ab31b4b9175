import Verif.Spec.Alphabets
import Verif.Lemmas.SuperChar
/-! Helper lemmas about the math alphabets. -/
namespace Verif
open Model Spec

instance (P : TextTransform → Prop) [DecidablePred P] : Decidable (∀ t, P t) :=
  decidable_of_iff (P .bold ∧ P .boldFraktur ∧ P .boldItalic ∧ P .boldSansSerif ∧ P .boldScript ∧
    P .doubleStruck ∧ P .fraktur ∧ P .italic ∧ P .monospace ∧ P .sansSerif ∧
    P .sansSerifBoldItalic ∧ P .sansSerifItalic ∧ P .scriptChancery ∧ P .scriptRoundhand)
    ⟨by intro h t; cases t <;> simp_all, by intro h; simp [h]⟩

/-- The code points that some alphabet maps. -/
def interesting : List Nat :=
  List.range' 0x30 10 ++ List.range' 0x41 26 ++ List.range' 0x61 26 ++ [0x131, 0x237] ++
    List.range' 0x391 25 ++ List.range' 0x3B1 25 ++
    [0x3DC, 0x3DD, 0x3F4, 0x3F5, 0x3D1, 0x3F0, 0x3D5, 0x3F1, 0x3D6, 0x2202, 0x2207, 0x2211]

theorem mapped_inside : ∀ n ∈ interesting, ∀ t, n ≠ 0x3A2 → ¬ (t = .fraktur ∧ n = 0x49) →
    mappedCode t n = (alphabetOf t).code n := by
  decide +kernel

theorem not_interesting {n : Nat} (h : n ∉ interesting) :
    ¬ (0x30 ≤ n ∧ n ≤ 0x39) ∧ ¬ (0x41 ≤ n ∧ n ≤ 0x5A) ∧ ¬ (0x61 ≤ n ∧ n ≤ 0x7A) ∧
    n ≠ 0x131 ∧ n ≠ 0x237 ∧ ¬ (0x391 ≤ n ∧ n ≤ 0x3A9) ∧ ¬ (0x3B1 ≤ n ∧ n ≤ 0x3C9) ∧
    n ≠ 0x3DC ∧ n ≠ 0x3DD ∧ n ≠ 0x3F4 ∧ n ≠ 0x3F5 ∧ n ≠ 0x3D1 ∧ n ≠ 0x3F0 ∧ n ≠ 0x3D5 ∧
    n ≠ 0x3F1 ∧ n ≠ 0x3D6 ∧ n ≠ 0x2202 ∧ n ≠ 0x2207 ∧ n ≠ 0x2211 := by
  unfold interesting at h
  simp only [List.mem_append, List.mem_range'_1, List.mem_cons, List.not_mem_nil, or_false,
    not_or] at h
  omega

theorem mapped_outside {n : Nat} (h : n ∉ interesting) (t : TextTransform) :
    mappedCode t n = none := by
  obtain ⟨h1, h2, h3, h4, h5, h6, h7, h8, h9, h10, h11, h12, h13, h14, h15, h16, h17, h18, h19⟩ :=
    not_interesting h
  cases t <;> unfold mappedCode <;>
    simp only [Bool.or_eq_true, Bool.and_eq_true, decide_eq_true_eq, beq_iff_eq] <;>
    repeat' first | rw [if_neg (by omega)] | rfl

theorem code_outside {n : Nat} (h : n ∉ interesting) (t : TextTransform) :
    (alphabetOf t).code n = none := by
  obtain ⟨h1, h2, h3, h4, h5, h6, h7, h8, h9, h10, h11, h12, h13, h14, h15, h16, h17, h18, h19⟩ :=
    not_interesting h
  have hg : greekIndex n = none := by
    unfold greekIndex
    repeat' first | rw [if_neg (by omega)] | rfl
  unfold Alphabet.code
  simp only [if_neg h1, if_neg h2, if_neg h3, hg]
  have he : (alphabetOf t).extra.lookup n = none := by
    apply lookup_none_of_ne
    intro p hp
    cases t <;> simp [alphabetOf] at hp
    all_goals
      rcases hp with rfl | hp
      · simp; omega
      first
        | (rcases hp with rfl | hp
           · simp; omega
           rcases hp with rfl | rfl | rfl <;> simp <;> omega)
        | (subst hp; simp; omega)
  rw [he]
  cases (alphabetOf t).greek <;> rfl

theorem mapped_eq (n : Nat) (h : n ≠ 0x3A2) (t : TextTransform)
    (h' : ¬ (t = .fraktur ∧ n = 0x49)) : mappedCode t n = (alphabetOf t).code n := by
  by_cases hi : n ∈ interesting
  · exact mapped_inside n hi t h h'
  · rw [mapped_outside hi, code_outside hi]

theorem mapped_isSome (n : Nat) (h : n ≠ 0x3A2) (t : TextTransform) :
    (mappedCode t n).isSome = ((alphabetOf t).code n).isSome := by
  by_cases h' : t = .fraktur ∧ n = 0x49
  · obtain ⟨rfl, rfl⟩ := h'; decide
  · rw [mapped_eq n h t h']

theorem mapped_valid_inside : ∀ n ∈ interesting, ∀ t, ∀ m ∈ mappedCode t n,
    m.isValidChar := by
  decide +kernel

theorem mapped_valid {n m : Nat} {t : TextTransform} (h : mappedCode t n = some m) :
    m.isValidChar := by
  by_cases hi : n ∈ interesting
  · exact mapped_valid_inside n hi t m h
  · rw [mapped_outside hi] at h; simp at h

/-- The images of different positions differ. -/
theorem images_nodup : ∀ t : TextTransform,
    ((interesting.filter (· != 0x3A2)).filterMap (mappedCode t)).Nodup := by
  decide +kernel

theorem filterMap_nodup_inj {α β : Type} {f : α → Option β} {xs : List α}
    (h : (xs.filterMap f).Nodup) {a b : α} (ha : a ∈ xs) (hb : b ∈ xs) {y : β}
    (hfa : f a = some y) (hfb : f b = some y) : a = b := by
  induction xs with
  | nil => simp at ha
  | cons x xs ih =>
    rw [List.filterMap_cons] at h
    have key : ∀ z ∈ xs, f z = some y → f x ≠ some y := by
      intro z hz hfz hfx
      rw [hfx] at h
      simp only [List.nodup_cons, List.mem_filterMap, not_exists, not_and] at h
      exact h.1 z hz hfz
    have h' : (xs.filterMap f).Nodup := by
      split at h
      · exact h
      · exact (List.nodup_cons.mp h).2
    simp only [List.mem_cons] at ha hb
    rcases ha with rfl | ha <;> rcases hb with rfl | hb
    · rfl
    · exact absurd hfa (key b hb hfb)
    · exact absurd hfb (key a ha hfa)
    · exact ih h' ha hb

theorem mapped_inj {n k m : Nat} {t : TextTransform} (hn : n ≠ 0x3A2) (hk : k ≠ 0x3A2)
    (h1 : mappedCode t n = some m) (h2 : mappedCode t k = some m) : n = k := by
  have hin : n ∈ interesting := by
    apply Decidable.byContradiction; intro h; rw [mapped_outside h] at h1; simp at h1
  have hik : k ∈ interesting := by
    apply Decidable.byContradiction; intro h; rw [mapped_outside h] at h2; simp at h2
  exact filterMap_nodup_inj (images_nodup t) (by simp [hin, hn]) (by simp [hik, hk]) h1 h2

theorem ofNat_toNat_valid {m : Nat} (h : m.isValidChar) : (Char.ofNat m).toNat = m := by
  unfold Char.ofNat
  rw [dif_pos h]
  simp [Char.ofNatAux, Char.toNat]

theorem transformChar_eq (t : TextTransform) (c : Char) (up : Bool) :
    SuperChar.text (transformChar t c up) =
      match mappedCode (if up then uprightAlphabet t else t) c.toNat with
      | some m => Char.ofNat m :: selectorOf t
      | none => [c] := by
  have e : (if up && (t == .boldItalic) then TextTransform.bold else t) =
      (if up then uprightAlphabet t else t) := by
    cases up <;> cases t <;> rfl
  have es : selectorOf t = selectorOf (if up then uprightAlphabet t else t) := by
    cases up <;> cases t <;> rfl
  unfold transformChar
  rw [e, es]
  generalize (if up then uprightAlphabet t else t) = t'
  simp only
  cases mappedCode t' c.toNat with
  | none => simp only [fromChar_eq, symWord_text]; rfl
  | some m =>
    cases t' <;> simp only [fromChar_eq, fromCharWithVs_eq, symWord_text] <;> rfl

end Verif

import Verif.Lemmas.Numbers
import Verif.Spec.Columns
/-! Helper lemmas about lengths and column specifications. -/
namespace Verif
open Model Spec

theorem dropWhile_append_of_all {p : Char → Bool} (ws rest : Str) (h : ∀ c ∈ ws, p c = true) :
    (ws ++ rest).dropWhile p = rest.dropWhile p := by
  induction ws with
  | nil => rfl
  | cons c cs ih =>
    simp only [List.cons_append, List.dropWhile_cons, h c (by simp), if_true]
    exact ih (fun c hc => h c (by simp [hc]))

theorem trimAsciiEnd_spec (s : Str) :
    ∃ ws, s = trimAsciiEnd s ++ ws ∧ ∀ c ∈ ws, isAsciiWs c = true := by
  refine ⟨(s.reverse.takeWhile isAsciiWs).reverse, ?_, ?_⟩
  · rw [trimAsciiEnd, ← List.reverse_append, List.takeWhile_append_dropWhile, List.reverse_reverse]
  · intro c hc
    simp only [List.mem_reverse] at hc
    exact List.all_eq_true.mp (List.all_takeWhile (p := isAsciiWs) (l := s.reverse)) c hc

theorem trimAsciiEnd_append (num ws : Str) (hws : ∀ c ∈ ws, isAsciiWs c = true)
    (hnum : ∀ c, num.getLast? = some c → isAsciiWs c = false) : trimAsciiEnd (num ++ ws) = num := by
  rw [trimAsciiEnd, List.reverse_append, dropWhile_append_of_all]
  · cases h : num.reverse with
    | nil => simpa using h.symm
    | cons c cs =>
      have : num.getLast? = some c := by rw [← List.head?_reverse, h]; rfl
      rw [List.dropWhile_cons, hnum c this, ← h]; simp
  · intro c hc; exact hws c (by simpa using hc)

theorem isDecimal_last {s : Str} {neg : Bool} {m k : Nat} (h : IsDecimal s neg m k) :
    ∀ c, s.getLast? = some c → isAsciiWs c = false := by
  obtain ⟨int, frac, h1, h2, h3, h4, -, -⟩ := h
  intro c hc
  rcases h3 with rfl | ⟨rfl, rfl⟩
  · cases hf : frac.getLast? with
    | none =>
      rw [List.getLast?_eq_none_iff] at hf; subst hf
      rw [List.getLast?_append] at hc
      simp at hc; subst hc; decide
    | some d =>
      have hd : d ∈ frac := List.mem_of_getLast? hf
      rw [List.getLast?_append] at hc
      rw [List.getLast?_cons] at hc
      simp only [hf, Option.getD_some, Option.some_or, Option.some.injEq] at hc
      subst hc
      exact isDigit_not_ws (h2 d hd)
  · simp only [List.append_nil] at h4
    cases hi : int.getLast? with
    | none => rw [List.getLast?_eq_none_iff] at hi; exact absurd hi h4
    | some d =>
      have hd : d ∈ int := List.mem_of_getLast? hi
      rw [List.getLast?_append] at hc
      simp only [hi, Option.some_or, Option.some.injEq] at hc
      subst hc
      exact isDigit_not_ws (h1 d hd)

theorem ofStr_iff (s : Str) (u : LatexUnit) :
    LatexUnit.ofStr s = some u ↔ s.map lowerAscii = unitName u := by
  unfold LatexUnit.ofStr
  constructor
  · intro h
    split at h <;> simp at h <;> subst h <;> assumption
  · intro h
    rw [h]; cases u <;> rfl

theorem lowerAscii_size (c : Char) (h : (lowerAscii c).toNat < 128) : c.utf8Size = 1 := by
  rw [Char.utf8Size_eq_one_iff]
  simp only [lowerAscii] at h
  split at h
  · rename_i h1
    have := h1.2
    rw [Char.le_def] at this
    have h3 : ('Z').val = 90 := rfl
    rw [h3] at this
    exact UInt32.le_trans this (by decide)
  · rw [UInt32.le_iff_toNat_le]
    have : c.toNat = c.val.toNat := rfl
    rw [this] at h
    simp; omega

theorem unit_blen {s : Str} {u : LatexUnit} (h : s.map lowerAscii = unitName u) : blen s = 2 := by
  have hl : s.length = 2 := by
    have := congrArg List.length h
    rw [List.length_map] at this; rw [this]; cases u <;> rfl
  match s, hl with
  | [a, b], _ =>
    have ha : (lowerAscii a).toNat < 128 ∧ (lowerAscii b).toNat < 128 := by
      cases u <;> simp [unitName] at h <;> rw [h.1, h.2] <;> decide
    simp [lowerAscii_size a ha.1, lowerAscii_size b ha.2]

theorem parseLength_iff (s : Str) (v : Dec) (u : LatexUnit) (unit : Str) (mu : Bool) :
    parseLengthSpecification s = some (v, u, unit, mu) ↔
      ∃ num ws, s = num ++ ws ++ unit ∧ (∀ c ∈ ws, isAsciiWs c = true) ∧
        limitedFloatParse num = some v ∧ unit.map lowerAscii = unitName u ∧ mu = u.isMathUnit := by
  unfold parseLengthSpecification
  constructor
  · intro h
    split at h
    · simp at h
    split at h
    · simp at h
    rename_i digits unit' hs
    split at h
    · simp at h
    rename_i value hv
    split at h
    · simp at h
    rename_i u' hu
    simp only [Option.some.injEq, Prod.mk.injEq] at h
    obtain ⟨rfl, rfl, rfl, rfl⟩ := h
    obtain ⟨ws, h1, h2⟩ := trimAsciiEnd_spec digits
    refine ⟨_, ws, ?_, h2, hv, (ofStr_iff _ _).1 hu, rfl⟩
    rw [← h1]; exact (splitAtByte_some hs).1
  · rintro ⟨num, ws, rfl, hws, hv, hu, rfl⟩
    have hb := unit_blen hu
    have hbl : blen (num ++ ws ++ unit) = blen (num ++ ws) + 2 := by rw [blen_append, hb]
    rw [if_neg (by omega), hbl, Nat.add_sub_cancel, splitAtByte_append]
    obtain ⟨neg, m, k⟩ := v
    have hd := (limitedFloatParse_iff num neg m k).1 hv
    simp only [trimAsciiEnd_append num ws hws (isDecimal_last hd.1), hv, (ofStr_iff _ _).2 hu]

end Verif

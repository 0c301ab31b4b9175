import Verif.Model.Atof
import Verif.Spec.Text
/-! Helper lemmas about numbers, lengths. -/
namespace Verif
open Model Spec

theorem isAsciiDigit_eq (c : Char) : isAsciiDigit c = c.isDigit := by
  have h : ∀ a b : Char, decide (a ≤ b) = decide (a.val ≤ b.val) := by
    intro a b; simp only [Char.le_def]
  simp only [isAsciiDigit, Char.isDigit, h, ge_iff_le]

theorem isDigit_ne_dot {c : Char} (h : c.isDigit = true) : c ≠ '.' ∧ c ≠ '-' := by
  constructor <;> rintro rfl <;> revert h <;> decide

theorem isDigit_not_ws {c : Char} (h : c.isDigit = true) : isAsciiWs c = false := by
  simp only [isAsciiWs, Bool.or_eq_false_iff, beq_eq_false_iff_ne, ne_eq]
  refine ⟨⟨⟨⟨?_, ?_⟩, ?_⟩, ?_⟩, ?_⟩ <;> rintro rfl <;> revert h <;> decide

theorem ofDigitChars_ge (cs : Str) (m : Nat) : m ≤ Nat.ofDigitChars 10 cs m := by
  induction cs generalizing m with
  | nil => simp
  | cons c cs ih => rw [Nat.ofDigitChars_cons]; have := ih (10 * m + (c.toNat - '0'.toNat)); omega

theorem digit_step (c : Char) (m : Nat) : 10 * m + (c.toNat - '0'.toNat) = m * 10 + (c.toNat - 48) := by
  rw [show '0'.toNat = 48 from rfl]; omega

/-- Behind the dot. -/
theorem floatLoop_dot (bs : Str) (m k : Nat) (dig : Bool) (r : Nat × Nat × Bool) (hm : m ≤ u64Max) :
    floatLoop bs m k true dig = some r ↔
      (∀ c ∈ bs, c.isDigit = true) ∧ Nat.ofDigitChars 10 bs m ≤ u64Max ∧
        r = (Nat.ofDigitChars 10 bs m, k + bs.length, dig || !bs.isEmpty) := by
  induction bs generalizing m k dig with
  | nil =>
    simp only [floatLoop, Option.some.injEq, List.not_mem_nil, false_implies, implies_true,
      Nat.ofDigitChars_nil, hm, true_and, List.length_nil, Nat.add_zero, List.isEmpty_nil,
      Bool.not_true, Bool.or_false]
    exact eq_comm
  | cons b bs ih =>
    simp only [floatLoop, isAsciiDigit_eq, beq_iff_eq, if_true]
    split
    · rename_i h; subst h
      simp
    split
    · rename_i h1 h2
      have hge := ofDigitChars_ge bs (10 * m + (b.toNat - '0'.toNat))
      rw [Nat.ofDigitChars_cons, digit_step] at *
      split
      · split
        · rename_i h3 h4
          rw [ih _ _ _ h4]
          simp [h2, Nat.add_comm, Nat.add_left_comm]
        · simp; intro _ _; omega
      · simp; intro _ _; omega
    · rename_i h1 h2
      simp [h2]

/-- Before the dot. -/
theorem floatLoop_int (bs : Str) (m : Nat) (dig : Bool) (r : Nat × Nat × Bool) (hm : m ≤ u64Max) :
    floatLoop bs m 0 false dig = some r ↔
      ∃ int frac : Str, (∀ c ∈ int, c.isDigit = true) ∧ (∀ c ∈ frac, c.isDigit = true) ∧
        (bs = int ++ '.' :: frac ∨ (frac = [] ∧ bs = int)) ∧
        Nat.ofDigitChars 10 (int ++ frac) m ≤ u64Max ∧
        r = (Nat.ofDigitChars 10 (int ++ frac) m, frac.length, dig || !(int ++ frac).isEmpty) := by
  induction bs generalizing m dig with
  | nil =>
    simp only [floatLoop, Option.some.injEq]
    constructor
    · rintro rfl; exact ⟨[], [], by simp, by simp, by simp, by simpa using hm, by simp⟩
    · rintro ⟨int, frac, -, -, h, -, rfl⟩
      rcases h with h | ⟨rfl, h⟩
      · simp at h
      · simp [← h]
  | cons b bs ih =>
    simp only [floatLoop, isAsciiDigit_eq, beq_iff_eq]
    by_cases hdot : b = '.'
    · subst hdot
      rw [if_pos rfl]
      simp only [Bool.false_eq_true, if_false]
      rw [floatLoop_dot _ _ _ _ _ hm]
      constructor
      · rintro ⟨h1, h2, rfl⟩
        exact ⟨[], bs, by simp, h1, Or.inl rfl, by simpa using h2, by simp⟩
      · rintro ⟨int, frac, h1, h2, h3, h4, rfl⟩
        have hint : int = [] ∧ bs = frac := by
          rcases h3 with h | ⟨rfl, h⟩
          · cases int with
            | nil => simpa using h
            | cons i is =>
              simp only [List.cons_append, List.cons.injEq] at h
              exact absurd (h.1 ▸ h1 i (by simp)) (by decide)
          · cases int with
            | nil => simp at h
            | cons i is =>
              simp only [List.cons.injEq] at h
              exact absurd (h.1 ▸ h1 i (by simp)) (by decide)
        obtain ⟨rfl, rfl⟩ := hint
        refine ⟨h2, by simpa using h4, by simp⟩
    · rw [if_neg hdot]
      by_cases hd : b.isDigit = true
      · rw [if_pos hd]
        have key : ∀ int frac : Str, Nat.ofDigitChars 10 ((b :: int) ++ frac) m =
            Nat.ofDigitChars 10 (int ++ frac) (m * 10 + (b.toNat - 48)) := by
          intro int frac
          rw [List.cons_append, Nat.ofDigitChars_cons, digit_step]
        have hrhs : (∃ int frac : Str, (∀ c ∈ int, c.isDigit = true) ∧ (∀ c ∈ frac, c.isDigit = true) ∧
            (b :: bs = int ++ '.' :: frac ∨ (frac = [] ∧ b :: bs = int)) ∧
            Nat.ofDigitChars 10 (int ++ frac) m ≤ u64Max ∧
            r = (Nat.ofDigitChars 10 (int ++ frac) m, frac.length, dig || !(int ++ frac).isEmpty)) ↔
            (∃ int frac : Str, (∀ c ∈ int, c.isDigit = true) ∧ (∀ c ∈ frac, c.isDigit = true) ∧
            (bs = int ++ '.' :: frac ∨ (frac = [] ∧ bs = int)) ∧
            Nat.ofDigitChars 10 (int ++ frac) (m * 10 + (b.toNat - 48)) ≤ u64Max ∧
            r = (Nat.ofDigitChars 10 (int ++ frac) (m * 10 + (b.toNat - 48)), frac.length,
              true || !(int ++ frac).isEmpty)) := by
          constructor
          · rintro ⟨int, frac, h1, h2, h3, h4, h5⟩
            cases int with
            | nil =>
              rcases h3 with h | ⟨rfl, h⟩
              · simp at h; exact absurd h.1 hdot
              · simp at h
            | cons i is =>
              have hi : i = b := by
                rcases h3 with h | ⟨_, h⟩ <;> simp at h <;> exact h.1.symm
              subst hi
              rw [key] at h4 h5
              refine ⟨is, frac, fun c hc => h1 c (by simp [hc]), h2, ?_, h4, by simpa using h5⟩
              rcases h3 with h | ⟨h, h'⟩
              · left; simpa using h
              · right; exact ⟨h, by simpa using h'⟩
          · rintro ⟨int, frac, h1, h2, h3, h4, h5⟩
            refine ⟨b :: int, frac, ?_, h2, ?_, ?_, ?_⟩
            · intro c hc
              simp only [List.mem_cons] at hc
              rcases hc with rfl | hc
              · exact hd
              · exact h1 c hc
            · rcases h3 with rfl | ⟨rfl, rfl⟩
              · left; rfl
              · right; exact ⟨rfl, rfl⟩
            · rw [key]; exact h4
            · rw [key]; simpa using h5
        rw [hrhs]
        split
        · split
          · rename_i h3 h4
            exact ih _ _ h4
          · rename_i h3 h4
            simp only [reduceCtorEq, false_iff, not_exists, not_and]
            intro int frac _ _ _ h5
            have := ofDigitChars_ge (int ++ frac) (m * 10 + (b.toNat - 48))
            omega
        · rename_i h3
          simp only [reduceCtorEq, false_iff, not_exists, not_and]
          intro int frac _ _ _ h5
          have := ofDigitChars_ge (int ++ frac) (m * 10 + (b.toNat - 48))
          omega
      · rw [if_neg hd]
        simp only [reduceCtorEq, false_iff, not_exists, not_and]
        intro int frac h1 h2 h3
        exfalso
        cases int with
        | nil =>
          rcases h3 with h | ⟨rfl, h⟩
          · simp at h; exact hdot h.1
          · simp at h
        | cons i is =>
          have hi : i = b := by
            rcases h3 with h | ⟨_, h⟩ <;> simp at h <;> exact h.1.symm
          exact hd (hi ▸ h1 i (by simp))

theorem limitedFloatParse_iff (s : Str) (neg : Bool) (m k : Nat) :
    limitedFloatParse s = some ⟨neg, m, k⟩ ↔ IsDecimal s neg m k ∧ m < 2 ^ 64 := by
  have aux : ∀ (bytes : Str) (neg' : Bool),
      ((match floatLoop bytes 0 0 false false with
        | none => none
        | some (m, k, seenDigit) => if seenDigit then some (⟨neg', m, k⟩ : Dec) else none) =
          some ⟨neg, m, k⟩ ↔ neg' = neg ∧ floatLoop bytes 0 0 false false = some (m, k, true)) := by
    intro bytes neg'
    cases h : floatLoop bytes 0 0 false false with
    | none => simp
    | some r =>
      obtain ⟨a, b, c⟩ := r
      cases c <;> simp
  have hz : (0 : Nat) ≤ u64Max := by decide
  have u : ∀ m : Nat, m ≤ u64Max ↔ m < 2 ^ 64 := by intro m; simp only [u64Max]; omega
  have mk : ∀ bytes : Str, floatLoop bytes 0 0 false false = some (m, k, true) ↔
      (∃ int frac : Str, (∀ c ∈ int, c.isDigit = true) ∧ (∀ c ∈ frac, c.isDigit = true) ∧
        (bytes = int ++ '.' :: frac ∨ (frac = [] ∧ bytes = int)) ∧
        int ++ frac ≠ [] ∧ m = digitsValue (int ++ frac) ∧ k = frac.length) ∧ m < 2 ^ 64 := by
    intro bytes
    rw [floatLoop_int _ _ _ _ hz]
    constructor
    · rintro ⟨int, frac, h1, h2, h3, h4, h5⟩
      simp only [Prod.mk.injEq, Bool.false_or] at h5
      obtain ⟨rfl, rfl, h5⟩ := h5
      refine ⟨⟨int, frac, h1, h2, h3, ?_, rfl, rfl⟩, (u _).1 h4⟩
      intro h; rw [h] at h5; simp at h5
    · rintro ⟨⟨int, frac, h1, h2, h3, h4, rfl, rfl⟩, h5⟩
      refine ⟨int, frac, h1, h2, h3, (u _).2 h5, ?_⟩
      simp only [digitsValue, Prod.mk.injEq, true_and, Bool.false_or]
      cases hh : int ++ frac with
      | nil => exact absurd hh h4
      | cons _ _ => rfl
  refine (aux (stripMinus s).2 (stripMinus s).1).trans ?_
  rw [mk]
  unfold stripMinus
  split
  · rename_i rest
    simp only
    constructor
    · rintro ⟨rfl, ⟨int, frac, h1, h2, h3, h4, h5, h6⟩, h7⟩
      refine ⟨⟨int, frac, h1, h2, ?_, h4, h5, h6⟩, h7⟩
      rcases h3 with rfl | ⟨rfl, rfl⟩
      · left; simp
      · right; simp
    · rintro ⟨⟨int, frac, h1, h2, h3, h4, h5, h6⟩, h7⟩
      cases neg with
      | false =>
        exfalso
        simp only [Bool.false_eq_true, if_false, List.nil_append] at h3
        cases int with
        | nil =>
          rcases h3 with h | ⟨rfl, h⟩ <;> simp at h
        | cons i is =>
          have hi : i = '-' := by
            rcases h3 with h | ⟨_, h⟩ <;> simp at h <;> exact h.1.symm
          exact absurd (hi ▸ h1 i (by simp)) (by decide)
      | true =>
        refine ⟨rfl, ⟨int, frac, h1, h2, ?_, h4, h5, h6⟩, h7⟩
        simpa using h3
  · rename_i hne
    simp only
    constructor
    · rintro ⟨rfl, ⟨int, frac, h1, h2, h3, h4, h5, h6⟩, h7⟩
      exact ⟨⟨int, frac, h1, h2, by simpa using h3, h4, h5, h6⟩, h7⟩
    · rintro ⟨⟨int, frac, h1, h2, h3, h4, h5, h6⟩, h7⟩
      cases neg with
      | true =>
        exfalso
        rcases h3 with h | ⟨_, h⟩
        · exact hne (int ++ '.' :: frac) (by simpa using h)
        · exact hne int (by simpa using h)
      | false => exact ⟨rfl, ⟨int, frac, h1, h2, by simpa using h3, h4, h5, h6⟩, h7⟩

end Verif

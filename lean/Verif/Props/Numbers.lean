import Verif.Lemmas.Lengths
import Verif.Model.Attrs
/-! Property C27. -/
namespace Verif
open Model Spec

/-- C27: a number is accepted exactly if it is a decimal number whose digits fit into 64 bits; sign,
digits and position of the dot are those written. -/
theorem C27_number (s : Str) (neg : Bool) (m k : Nat) :
    limitedFloatParse s = some ⟨neg, m, k⟩ ↔ IsDecimal s neg m k ∧ m < 2 ^ 64 :=
  limitedFloatParse_iff s neg m k

/-- The largest accepted number and the first rejected one. -/
example : limitedFloatParse c!"-18446744073709551.615" = some ⟨true, 18446744073709551615, 3⟩ ∧
    limitedFloatParse c!"18446744073709551616" = none := by decide

example : IsDecimal c!"-0.50" true 50 2 :=
  ⟨c!"0", c!"50", by decide, by decide, by decide, by decide, by decide, by decide⟩

/-- C27: a length is accepted exactly if it is such a number, optional ASCII whitespace and one of
the eight units in any mix of upper and lower case; the reported unit is the one written, and
only `mu` is a math unit. -/
theorem C27_length (s : Str) (neg : Bool) (m k : Nat) (u : LatexUnit) (unit : Str) (mu : Bool) :
    parseLengthSpecification s = some (⟨neg, m, k⟩, u, unit, mu) ↔
      ∃ num ws, s = num ++ ws ++ unit ∧ (∀ c ∈ ws, isAsciiWs c = true) ∧
        IsDecimal num neg m k ∧ m < 2 ^ 64 ∧
        unit.map lowerAscii = unitName u ∧ (mu = true ↔ u = .mu) := by
  rw [parseLength_iff]
  have e : mu = u.isMathUnit ↔ (mu = true ↔ u = .mu) := by
    cases u <;> cases mu <;> decide
  simp only [limitedFloatParse_iff, e, and_assoc]

example : parseLengthSpecification c!"-1.5 eM" = some (⟨true, 15, 1⟩, .em, c!"eM", false) := by
  decide

/-- C27: the unit names are exactly the eight LaTeX units. -/
theorem C27_units (unit : Str) :
    (∃ u, unit.map lowerAscii = unitName u) ↔ unit.map lowerAscii ∈ unitNames := by
  constructor
  · rintro ⟨u, h⟩; rw [h]; cases u <;> decide
  · intro h
    simp only [unitNames, List.mem_cons, List.not_mem_nil, or_false] at h
    rcases h with h | h | h | h | h | h | h | h
    · exact ⟨.pt, h⟩
    · exact ⟨.mm, h⟩
    · exact ⟨.cm, h⟩
    · exact ⟨.inch, h⟩
    · exact ⟨.ex, h⟩
    · exact ⟨.em, h⟩
    · exact ⟨.mu, h⟩
    · exact ⟨.sp, h⟩

example : parseLengthSpecification c!"1é" = none ∧ parseLengthSpecification c!"3kg" = none := by
  decide

/-- The length of a TeX unit in TeX points (or ems), as in The TeXbook, chapter 10. -/
def texUnit : LatexUnit → Rat
  | .pt => 1
  | .mm => 7227 / 2540
  | .cm => 7227 / 254
  | .inch => 7227 / 100
  | .sp => 1 / 65536
  | .ex => 1
  | .em => 1
  | .mu => 1 / 18
/-- Units which do not depend on the font. -/
def absolute : LatexUnit → Bool
  | .ex | .em | .mu => false
  | _ => true

/-- C27: a length has the size it has in TeX, with ten points for one `rem`, up to the rounding of the
conversion factors (0.4 per cent for inches, less for the others). Rounding to `f32` is not
modelled. -/
theorem C27_unit_lengths (u : LatexUnit) (v : Rat) :
    ∃ k : Rat, 996 / 1000 ≤ k ∧ k ≤ 1001 / 1000 ∧
      u.lengthWithUnit v =
        ⟨some (k * (v * texUnit u / (if absolute u then 10 else 1))),
          if absolute u then .rem else if u = .ex then .ex else .em⟩ := by
  cases u
  case mm =>
    refine ⟨28453 / 100000 / (7227 / 2540 / 10), by decide +kernel, by decide +kernel, ?_⟩
    simp [LatexUnit.lengthWithUnit, LatexUnit.factor, texUnit, absolute]
    grind
  case pt =>
    refine ⟨1, by decide +kernel, by decide +kernel, ?_⟩
    simp [LatexUnit.lengthWithUnit, LatexUnit.factor, texUnit, absolute]
    try grind
  case cm =>
    refine ⟨28453 / 10000 / (7227 / 254 / 10), by decide +kernel, by decide +kernel, ?_⟩
    simp [LatexUnit.lengthWithUnit, LatexUnit.factor, texUnit, absolute]
    try grind
  case inch =>
    refine ⟨72 / 10 / (7227 / 100 / 10), by decide +kernel, by decide +kernel, ?_⟩
    simp [LatexUnit.lengthWithUnit, LatexUnit.factor, texUnit, absolute]
    try grind
  case sp =>
    refine ⟨1525879 / 1000000000000 / (1 / 65536 / 10), by decide +kernel, by decide +kernel, ?_⟩
    simp [LatexUnit.lengthWithUnit, LatexUnit.factor, texUnit, absolute]
    try grind
  case ex =>
    refine ⟨1, by decide +kernel, by decide +kernel, ?_⟩
    simp [LatexUnit.lengthWithUnit, LatexUnit.factor, texUnit, absolute]
    try grind
  case em =>
    refine ⟨1, by decide +kernel, by decide +kernel, ?_⟩
    simp [LatexUnit.lengthWithUnit, LatexUnit.factor, texUnit, absolute]
    try grind
  case mu =>
    refine ⟨55555556 / 1000000000 / (1 / 18), by decide +kernel, by decide +kernel, ?_⟩
    simp [LatexUnit.lengthWithUnit, LatexUnit.factor, texUnit, absolute]
    try grind

/-- An inch is not quite 2.54 cm. -/
theorem C27_inch : LatexUnit.lengthWithUnit .inch 1 ≠ LatexUnit.lengthWithUnit .cm (254 / 100) := by
  decide +kernel

end Verif

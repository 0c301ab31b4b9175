import Verif.Spec.Grammar
/-! The end of a row, with and without a line. -/
namespace Verif
open Model Spec

/-- With or without a line -/
theorem nextRow_ok {line : Option LineType} {l : Loc} {r} (h : nextRow line l = .ok r) : lineBreak line l = .ok r := by
  unfold nextRow at h
  split at h
  · exact h
  · split at h
    · exact h
    · cases hb : lineBreak none l with
      | error e => rw [hb] at h; cases h
      | ok x => rw [hb] at h; cases h

/-- The result of `\\` -/
theorem lineBreak_ok {line : Option LineType} {l l' : Loc} {r : Class × Node} (h : lineBreak line l = .ok (r, l')) :
    r.1 = .opening ∧ (r.2 = .emptyRow ∨ ∃ i, r.2 = .rowSeparator i line) := by
  unfold lineBreak at h
  split at h
  · cases h; exact ⟨rfl, Or.inl rfl⟩
  · split at h
    · cases h; exact ⟨rfl, Or.inr ⟨_, rfl⟩⟩
    · split at h
      · cases h
      · rename_i n _ _
        cases hr : endRow { n with numRows := n.numRows.map (· + 1) } false l with
        | error e => rw [hr] at h; cases h
        | ok x => rw [hr] at h; cases h; exact ⟨rfl, Or.inr ⟨_, rfl⟩⟩

end Verif

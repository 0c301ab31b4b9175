import Verif.Lemmas.NestLogic
/-! What the functions of the parser read which do not recurse. -/
namespace Verif
open Model Spec Lexer' TokenQueue

/-! ### Tokens which change nothing -/

theorem idle_fullStop {t : Token} (h : t.isFullStop = true) : idle t.unwrapMath = true := by
  unfold Token.isFullStop at h
  split at h
  · rfl
  · cases h

theorem idle_merged {tf} {t : Token} {c} (h : mergedChar tf t = some c) : idle t.unwrapMath = true := by
  unfold mergedChar at h
  split at h <;> first | rfl | cases h

theorem fit_wrapped {t : Token} {c} (h : fit (.mathOrTextMode t c) = true) (hc : c ≠ '…') : idle t = true := by
  simp only [fit, Bool.and_eq_true, Bool.or_eq_true, beq_iff_eq] at h
  rw [Judg.idle_iff]
  exact ⟨h.2.resolve_right hc, h.1.2.1⟩

theorem idle_sign {t tok : Token} {c} (ht : tok = .mathOrTextMode t c) (hc : c = '+' ∨ c = '-') (hf : fit tok = true) :
    idle tok.unwrapMath = true := by
  subst ht
  exact fit_wrapped hf (by rcases hc with rfl | rfl <;> decide)

theorem idle_kern {t : Token} {c} (h : kernChar t = some c) (hf : fit t = true) : idle t.unwrapMath = true := by
  unfold kernChar at h
  split at h
  · rfl
  · split at h
    · rename_i hc
      subst hc
      exact fit_wrapped hf (by decide)
    · cases h
  · split at h
    · rename_i hx; exact idle_fullStop hx
    · cases h

theorem idle_unit {t : Token} {c} (h : unitChar t = some c) : idle t.unwrapMath = true := by
  unfold unitChar at h
  split at h
  · rfl
  · cases h

theorem unit_not_ws {t : Token} {c} (h : unitChar t = some c) : t.isWs = false := by
  unfold unitChar at h
  split at h
  · rfl
  · cases h

theorem kern_not_ws {t : Token} {c} (h : kernChar t = some c) : t.isWs = false := by
  unfold kernChar at h
  split at h
  · rfl
  · rfl
  · split at h
    · rename_i hx
      unfold Token.isFullStop at hx
      split at hx
      · rfl
      · cases hx
    · cases h

theorem idle_delimiter {t : Token} {d} (h : t.delimiter = some d) : idle t = true := by
  unfold Token.delimiter at h
  split at h <;> first | rfl | cases h

theorem idle_squareOpen {t : Token} (h : t.isSquareOpen = true) : idle t = true := by
  cases t <;> first | rfl | cases h
theorem idle_squareOpen' {t : Token} (h : t.isSquareOpen = true) : idle t.unwrapMath = true := by
  cases t <;> first | rfl | cases h
theorem idle_squareClose {t : Token} (h : t.isSquareClose = true) : idle t = true := by
  cases t <;> first | rfl | cases h
theorem idle_fullStop' {t : Token} (h : t.isFullStop = true) : idle t = true := by
  unfold Token.isFullStop at h
  split at h
  · rfl
  · cases h

/-- The token at hand changes nothing. -/
macro "quietly" : tactic => `(tactic| first
  | (intro _; with_unfolding_all rfl)
  | (intro _; (try simp only [‹Token.unwrapMath _ = _›]); (try simp only [‹TokSpan.tok _ = _›]); with_unfolding_all rfl)
  | (intro _; exact idle_fullStop ‹_›)
  | (intro _; exact idle_fullStop' ‹_›)
  | (intro _; exact idle_squareOpen ‹_›)
  | (intro _; exact idle_squareOpen' ‹_›)
  | (intro _; exact idle_squareClose ‹_›)
  | (intro _; exact idle_merged ‹_›)
  | (intro _; exact idle_unit ‹_›)
  | (exact idle_kern ‹_›)
  | (exact idle_sign ‹_› ‹_›)
  | (intro _; exact idle_delimiter ‹_›))

theorem Judg.delimiter_bind {β : Type} {any : Bool} {t : TokSpan} {loc} {f : StretchableOp → P β}
    (hf : ∀ d, Judg any From (f d)) : Judg any (After t.tok) (extractDelimiter t loc >>= f) := by
  unfold extractDelimiter
  split
  · rename_i d hd
    exact .after (fun _ => idle_delimiter hd) (hf d)
  · intro cfg s u0 b s' _ _ _ h; cases h

/-- The token at hand is not whitespace. -/
macro "not_ws" : tactic => `(tactic| focus (first | exact unit_not_ws ‹_› | exact kern_not_ws ‹_›))

/-- One step of a proof about what is read -/
syntax "nest_step" : tactic
macro_rules | `(tactic| nest_step) => `(tactic| refine Judg.of_next ?_)
macro_rules | `(tactic| nest_step) => `(tactic| refine Judg.of_nextAny ?_)
macro_rules | `(tactic| nest_step) => `(tactic| refine Judg.bind ?_ ?_)
macro_rules | `(tactic| nest_step) => `(tactic| split)
macro_rules | `(tactic| nest_step) => `(tactic| dsimp (config := { failIfUnchanged := true }) only)
macro_rules | `(tactic| nest_step) => `(tactic| (refine Judg.still_bind ?_ ?_; focus (still; done)))
macro_rules | `(tactic| nest_step) => `(tactic| refine Judg.delimiter_bind ?_)
macro_rules | `(tactic| nest_step) => `(tactic| refine Judg.next_bind ?_)
macro_rules | `(tactic| nest_step) => `(tactic| refine Judg.peek_bind ?_)
macro_rules | `(tactic| nest_step) => `(tactic| refine Judg.peekAny_bind ?_)
macro_rules | `(tactic| nest_step) => `(tactic| (refine Judg.next_next_bind ?_ ?_; focus (quietly; done)))
macro_rules | `(tactic| nest_step) => `(tactic| (refine Judg.nextAny_nextAny_bind ?_ ?_; focus (quietly; done)))
macro_rules | `(tactic| nest_step) => `(tactic| (refine Judg.nextAny_next_bind ?_ ?_ ?_; (focus (quietly; done)); not_ws))
macro_rules | `(tactic| nest_step) => `(tactic| (refine Judg.after ?_ ?_; focus (quietly; done)))
macro_rules | `(tactic| nest_step) => `(tactic| intro _)
macro_rules | `(tactic| nest_step) => `(tactic| first
  | with_reducible exact Judg.fail _ _ | with_reducible exact Judg.throw _ | with_reducible exact Judg.panic
  | with_reducible exact Judg.outOfFuel | (refine Judg.still ?_; focus (still; done)) | with_reducible assumption)

/-- Prove something about what is read, step by step. -/
macro "nested" : tactic => `(tactic| repeat' (with_reducible nest_step))

variable {any : Bool}

theorem nest_digits (fuel acc) : Judg any From (digitsLoop fuel acc) := by
  induction fuel generalizing acc with
  | zero => unfold digitsLoop; nested
  | succ fuel ih => unfold digitsLoop; nested <;> exact ih _
macro_rules | `(tactic| nest_step) => `(tactic| exact nest_digits _ _)

theorem nest_mergeLoop (tf fuel acc) : Judg any From (mergeLoop tf fuel acc) := by
  induction fuel generalizing acc with
  | zero => unfold mergeLoop; nested
  | succ fuel ih => unfold mergeLoop; nested <;> exact ih _
macro_rules | `(tactic| nest_step) => `(tactic| exact nest_mergeLoop _ _ _)

theorem nest_merge : Judg any From mergeAndTransformLetters := by unfold mergeAndTransformLetters; nested
macro_rules | `(tactic| nest_step) => `(tactic| exact nest_merge)

end Verif

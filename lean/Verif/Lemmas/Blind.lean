import Verif.Model.Parser
/-! The parser does not see how many expansions are left: with more of them, it does the same, until there would
have been none left. -/
namespace Verif
open Model

/-- The same state with more expansions left -/
def _root_.Verif.Model.PState.more (d : Nat) (s : PState) : PState := { s with expansionsLeft := s.expansionsLeft + d }

/-- The second outcome is the first one with more expansions left, unless the first one is that there were not
enough. -/
def Same {α : Type} (d : Nat) : Res PState α → Res PState α → Prop
  | .ok a s, r => r = .ok a (s.more d)
  | .err e s, r => e.kind = .tooManyExpansions ∨ r = .err e (s.more d)
  | .panic, r => r = .panic
  | .fuel, r => r = .fuel

/-- The computation does the same if more expansions are left. -/
def Blind {α : Type} (m : P α) : Prop := ∀ cfg s d, Same d (m cfg s) (m cfg (s.more d))

namespace Blind
variable {α β : Type}

theorem pure (a : α) : Blind (Pure.pure a : P α) := fun _ _ _ => rfl
theorem throw (e) : Blind (St.throw e : P α) := fun _ _ _ => .inr rfl
theorem panic : Blind (St.panic : P α) := fun _ _ _ => rfl
theorem outOfFuel : Blind (St.outOfFuel : P α) := fun _ _ _ => rfl

theorem bind {m : P α} {f : α → P β} (hm : Blind m) (hf : ∀ a, Blind (f a)) : Blind (m >>= f) := by
  intro cfg s d
  have h := hm cfg s d
  show Same d (St.bind m f cfg s) (St.bind m f cfg (s.more d))
  unfold St.bind
  cases hr : m cfg s with
  | ok a s' =>
    rw [hr] at h
    rw [show m cfg (s.more d) = _ from h]
    exact hf a cfg s' d
  | err e s' =>
    rw [hr] at h
    rcases h with h | h
    · exact .inl h
    · rw [h]; exact .inr rfl
  | panic => rw [hr] at h; rw [show m cfg (s.more d) = _ from h]; rfl
  | fuel => rw [hr] at h; rw [show m cfg (s.more d) = _ from h]; rfl

theorem get_bind {f : PState → P β} (hs : ∀ s d, f (s.more d) = f s) (hf : ∀ s, Blind (f s)) :
    Blind (St.get >>= f) := by
  intro cfg s d
  show Same d (f s cfg s) (f (s.more d) cfg (s.more d))
  rw [hs]
  exact hf s cfg s d

theorem modify {g : PState → PState} (hg : ∀ s d, g (s.more d) = (g s).more d) : Blind (St.modify g : P Unit) := by
  intro cfg s d
  show St.modify g cfg (s.more d) = _
  unfold St.modify
  rw [hg]

theorem config_bind {f : ParserConfig → P β} (hf : ∀ c, Blind (f c)) : Blind (St.config >>= f) :=
  fun cfg s d => hf cfg cfg s d

theorem liftQ (m : Q α) : Blind (liftQ m) := by
  intro cfg s d
  show Same d (St.zoom ..) (St.zoom ..)
  unfold St.zoom
  rw [show (s.more d).q = s.q from rfl]
  cases m cfg s.q with
  | ok a t => rfl
  | err e t => exact .inr rfl
  | panic => rfl
  | fuel => rfl

theorem ofExcept (r : Except LatexError α) : Blind (St.ofExcept r : P α) := by
  cases r with
  | ok a => exact pure a
  | error e => exact throw e

theorem next : Blind P.next := liftQ _
theorem nextAny : Blind P.nextAny := liftQ _
theorem peek : Blind P.peek := fun _ _ _ => rfl
theorem peekAny : Blind P.peekAny := fun _ _ _ => rfl
theorem loopFuel : Blind P.loopFuel := fun _ _ _ => rfl
theorem fail (s k) : Blind (P.fail s k : P α) := throw _

end Blind

/-- One step of a proof that a computation is blind -/
syntax "blind_step" : tactic
macro_rules | `(tactic| blind_step) => `(tactic| split)
macro_rules | `(tactic| blind_step) => `(tactic| dsimp (config := { failIfUnchanged := true }) only)
macro_rules | `(tactic| blind_step) => `(tactic| refine Blind.bind ?_ ?_)
macro_rules | `(tactic| blind_step) => `(tactic| refine Blind.config_bind ?_)
macro_rules | `(tactic| blind_step) => `(tactic| refine Blind.get_bind (fun _ _ => rfl) ?_)
macro_rules | `(tactic| blind_step) => `(tactic| exact Blind.modify (fun _ _ => rfl))
macro_rules | `(tactic| blind_step) => `(tactic| intro _)
macro_rules | `(tactic| blind_step) => `(tactic| first
  | with_reducible exact Blind.pure _ | with_reducible exact Blind.throw _ | with_reducible exact Blind.panic
  | with_reducible exact Blind.outOfFuel | with_reducible exact Blind.liftQ _
  | with_reducible exact Blind.ofExcept _ | with_reducible exact Blind.next | with_reducible exact Blind.nextAny
  | with_reducible exact Blind.peek | with_reducible exact Blind.peekAny | with_reducible exact Blind.loopFuel
  | with_reducible exact Blind.fail _ _ | with_reducible assumption)

/-- Prove that a computation is blind, step by step. -/
macro "blind" : tactic => `(tactic| repeat' (with_reducible blind_step))

macro "blind_for " f:ident : tactic => `(tactic| (unfold $f; blind))

/-! ### Functions which do not recurse -/

theorem blind_skipIf (a0) : Blind (P.skipIf a0) := by unfold P.skipIf; blind
macro_rules | `(tactic| blind_step) => `(tactic| exact blind_skipIf _)

theorem blind_literal : Blind (parseStringLiteral ) := by unfold parseStringLiteral; blind
macro_rules | `(tactic| blind_step) => `(tactic| exact blind_literal)

theorem blind_raise : Blind (parseRaise ) := by unfold parseRaise; blind
macro_rules | `(tactic| blind_step) => `(tactic| exact blind_raise)

theorem blind_ensure (a0) : Blind (BoundsWithLimits.ensureNoExplicitLimits a0) := by unfold BoundsWithLimits.ensureNoExplicitLimits; blind
macro_rules | `(tactic| blind_step) => `(tactic| exact blind_ensure _)

theorem blind_extractDelimiter (a0 a1) : Blind (extractDelimiter a0 a1) := by unfold extractDelimiter; blind
macro_rules | `(tactic| blind_step) => `(tactic| exact blind_extractDelimiter _ _)

theorem blind_kernSign (a0) : Blind (kernSign a0) := by unfold kernSign; blind
macro_rules | `(tactic| blind_step) => `(tactic| exact blind_kernSign _)

theorem blind_kernUnit (a0 a1 a2 a3 a4 a5) : Blind (kernUnit a0 a1 a2 a3 a4 a5) := by unfold kernUnit; blind
macro_rules | `(tactic| blind_step) => `(tactic| exact blind_kernUnit _ _ _ _ _ _)

theorem blind_numArgs : Blind (parseNumArgs ) := by unfold parseNumArgs; blind
macro_rules | `(tactic| blind_step) => `(tactic| exact blind_numArgs)

theorem blind_defBody : Blind (parseDefinitionBody ) := by unfold parseDefinitionBody; blind
macro_rules | `(tactic| blind_step) => `(tactic| exact blind_defBody)

theorem blind_nameBrace : Blind (nameBrace ) := by unfold nameBrace; blind
macro_rules | `(tactic| blind_step) => `(tactic| exact blind_nameBrace)

theorem blind_nameBraceEnd (a0) : Blind (nameBraceEnd a0) := by unfold nameBraceEnd; blind
macro_rules | `(tactic| blind_step) => `(tactic| exact blind_nameBraceEnd _)

theorem blind_defineCommand (a0) : Blind (defineCommand a0) := by unfold defineCommand; blind
macro_rules | `(tactic| blind_step) => `(tactic| exact blind_defineCommand _)

theorem blind_skipWs (fuel) : Blind (skipWs fuel) := by
  induction fuel with
  | zero => unfold skipWs; blind
  | succ fuel ih => unfold skipWs; blind <;> exact ih
macro_rules | `(tactic| blind_step) => `(tactic| exact blind_skipWs _)

theorem blind_paramLoop (fuel a0) : Blind (paramLoop fuel a0) := by
  induction fuel generalizing a0 with
  | zero => unfold paramLoop; blind
  | succ fuel ih => unfold paramLoop; blind <;> exact ih _
macro_rules | `(tactic| blind_step) => `(tactic| exact blind_paramLoop _ _)

theorem blind_defCommand (a0) : Blind (defCommand a0) := by unfold defCommand; blind
macro_rules | `(tactic| blind_step) => `(tactic| exact blind_defCommand _)

theorem blind_skipEquals : Blind (skipEquals ) := by unfold skipEquals; blind
macro_rules | `(tactic| blind_step) => `(tactic| exact blind_skipEquals)

theorem blind_letCommand (a0) : Blind (letCommand a0) := by unfold letCommand; blind
macro_rules | `(tactic| blind_step) => `(tactic| exact blind_letCommand _)

theorem blind_globalPrefix (fuel) : Blind (globalPrefix fuel) := by
  induction fuel with
  | zero => unfold globalPrefix; blind
  | succ fuel ih => unfold globalPrefix; blind <;> exact ih
macro_rules | `(tactic| blind_step) => `(tactic| exact blind_globalPrefix _)

theorem blind_collectCmdArg (a0) : Blind (collectCmdArg a0) := by unfold collectCmdArg; blind
macro_rules | `(tactic| blind_step) => `(tactic| exact blind_collectCmdArg _)

theorem blind_readCmdArg (a0) : Blind (readCmdArg a0) := by unfold readCmdArg; blind
macro_rules | `(tactic| blind_step) => `(tactic| exact blind_readCmdArg _)

theorem blind_readCmdArgsFrom (fuel a0) : Blind (readCmdArgsFrom fuel a0) := by
  induction fuel generalizing a0 with
  | zero => unfold readCmdArgsFrom; blind
  | succ fuel ih => unfold readCmdArgsFrom; blind <;> exact ih _
macro_rules | `(tactic| blind_step) => `(tactic| exact blind_readCmdArgsFrom _ _)

theorem blind_readCmdArgs (a0) : Blind (readCmdArgs a0) := by unfold readCmdArgs; blind
macro_rules | `(tactic| blind_step) => `(tactic| exact blind_readCmdArgs _)

theorem blind_primesLoop (fuel a0) : Blind (primesLoop fuel a0) := by
  induction fuel generalizing a0 with
  | zero => unfold primesLoop; blind
  | succ fuel ih => unfold primesLoop; blind <;> exact ih _
macro_rules | `(tactic| blind_step) => `(tactic| exact blind_primesLoop _ _)

theorem blind_setTag (a0 a1) : Blind (setTag a0 a1) := by unfold setTag; blind
macro_rules | `(tactic| blind_step) => `(tactic| exact blind_setTag _ _)

theorem blind_setLabel (a0) : Blind (setLabel a0) := by unfold setLabel; blind
macro_rules | `(tactic| blind_step) => `(tactic| exact blind_setLabel _)

theorem blind_handle (a0 a1 a2 a3) : Blind (handleTokensWithoutOutput a0 a1 a2 a3) := by unfold handleTokensWithoutOutput; blind
macro_rules | `(tactic| blind_step) => `(tactic| exact blind_handle _ _ _ _)

theorem blind_hline (a0) : Blind (parseHline a0) := by unfold parseHline; blind
macro_rules | `(tactic| blind_step) => `(tactic| exact blind_hline _)

theorem blind_customSpace (a0) : Blind (parseCustomSpace a0) := by unfold parseCustomSpace; blind
macro_rules | `(tactic| blind_step) => `(tactic| exact blind_customSpace _)

theorem blind_genfracDelimiter : Blind (genfracDelimiter ) := by unfold genfracDelimiter; blind
macro_rules | `(tactic| blind_step) => `(tactic| exact blind_genfracDelimiter)

theorem blind_genfracStyle : Blind (genfracStyle ) := by unfold genfracStyle; blind
macro_rules | `(tactic| blind_step) => `(tactic| exact blind_genfracStyle)

theorem blind_genfracLength : Blind (genfracLength ) := by unfold genfracLength; blind
macro_rules | `(tactic| blind_step) => `(tactic| exact blind_genfracLength)

theorem blind_digitsLoop (fuel a0) : Blind (digitsLoop fuel a0) := by
  induction fuel generalizing a0 with
  | zero => unfold digitsLoop; blind
  | succ fuel ih => unfold digitsLoop; blind <;> exact ih _
macro_rules | `(tactic| blind_step) => `(tactic| exact blind_digitsLoop _ _)

theorem blind_mergeLoop (a0 fuel a1) : Blind (mergeLoop a0 fuel a1) := by
  induction fuel generalizing a1 with
  | zero => unfold mergeLoop; blind
  | succ fuel ih => unfold mergeLoop; blind <;> exact ih _
macro_rules | `(tactic| blind_step) => `(tactic| exact blind_mergeLoop _ _ _)

theorem blind_merge : Blind (mergeAndTransformLetters ) := by unfold mergeAndTransformLetters; blind
macro_rules | `(tactic| blind_step) => `(tactic| exact blind_merge)

theorem blind_kernLoop (fuel a0 a1 a2 a3) : Blind (kernLoop fuel a0 a1 a2 a3) := by
  induction fuel generalizing a0 a1 a2 a3 with
  | zero => unfold kernLoop; blind
  | succ fuel ih => unfold kernLoop; blind <;> exact ih _ _ _ _
macro_rules | `(tactic| blind_step) => `(tactic| exact blind_kernLoop _ _ _ _ _)

theorem blind_kern (a0 a1) : Blind (parseKernOrSkip a0 a1) := by unfold parseKernOrSkip; blind
macro_rules | `(tactic| blind_step) => `(tactic| exact blind_kern _ _)

theorem blind_arraySpec (a0) : Blind (parseArraySpec a0) := by unfold parseArraySpec; blind
macro_rules | `(tactic| blind_step) => `(tactic| exact blind_arraySpec _)

theorem blind_digit (a0 a1) : Blind (parseDigit a0 a1) := by unfold parseDigit; blind
macro_rules | `(tactic| blind_step) => `(tactic| exact blind_digit _ _)

theorem blind_middle : Blind (parseMiddle ) := by unfold parseMiddle; blind
macro_rules | `(tactic| blind_step) => `(tactic| exact blind_middle)

theorem blind_fence (a0) : Blind (parseFenceDelimiter a0) := by unfold parseFenceDelimiter; blind
macro_rules | `(tactic| blind_step) => `(tactic| exact blind_fence _)

theorem blind_textLoop (a0 fuel a1) : Blind (extractTextLoop a0 fuel a1) := by
  induction fuel generalizing a1 with
  | zero => unfold extractTextLoop; blind
  | succ fuel ih => unfold extractTextLoop; blind <;> exact ih _
macro_rules | `(tactic| blind_step) => `(tactic| exact blind_textLoop _ _ _)

theorem blind_text (a0 a1 a2) : Blind (extractText a0 a1 a2) := by unfold extractText; blind
macro_rules | `(tactic| blind_step) => `(tactic| exact blind_text _ _ _)

theorem blind_peekClass (a0) : Blind (peekClassToken a0) := by unfold peekClassToken; blind
macro_rules | `(tactic| blind_step) => `(tactic| exact blind_peekClass _)

theorem blind_mathop (a0 a1 a2) : Blind (mathopSpacing a0 a1 a2) := by unfold mathopSpacing; blind
macro_rules | `(tactic| blind_step) => `(tactic| exact blind_mathop _ _ _)

theorem blind_big (a0 a1 a2 a3) : Blind (parseBig a0 a1 a2 a3) := by unfold parseBig; blind
macro_rules | `(tactic| blind_step) => `(tactic| exact blind_big _ _ _ _)

theorem blind_numberRow (a0 a1 a2) : Blind (numberRow a0 a1 a2) := by unfold numberRow; blind
macro_rules | `(tactic| blind_step) => `(tactic| exact blind_numberRow _ _ _)

theorem blind_newLine (a0) : Blind (parseNewLine a0) := by unfold parseNewLine; blind
macro_rules | `(tactic| blind_step) => `(tactic| exact blind_newLine _)

theorem blind_count (span) : Blind (countExpansion span) := by
  intro cfg s d
  simp only [countExpansion, bind, St.bind, St.get]
  rw [show (s.more d).expansionsLeft = s.expansionsLeft + d from rfl]
  cases hl : s.expansionsLeft with
  | zero => exact .inl rfl
  | succ left =>
    rw [show left + 1 + d = (left + d) + 1 by omega]
    rfl
macro_rules | `(tactic| blind_step) => `(tactic| exact blind_count _)

theorem blind_expandCmd (a0 a1 a2) : Blind (expandCustomCmd a0 a1 a2) := by unfold expandCustomCmd; blind
macro_rules | `(tactic| blind_step) => `(tactic| exact blind_expandCmd _ _ _)

theorem blind_expandRef (a0 a1 a2 a3 a4) : Blind (expandCustomCmdRef a0 a1 a2 a3 a4) := by
  unfold expandCustomCmdRef; blind
macro_rules | `(tactic| blind_step) => `(tactic| exact blind_expandRef _ _ _ _ _)

/-! ### Functions which look at errors -/

/-- The outcome with more expansions left -/
def _root_.Verif.Model.Res.more {α : Type} (d : Nat) : Res PState α → Res PState α
  | .ok a s => .ok a (s.more d)
  | .err e s => .err e (s.more d)
  | .panic => .panic
  | .fuel => .fuel

/-- The computation has nothing to do with expansions. -/
def Exact {α : Type} (m : P α) : Prop := ∀ cfg s d, m cfg (s.more d) = (m cfg s).more d

namespace Exact
variable {α β : Type}

theorem liftQ (m : Q α) : Exact (liftQ m) := by
  intro cfg s d
  show St.zoom .. = _
  unfold Model.liftQ St.zoom
  rw [show (s.more d).q = s.q from rfl]
  cases m cfg s.q <;> rfl

theorem pure (a : α) : Exact (Pure.pure a : P α) := fun _ _ _ => rfl

theorem ofExcept (r : Except LatexError α) : Exact (St.ofExcept r : P α) := by
  cases r <;> exact fun _ _ _ => rfl

theorem bind {m : P α} {f : α → P β} (hm : Exact m) (hf : ∀ a, Exact (f a)) : Exact (m >>= f) := by
  intro cfg s d
  show St.bind m f cfg (s.more d) = (St.bind m f cfg s).more d
  unfold St.bind
  rw [hm]
  cases m cfg s with
  | ok a s' => exact hf a cfg s' d
  | err e s' => rfl
  | panic => rfl
  | fuel => rfl

theorem attempt {m : P α} (hm : Exact m) : Blind (St.attempt m) := by
  intro cfg s d
  unfold St.attempt
  rw [hm]
  cases m cfg s <;> exact rfl

end Exact

theorem exact_literal : Exact parseStringLiteral := by
  unfold parseStringLiteral
  refine Exact.bind (Exact.liftQ _) fun a => ?_
  split
  · exact Exact.bind (Exact.ofExcept _) fun _ => Exact.pure _
  · split
    · exact Exact.pure _
    · exact Exact.bind (Exact.ofExcept _) fun _ => Exact.pure _

macro_rules | `(tactic| blind_step) => `(tactic| exact Exact.attempt exact_literal)

theorem blind_colorType (fuel acc) : Blind (colorTypeLoop fuel acc) := by
  induction fuel generalizing acc with
  | zero => unfold colorTypeLoop; blind
  | succ fuel ih =>
    unfold colorTypeLoop
    refine Blind.bind (Exact.attempt (Exact.liftQ _)) ?_
    blind <;> exact ih _
macro_rules | `(tactic| blind_step) => `(tactic| exact blind_colorType _ _)

theorem blind_color (a0) : Blind (parseColor a0) := by unfold parseColor; blind
macro_rules | `(tactic| blind_step) => `(tactic| exact blind_color _)

/-! ### Functions which recurse -/

/-- The functions which are called recursively are blind. -/
structure BlindRec (r : Rec) : Prop where
  seqLoop : ∀ a b c d, Blind (r.seqLoop a b c d)
  parseToken : ∀ a b c, Blind (r.parseToken a b c)
  getBounds : ∀ a b, Blind (r.getBounds a b)

macro_rules | `(tactic| blind_step) => `(tactic| exact BlindRec.seqLoop (by assumption) _ _ _ _)
macro_rules | `(tactic| blind_step) => `(tactic| exact BlindRec.parseToken (by assumption) _ _ _)
macro_rules | `(tactic| blind_step) => `(tactic| exact BlindRec.getBounds (by assumption) _ _)

variable {r : Rec}

theorem blind_cramped : Blind Rec.crampedStyle := by unfold Rec.crampedStyle; blind
macro_rules | `(tactic| blind_step) => `(tactic| exact blind_cramped)

theorem blind_mathChoice (a0) : Blind (Rec.parseMathChoice a0) := by unfold Rec.parseMathChoice; blind
macro_rules | `(tactic| blind_step) => `(tactic| exact blind_mathChoice _)

theorem blind_numberLast (a0 a1) : Blind (Rec.numberLastRow a0 a1) := by unfold Rec.numberLastRow; blind
macro_rules | `(tactic| blind_step) => `(tactic| exact blind_numberLast _ _)

theorem blind_finishEnv (a0 a1 a2 a3 a4 a5) : Blind (Rec.finishEnv a0 a1 a2 a3 a4 a5) := by
  unfold Rec.finishEnv; blind
macro_rules | `(tactic| blind_step) => `(tactic| exact blind_finishEnv _ _ _ _ _ _)

theorem blind_sequence (hr : BlindRec r) (a0 a1 a2) : Blind (Rec.parseSequence r a0 a1 a2) := by
  obtain ⟨h1, h2, h3⟩ := id hr
  unfold Rec.parseSequence; blind
macro_rules | `(tactic| blind_step) => `(tactic| exact blind_sequence (by assumption) _ _ _)

theorem blind_sequenceIf (hr : BlindRec r) (a0 a1 a2 a3 a4) : Blind (Rec.parseSequenceIfInSequence r a0 a1 a2 a3 a4) := by
  obtain ⟨h1, h2, h3⟩ := id hr
  unfold Rec.parseSequenceIfInSequence; blind
macro_rules | `(tactic| blind_step) => `(tactic| exact blind_sequenceIf (by assumption) _ _ _ _ _)

theorem blind_next' (hr : BlindRec r) (a0) : Blind (Rec.parseNext r a0) := by
  obtain ⟨h1, h2, h3⟩ := id hr
  unfold Rec.parseNext; blind
macro_rules | `(tactic| blind_step) => `(tactic| exact blind_next' (by assumption) _)

theorem blind_seqTarget (hr : BlindRec r) (a0 a1 a2 a3 a4) : Blind (Rec.seqTarget r a0 a1 a2 a3 a4) := by
  obtain ⟨h1, h2, h3⟩ := id hr
  unfold Rec.seqTarget; blind
macro_rules | `(tactic| blind_step) => `(tactic| exact blind_seqTarget (by assumption) _ _ _ _ _)

theorem blind_seqLoop (hr : BlindRec r) (a0 a1 a2 a3) : Blind (Rec.seqLoopStep r a0 a1 a2 a3) := by
  obtain ⟨h1, h2, h3⟩ := id hr
  unfold Rec.seqLoopStep; blind
macro_rules | `(tactic| blind_step) => `(tactic| exact blind_seqLoop (by assumption) _ _ _ _)

theorem blind_script (hr : BlindRec r) : Blind (Rec.parseScript r ) := by
  obtain ⟨h1, h2, h3⟩ := id hr
  unfold Rec.parseScript; blind
macro_rules | `(tactic| blind_step) => `(tactic| exact blind_script (by assumption))

theorem blind_subOrSup (hr : BlindRec r) (a0) : Blind (Rec.getSubOrSup r a0) := by
  obtain ⟨h1, h2, h3⟩ := id hr
  unfold Rec.getSubOrSup; blind
macro_rules | `(tactic| blind_step) => `(tactic| exact blind_subOrSup (by assumption) _)

theorem blind_addBound (hr : BlindRec r) (a0 a1 a2 a3) : Blind (Rec.addBound r a0 a1 a2 a3) := by
  obtain ⟨h1, h2, h3⟩ := id hr
  unfold Rec.addBound; blind
macro_rules | `(tactic| blind_step) => `(tactic| exact blind_addBound (by assumption) _ _ _ _)

theorem blind_getBounds (hr : BlindRec r) (a0 a1) : Blind (Rec.getBoundsStep r a0 a1) := by
  obtain ⟨h1, h2, h3⟩ := id hr
  unfold Rec.getBoundsStep; blind
macro_rules | `(tactic| blind_step) => `(tactic| exact blind_getBounds (by assumption) _ _)

theorem blind_boundsArg (hr : BlindRec r) : Blind (Rec.getBoundsArg r ) := by
  obtain ⟨h1, h2, h3⟩ := id hr
  unfold Rec.getBoundsArg; blind
macro_rules | `(tactic| blind_step) => `(tactic| exact blind_boundsArg (by assumption))

theorem blind_forceLargeOp (hr : BlindRec r) (a0 a1 a2) : Blind (Rec.parseForceLargeOp r a0 a1 a2) := by
  obtain ⟨h1, h2, h3⟩ := id hr
  unfold Rec.parseForceLargeOp; blind
macro_rules | `(tactic| blind_step) => `(tactic| exact blind_forceLargeOp (by assumption) _ _ _)

theorem blind_mathClass (hr : BlindRec r) (a0 a1 a2) : Blind (Rec.parseMathClass r a0 a1 a2) := by
  obtain ⟨h1, h2, h3⟩ := id hr
  unfold Rec.parseMathClass; blind
macro_rules | `(tactic| blind_step) => `(tactic| exact blind_mathClass (by assumption) _ _ _)

theorem blind_sqrt (hr : BlindRec r) : Blind (Rec.parseSqrt r ) := by
  obtain ⟨h1, h2, h3⟩ := id hr
  unfold Rec.parseSqrt; blind
macro_rules | `(tactic| blind_step) => `(tactic| exact blind_sqrt (by assumption))

theorem blind_frac (hr : BlindRec r) (a0 a1) : Blind (Rec.parseFrac r a0 a1) := by
  obtain ⟨h1, h2, h3⟩ := id hr
  unfold Rec.parseFrac; blind
macro_rules | `(tactic| blind_step) => `(tactic| exact blind_frac (by assumption) _ _)

theorem blind_genfrac (hr : BlindRec r) : Blind (Rec.parseGenfrac r ) := by
  obtain ⟨h1, h2, h3⟩ := id hr
  unfold Rec.parseGenfrac; blind
macro_rules | `(tactic| blind_step) => `(tactic| exact blind_genfrac (by assumption))

theorem blind_overset (hr : BlindRec r) (a0 a1) : Blind (Rec.parseOverset r a0 a1) := by
  obtain ⟨h1, h2, h3⟩ := id hr
  unfold Rec.parseOverset; blind
macro_rules | `(tactic| blind_step) => `(tactic| exact blind_overset (by assumption) _ _)

theorem blind_brace (hr : BlindRec r) (a0 a1) : Blind (Rec.parseOverUnderBrace r a0 a1) := by
  obtain ⟨h1, h2, h3⟩ := id hr
  unfold Rec.parseOverUnderBrace; blind
macro_rules | `(tactic| blind_step) => `(tactic| exact blind_brace (by assumption) _ _)

theorem blind_opBounds (hr : BlindRec r) (a0) : Blind (Rec.opBounds r a0) := by
  obtain ⟨h1, h2, h3⟩ := id hr
  unfold Rec.opBounds; blind
macro_rules | `(tactic| blind_step) => `(tactic| exact blind_opBounds (by assumption) _)

theorem blind_op (hr : BlindRec r) (a0 a1 a2) : Blind (Rec.parseOp r a0 a1 a2) := by
  obtain ⟨h1, h2, h3⟩ := id hr
  unfold Rec.parseOp; blind
macro_rules | `(tactic| blind_step) => `(tactic| exact blind_op (by assumption) _ _ _)

theorem blind_pseudoOp (hr : BlindRec r) (a0 a1 a2 a3) : Blind (Rec.parsePseudoOp r a0 a1 a2 a3) := by
  obtain ⟨h1, h2, h3⟩ := id hr
  unfold Rec.parsePseudoOp; blind
macro_rules | `(tactic| blind_step) => `(tactic| exact blind_pseudoOp (by assumption) _ _ _ _)

theorem blind_overlay (hr : BlindRec r) (a0 a1 a2) : Blind (Rec.parseOverlay r a0 a1 a2) := by
  obtain ⟨h1, h2, h3⟩ := id hr
  unfold Rec.parseOverlay; blind
macro_rules | `(tactic| blind_step) => `(tactic| exact blind_overlay (by assumption) _ _ _)

theorem blind_transform (hr : BlindRec r) (a0) : Blind (Rec.parseTransform r a0) := by
  obtain ⟨h1, h2, h3⟩ := id hr
  unfold Rec.parseTransform; blind
macro_rules | `(tactic| blind_step) => `(tactic| exact blind_transform (by assumption) _)

theorem blind_group (hr : BlindRec r) (a0 a1) : Blind (Rec.parseGroup r a0 a1) := by
  obtain ⟨h1, h2, h3⟩ := id hr
  unfold Rec.parseGroup; blind
macro_rules | `(tactic| blind_step) => `(tactic| exact blind_group (by assumption) _ _)

theorem blind_left (hr : BlindRec r) : Blind (Rec.parseLeft r ) := by
  obtain ⟨h1, h2, h3⟩ := id hr
  unfold Rec.parseLeft; blind
macro_rules | `(tactic| blind_step) => `(tactic| exact blind_left (by assumption))

theorem blind_begin (hr : BlindRec r) (a0 a1 a2) : Blind (Rec.parseBegin r a0 a1 a2) := by
  obtain ⟨h1, h2, h3⟩ := id hr
  unfold Rec.parseBegin; blind
macro_rules | `(tactic| blind_step) => `(tactic| exact blind_begin (by assumption) _ _ _)

theorem blind_operatorName (hr : BlindRec r) (a0 a1 a2) : Blind (Rec.parseOperatorName r a0 a1 a2) := by
  obtain ⟨h1, h2, h3⟩ := id hr
  unfold Rec.parseOperatorName; blind
macro_rules | `(tactic| blind_step) => `(tactic| exact blind_operatorName (by assumption) _ _ _)

theorem blind_crampedArm (hr : BlindRec r) (a0) : Blind (Rec.parseCramped r a0) := by
  obtain ⟨h1, h2, h3⟩ := id hr
  unfold Rec.parseCramped; blind
macro_rules | `(tactic| blind_step) => `(tactic| exact blind_crampedArm (by assumption) _)

theorem blind_colorSwitch (hr : BlindRec r) (a0 a1 a2) : Blind (Rec.parseColorSwitch r a0 a1 a2) := by
  obtain ⟨h1, h2, h3⟩ := id hr
  unfold Rec.parseColorSwitch; blind
macro_rules | `(tactic| blind_step) => `(tactic| exact blind_colorSwitch (by assumption) _ _ _)

theorem blind_phantom (hr : BlindRec r) (a0) : Blind (Rec.parsePhantom r a0) := by
  obtain ⟨h1, h2, h3⟩ := id hr
  unfold Rec.parsePhantom; blind
macro_rules | `(tactic| blind_step) => `(tactic| exact blind_phantom (by assumption) _)

theorem blind_style (hr : BlindRec r) (a0 a1 a2 a3) : Blind (Rec.parseStyle r a0 a1 a2 a3) := by
  obtain ⟨h1, h2, h3⟩ := id hr
  unfold Rec.parseStyle; blind
macro_rules | `(tactic| blind_step) => `(tactic| exact blind_style (by assumption) _ _ _ _)

theorem blind_scriptWithoutBase (hr : BlindRec r) (a0 a1) : Blind (Rec.parseScriptWithoutBase r a0 a1) := by
  obtain ⟨h1, h2, h3⟩ := id hr
  unfold Rec.parseScriptWithoutBase; blind
macro_rules | `(tactic| blind_step) => `(tactic| exact blind_scriptWithoutBase (by assumption) _ _)

theorem blind_prescript (hr : BlindRec r) : Blind (Rec.parsePrescript r ) := by
  obtain ⟨h1, h2, h3⟩ := id hr
  unfold Rec.parsePrescript; blind
macro_rules | `(tactic| blind_step) => `(tactic| exact blind_prescript (by assumption))

theorem blind_sideset (hr : BlindRec r) (a0 a1) : Blind (Rec.parseSideset r a0 a1) := by
  obtain ⟨h1, h2, h3⟩ := id hr
  unfold Rec.parseSideset; blind
macro_rules | `(tactic| blind_step) => `(tactic| exact blind_sideset (by assumption) _ _)

theorem blind_xarrowArgs (hr : BlindRec r) : Blind (Rec.parseXArrowArgs r ) := by
  obtain ⟨h1, h2, h3⟩ := id hr
  unfold Rec.parseXArrowArgs; blind
macro_rules | `(tactic| blind_step) => `(tactic| exact blind_xarrowArgs (by assumption))

theorem blind_xarrow (hr : BlindRec r) (a0 a1 a2) : Blind (Rec.parseXArrow r a0 a1 a2) := by
  obtain ⟨h1, h2, h3⟩ := id hr
  unfold Rec.parseXArrow; blind
macro_rules | `(tactic| blind_step) => `(tactic| exact blind_xarrow (by assumption) _ _ _)

theorem blind_arm (hr : BlindRec r) (a0 a1 a2 a3) : Blind (Rec.parseArm r a0 a1 a2 a3) := by
  obtain ⟨h1, h2, h3⟩ := id hr
  unfold Rec.parseArm; blind
macro_rules | `(tactic| blind_step) => `(tactic| exact blind_arm (by assumption) _ _ _ _)

theorem blind_oneToken (hr : BlindRec r) (a0 a1 a2) : Blind (Rec.parseOneToken r a0 a1 a2) := by
  obtain ⟨h1, h2, h3⟩ := id hr
  unfold Rec.parseOneToken; blind
macro_rules | `(tactic| blind_step) => `(tactic| exact blind_oneToken (by assumption) _ _ _)

theorem blind_tokenStep (hr : BlindRec r) (a0 a1 a2) : Blind (Rec.parseTokenStep r a0 a1 a2) := by
  obtain ⟨h1, h2, h3⟩ := id hr
  unfold Rec.parseTokenStep; blind
macro_rules | `(tactic| blind_step) => `(tactic| exact blind_tokenStep (by assumption) _ _ _)

theorem blind_parser (n) : BlindRec (parser n) := by
  induction n with
  | zero => exact ⟨fun _ _ _ _ => Blind.outOfFuel, fun _ _ _ => Blind.outOfFuel, fun _ _ => Blind.outOfFuel⟩
  | succ n ih => exact ⟨blind_seqLoop ih, blind_tokenStep ih, blind_getBounds ih⟩

theorem blind_parse (n) : Blind (parse n) := blind_sequence (blind_parser n) _ _ _

end Verif

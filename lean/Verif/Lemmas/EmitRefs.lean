import Verif.Spec.Tree
/-! References in the output. -/
namespace Verif
open Verif.Model Verif.Spec

namespace Spec

/-- What is shown for a reference to a label: a link to the row with this label, with its tag as the text -/
def referenceText (cfg : EmitCfg) (label : Str) : Str :=
  c!"<mtext><a href=\"#" ++ cfg.idPrefix ++ percentEncode label ++ c!"\">(" ++
    escapeHtml ((cfg.labelMap label).getD c!"??") ++ c!")</a></mtext>"

end Spec

/-- The text is part of the output. -/
def Shows (t : Str) (o : Out) : Prop := ∃ a b, o.s = a ++ t ++ b

theorem Shows.left {t : Str} {o o' : Out} (h : Shows t o) : Shows t (o ++ o') := by
  obtain ⟨a, b, h⟩ := h
  refine ⟨a, b ++ o'.s, ?_⟩
  show o.s ++ o'.s = _
  rw [h]; simp

theorem Shows.right {t : Str} {o o' : Out} (h : Shows t o') : Shows t (o ++ o') := by
  obtain ⟨a, b, h⟩ := h
  refine ⟨o.s ++ a, b, ?_⟩
  show o.s ++ o'.s = _
  rw [h]; simp

syntax "shows" term : tactic
macro_rules
  | `(tactic| shows $h) => `(tactic| first
    | with_reducible exact $h
    | (with_reducible refine Shows.right ?_; shows $h)
    | (with_reducible refine Shows.left ?_; shows $h))

theorem table_shows {cfg : EmitCfg} {t : Str} {base child : Nat} {cells : Nat → Nat → ColumnGenerator → Out}
    (h : ∀ n m g, Shows t (cells n m g)) (gen : ColumnGenerator) (nums : Option NumberColums)
    (last : Option RowLabelInfo) : Shows t (emitTable cfg base child cells gen nums last) := by
  unfold emitTable
  extract_lets
  shows (h _ _ _)

mutual
theorem emit_shows (cfg : EmitCfg) (l : Str) (i : Nat) :
    ∀ n, Node.eqRef l ∈ nodesIn n → Shows (referenceText cfg l) (emit cfg n i) := by
  intro n hn
  match n with
  | .number _ | .identifierStr _ | .operator _ _ _ _ _ | .pseudoOp _ _ _ _ | .identifierChar _ _
  | .space _ | .text _ _ _ | .aHref _ _ | .columnSeparator | .rowSeparator _ _ | .unknownCommand _ =>
    simp [nodesIn] at hn
  | .eqRef l' =>
    simp only [nodesIn, List.mem_singleton, Node.eqRef.injEq] at hn
    subst hn
    refine ⟨newLineAndIndent i cfg.indentation ++ [], [], ?_⟩
    unfold referenceText
    simp only [emit]
    show (newLineAndIndent i cfg.indentation ++ []) ++ _ = _
    cases h : cfg.labelMap l <;> simp
  | .sub a b | .sup a b | .frac a b _ _ _ | .over a b | .under a b | .root a b =>
    simp only [nodesIn, List.mem_cons, List.mem_append, reduceCtorEq, false_or] at hn
    simp only [emit]
    rcases hn with hn | hn
    · have := emit_shows cfg l (if i > 0 then i + 1 else 0) a hn
      shows this
    · have := emit_shows cfg l (if i > 0 then i + 1 else 0) b hn
      shows this
  | .subSup a b c | .underOver a b c =>
    simp only [nodesIn, List.mem_cons, List.mem_append, reduceCtorEq, false_or] at hn
    simp only [emit]
    rcases hn with (hn | hn) | hn
    · have := emit_shows cfg l (if i > 0 then i + 1 else 0) a hn
      shows this
    · have := emit_shows cfg l (if i > 0 then i + 1 else 0) b hn
      shows this
    · have := emit_shows cfg l (if i > 0 then i + 1 else 0) c hn
      shows this
  | .overAccent _ _ a | .underAccent _ _ a | .sqrt a | .padded a _ _ _ _ _ | .phantom a | .enclose a _ =>
    simp only [nodesIn, List.mem_cons, reduceCtorEq, false_or] at hn
    simp only [emit]
    have := emit_shows cfg l (if i > 0 then i + 1 else 0) a hn
    shows this
  | .row ns _ =>
    simp only [nodesIn, List.mem_cons, reduceCtorEq, false_or] at hn
    simp only [emit]
    have := emitList_shows cfg l (if i > 0 then i + 1 else 0) ns hn
    cases ns with
    | nil => simp [nodesInList] at hn
    | cons n ns =>
      simp only [List.isEmpty_cons, Bool.false_eq_true, if_false]
      shows this
  | .multiscripts a pre post =>
    simp only [nodesIn, List.mem_cons, List.mem_append, reduceCtorEq, false_or] at hn
    simp only [emit]
    rcases hn with (hn | hn) | hn
    · have := emit_shows cfg l (if i > 0 then i + 1 else 0) a hn
      shows this
    · have := emitPairs_shows cfg l (if i > 0 then i + 1 else 0) pre hn
      cases pre with
      | nil => simp [nodesInPairs] at hn
      | cons p ps =>
        simp only [List.isEmpty_cons, Bool.false_eq_true, if_false]
        shows this
    · have := emitPairs_shows cfg l (if i > 0 then i + 1 else 0) post hn
      shows this
  | .table _ _ _ content | .array _ _ content =>
    simp only [nodesIn, List.mem_cons, reduceCtorEq, false_or] at hn
    simp only [emit]
    exact .right (.right (table_shows (fun n m g => emitCells_shows cfg l _ n m content g none hn) _ _ _))
  | .equationArray _ _ content =>
    simp only [nodesIn, List.mem_cons, reduceCtorEq, false_or] at hn
    simp only [emit]
    exact .right (.right (table_shows (fun n m g => emitCells_shows cfg l _ n m content g (some .wide) hn) _ _ _))
  | .multLine _ _ content =>
    simp only [nodesIn, List.mem_cons, reduceCtorEq, false_or] at hn
    simp only [emit]
    exact .right (.right (table_shows (fun n m g => emitCells_shows cfg l _ n m content g (some .narrow) hn) _ _ _))

theorem emitList_shows (cfg : EmitCfg) (l : Str) (i : Nat) :
    ∀ ns, Node.eqRef l ∈ nodesInList ns → Shows (referenceText cfg l) (emitList cfg ns i) := by
  intro ns hn
  match ns with
  | [] => simp [nodesInList] at hn
  | n :: ns =>
    simp only [nodesInList, List.mem_append] at hn
    simp only [emitList]
    rcases hn with hn | hn
    · exact .left (emit_shows cfg l i n hn)
    · exact .right (emitList_shows cfg l i ns hn)

theorem emitPairs_shows (cfg : EmitCfg) (l : Str) (i : Nat) :
    ∀ ps, Node.eqRef l ∈ nodesInPairs ps → Shows (referenceText cfg l) (emitPairs cfg ps i) := by
  intro ps hn
  match ps with
  | [] => simp [nodesInPairs] at hn
  | (a, b) :: ps =>
    simp only [nodesInPairs, List.mem_append] at hn
    simp only [emitPairs]
    rcases hn with (hn | hn) | hn
    · exact .left (.left (emit_shows cfg l i a hn))
    · exact .left (.right (emit_shows cfg l i b hn))
    · exact .right (emitPairs_shows cfg l i ps hn)

theorem emitCells_shows (cfg : EmitCfg) (l : Str) (k n m : Nat) : ∀ ns g nums, Node.eqRef l ∈ nodesInList ns →
    Shows (referenceText cfg l) (emitCells cfg k n m ns g nums) := by
  intro ns
  match ns with
  | [] => intro g nums hn; simp [nodesInList] at hn
  | nd :: ns =>
    intro g nums hn
    simp only [nodesInList, List.mem_append] at hn
    by_cases hs : (∃ l b, nd = .rowSeparator l b) ∨ nd = .columnSeparator
    · rcases hs with ⟨l, b, rfl⟩ | rfl
      · simp only [nodesIn, List.mem_singleton, reduceCtorEq, false_or] at hn
        exact .right (emitCells_shows cfg _ k n m ns _ nums hn)
      · simp only [nodesIn, List.mem_singleton, reduceCtorEq, false_or] at hn
        exact .right (emitCells_shows cfg _ k n m ns _ nums hn)
    · have he : emitCells cfg k n m (nd :: ns) g nums = emit cfg nd m ++ emitCells cfg k n m ns g nums := by
        cases nd <;> first | rfl | simp at hs
      rw [he]
      rcases hn with hn | hn
      · exact .left (emit_shows cfg l m nd hn)
      · exact .right (emitCells_shows cfg l k n m ns g nums hn)
end

theorem emitDocument_shows (flags : EmitterConfig) (ast : List Node) (latex : Str) (display : MathDisplay) (l : Str)
    (hn : Node.eqRef l ∈ nodesInList ast) :
    Shows (referenceText flags.emitter l) (emitDocument flags ast latex display) := by
  have hd : Node.eqRef l ∈ nodesIn (nodeVecToNode ast false) := by
    unfold nodeVecToNode
    split
    · simpa [nodesInList] using hn
    · simpa [nodesIn] using hn
  have h1 := fun i => emit_shows flags.emitter l i (nodeVecToNode ast false) hd
  have h2 := fun i => emitList_shows flags.emitter l i ast hn
  unfold emitDocument
  extract_lets
  cases flags.annotation with
  | false =>
    simp only [Bool.false_eq_true, if_false]
    shows (h2 _)
  | true =>
    simp only [if_true]
    shows (h1 _)

end Verif

import Verif.Spec.Tree
/-! Pretty-printing only inserts layout. -/
namespace Verif
open Verif.Model Verif.Spec

theorem _root_.Verif.Spec.LaidOut.refl (u s : Str) : LaidOut u s s := by
  induction s with
  | nil => exact .nil
  | cons c cs ih => exact .same c ih

theorem _root_.Verif.Spec.LaidOut.append {u a b a' b' : Str} (h : LaidOut u a b) (h' : LaidOut u a' b') :
    LaidOut u (a ++ a') (b ++ b') := by
  induction h with
  | nil => exact h'
  | same c _ ih => exact .same c ih
  | line n _ ih => simpa using LaidOut.line n ih

theorem _root_.Verif.Spec.LaidOut.nl (ind : Indentation) (n : Nat) :
    LaidOut (indentUnit ind) (newLineAndIndent 0 ind) (newLineAndIndent n ind) := by
  cases n with
  | zero => exact .refl _ _
  | succ n =>
    have := LaidOut.line (unit := indentUnit ind) (n + 1) .nil
    simp only [List.append_nil] at this
    cases ind <;> exact this

theorem _root_.Verif.Spec.LaidOut.nlStr (ind : Indentation) (n : Nat) (s : Str) :
    LaidOut (indentUnit ind) (newLineAndIndent 0 ind ++ s) (newLineAndIndent n ind ++ s) :=
  (LaidOut.nl ind n).append (.refl _ _)

/-- What is compared: text with and without layout -/
def LaidOutO (ind : Indentation) (a b : Out) : Prop := LaidOut (indentUnit ind) a.s b.s

theorem LaidOutO.append {ind : Indentation} {a b a' b' : Out} (h : LaidOutO ind a b) (h' : LaidOutO ind a' b') :
    LaidOutO ind (a ++ a') (b ++ b') := LaidOut.append h h'

theorem LaidOutO.refl (ind : Indentation) (a : Out) : LaidOutO ind a a := LaidOut.refl _ _

theorem LaidOutO.nl (ind : Indentation) (n : Nat) (s : Str) :
    LaidOutO ind (lit (newLineAndIndent 0 ind ++ s)) (lit (newLineAndIndent n ind ++ s)) :=
  LaidOut.nlStr ind n s

theorem onlyLines_laidOut (spec : ArraySpec) (top : Str) (n : Nat) (ind : Indentation) (fuel : Nat) :
    ∀ e idx, LaidOut (indentUnit ind) (onlyLines spec top 0 ind fuel e idx).1 (onlyLines spec top n ind fuel e idx).1 ∧
      (onlyLines spec top 0 ind fuel e idx).2 = (onlyLines spec top n ind fuel e idx).2 := by
  induction fuel with
  | zero => intro e idx; exact ⟨.nil, rfl⟩
  | succ fuel ih =>
    intro e idx
    cases e with
    | withContent a b => exact ⟨.nil, rfl⟩
    | onlyLine l =>
      obtain ⟨h1, h2⟩ := ih (spec.columnSpec[idx]?.getD (.withContent .center none)) (idx + 1)
      simp only [onlyLines]
      exact ⟨((LaidOut.refl _ _).append (.nl ind n)).append h1, h2⟩

theorem writeNextMtd_laidOut (g : ColumnGenerator) (n : Nat) (ind : Indentation) :
    LaidOut (indentUnit ind) (g.writeNextMtd 0 ind).1 (g.writeNextMtd n ind).1 ∧
      (g.writeNextMtd 0 ind).2 = (g.writeNextMtd n ind).2 := by
  have key : ∀ s : Str, LaidOut (indentUnit ind) (newLineAndIndent 0 ind ++ s) (newLineAndIndent n ind ++ s) :=
    LaidOut.nlStr ind n
  obtain ⟨typ, ci, ri, bt⟩ := g
  cases typ with
  | predefined a =>
    cases a <;> simp only [ColumnGenerator.writeNextMtd, List.append_assoc] <;> exact ⟨key _, trivial⟩
  | multLine k =>
    simp only [ColumnGenerator.writeNextMtd, List.append_assoc]
    split
    · exact ⟨key _, rfl⟩
    · split
      · exact ⟨key _, rfl⟩
      · exact ⟨key _, rfl⟩
  | custom spec =>
    simp only [ColumnGenerator.writeNextMtd, List.append_assoc]
    obtain ⟨h1, h2⟩ := onlyLines_laidOut spec (rowBorderCss bt) n ind (spec.columnSpec.length + 1)
      (spec.columnSpec[ci]?.getD (.withContent .center none)) (ci + 1)
    generalize onlyLines spec (rowBorderCss bt) 0 ind (spec.columnSpec.length + 1)
      (spec.columnSpec[ci]?.getD (.withContent .center none)) (ci + 1) = x at h1 h2 ⊢
    generalize onlyLines spec (rowBorderCss bt) n ind (spec.columnSpec.length + 1)
      (spec.columnSpec[ci]?.getD (.withContent .center none)) (ci + 1) = y at h1 h2 ⊢
    obtain ⟨t, i, e⟩ := x
    obtain ⟨t', i', e'⟩ := y
    simp only [Prod.mk.injEq] at h2
    obtain ⟨rfl, rfl⟩ := h2
    dsimp only at h1 ⊢
    cases e with
    | onlyLine l => exact ⟨(LaidOut.nl ind n).append h1, rfl⟩
    | withContent a b =>
      dsimp only
      split
      · exact ⟨(LaidOut.nl ind n).append (h1.append (.refl _ _)), rfl⟩
      · exact ⟨(LaidOut.nl ind n).append (h1.append (.refl _ _)), rfl⟩

theorem dummy_laidOut (nums : Option NumberColums) (n : Nat) (ind : Indentation) :
    LaidOutO ind (lit (match nums with
      | some nc => nc.initialDummyColumn 0 ind
      | none => [])) (lit (match nums with
      | some nc => nc.initialDummyColumn n ind
      | none => [])) := by
  cases nums with
  | none => exact .refl _ _
  | some nc => exact (LaidOut.nlStr ind n _).append (.refl _ _)

theorem number_laidOut (nums : Option NumberColums) (label : Option RowLabelInfo) (n m : Nat)
    (ind : Indentation) (idPrefix : Str) :
    LaidOutO ind (lit (match nums with
      | some nc => writeEquationNum 0 0 label nc ind idPrefix
      | none => [])) (lit (match nums with
      | some nc => writeEquationNum n m label nc ind idPrefix
      | none => [])) := by
  cases nums with
  | none => exact .refl _ _
  | some nc =>
    cases label with
    | none => exact (LaidOut.nlStr ind n _).append (.refl _ _)
    | some l =>
      simp only [LaidOutO, lit, writeEquationNum, NumberColums.dummyColumnOpening, List.append_assoc]
      repeat' first
        | exact LaidOut.refl _ _
        | exact LaidOut.nl ind _
        | exact LaidOut.nlStr ind _ _
        | apply LaidOut.append

theorem LaidOutO.mtd (g : ColumnGenerator) (n : Nat) (ind : Indentation) :
    LaidOutO ind (lit (g.writeNextMtd 0 ind).1) (lit (g.writeNextMtd n ind).1) :=
  (writeNextMtd_laidOut g n ind).1

theorem LaidOutO.ite {ind : Indentation} (c : Prop) [Decidable c] {a b a' b' : Out} (h : LaidOutO ind a b)
    (h' : LaidOutO ind a' b') : LaidOutO ind (if c then a else a') (if c then b else b') := by
  split
  · exact h
  · exact h'

/-- Tables -/
theorem emitTable_laidOut (cfg : EmitCfg) (base child : Nat) (cells : Nat → Nat → ColumnGenerator → Out)
    (cells' : Nat → Nat → ColumnGenerator → Out)
    (gen : ColumnGenerator) (nums : Option NumberColums) (last : Option RowLabelInfo)
    (h : ∀ n m g, LaidOutO cfg.indentation (cells 0 0 g) (cells' n m g)) :
    LaidOutO cfg.indentation (emitTable cfg 0 0 cells gen nums last) (emitTable cfg base child cells' gen nums last) := by
  simp only [emitTable, Nat.lt_irrefl, if_false, gt_iff_lt]
  generalize (if 0 < base then child + 1 else 0) = n
  generalize (if 0 < base then n + 1 else 0) = m
  have h1 := LaidOutO.mtd gen n cfg.indentation
  have h2 := (writeNextMtd_laidOut gen n cfg.indentation).2
  rw [h2]
  exact ((((((((LaidOutO.nl _ _ _).append (dummy_laidOut nums n cfg.indentation)).append h1).append
    (h n m _)).append (.nl _ _ _)).append (number_laidOut nums last n m cfg.indentation cfg.idPrefix)).append
    (.nl _ _ _)).append (.nl _ _ _))

macro "laid_out" : tactic => `(tactic| repeat' with_reducible first
  | exact LaidOutO.refl _ _
  | exact LaidOutO.nl _ _ _
  | assumption
  | apply LaidOutO.append
  | apply LaidOutO.ite)

mutual
theorem emit_laidOut (cfg : EmitCfg) (i : Nat) :
    ∀ n, LaidOutO cfg.indentation (emit cfg n 0) (emit cfg n i) := by
  intro n
  match n with
  | .number _ | .identifierChar _ _ | .identifierStr _ | .operator _ _ _ _ _ | .pseudoOp _ _ _ _
  | .space _ | .text _ _ _ | .aHref _ _ | .eqRef _ | .columnSeparator | .rowSeparator _ _ | .unknownCommand _ =>
    simp only [emit, gt_iff_lt, Nat.lt_irrefl, if_false]; laid_out
  | .sub a b | .sup a b | .over a b | .under a b | .root a b | .frac a b _ _ _ =>
    have h1 := emit_laidOut cfg (if 0 < i then i + 1 else 0) a
    have h2 := emit_laidOut cfg (if 0 < i then i + 1 else 0) b
    simp only [emit, gt_iff_lt, Nat.lt_irrefl, if_false]
    laid_out
  | .subSup a b c | .underOver a b c =>
    have h1 := emit_laidOut cfg (if 0 < i then i + 1 else 0) a
    have h2 := emit_laidOut cfg (if 0 < i then i + 1 else 0) b
    have h3 := emit_laidOut cfg (if 0 < i then i + 1 else 0) c
    simp only [emit, gt_iff_lt, Nat.lt_irrefl, if_false]
    laid_out
  | .overAccent _ _ a | .underAccent _ _ a | .sqrt a | .padded a _ _ _ _ _ | .phantom a =>
    have h1 := emit_laidOut cfg (if 0 < i then i + 1 else 0) a
    simp only [emit, gt_iff_lt, Nat.lt_irrefl, if_false]
    laid_out
  | .row ns _ =>
    have h1 := emitList_laidOut cfg (if 0 < i then i + 1 else 0) ns
    simp only [emit, gt_iff_lt, Nat.lt_irrefl, if_false]
    laid_out
  | .enclose a notn =>
    have h1 := emit_laidOut cfg (if 0 < i then i + 1 else 0) a
    simp only [emit, gt_iff_lt, Nat.lt_irrefl, if_false]
    laid_out
  | .multiscripts a pre post =>
    have h1 := emit_laidOut cfg (if 0 < i then i + 1 else 0) a
    have h2 := emitPairs_laidOut cfg (if 0 < i then i + 1 else 0) pre
    have h3 := emitPairs_laidOut cfg (if 0 < i then i + 1 else 0) post
    simp only [emit, gt_iff_lt, Nat.lt_irrefl, if_false]
    laid_out
  | .table _ _ _ content =>
    have h1 := fun n m g => emitCells_laidOut cfg (if 0 < i then i + 1 else 0) n m content g none
    simp only [emit, gt_iff_lt, Nat.lt_irrefl, if_false]
    exact (LaidOutO.nl _ _ _).append ((LaidOutO.refl _ _).append (emitTable_laidOut _ _ _ _ _ _ _ _ h1))
  | .equationArray _ _ content =>
    have h1 := fun n m g => emitCells_laidOut cfg (if 0 < i then i + 1 else 0) n m content g (some .wide)
    simp only [emit, gt_iff_lt, Nat.lt_irrefl, if_false]
    exact (LaidOutO.nl _ _ _).append ((LaidOutO.refl _ _).append (emitTable_laidOut _ _ _ _ _ _ _ _ h1))
  | .multLine _ _ content =>
    have h1 := fun n m g => emitCells_laidOut cfg (if 0 < i then i + 1 else 0) n m content g (some .narrow)
    simp only [emit, gt_iff_lt, Nat.lt_irrefl, if_false]
    exact (LaidOutO.nl _ _ _).append ((LaidOutO.refl _ _).append (emitTable_laidOut _ _ _ _ _ _ _ _ h1))
  | .array _ _ content =>
    have h1 := fun n m g => emitCells_laidOut cfg (if 0 < i then i + 1 else 0) n m content g none
    simp only [emit, gt_iff_lt, Nat.lt_irrefl, if_false]
    exact (LaidOutO.nl _ _ _).append ((LaidOutO.refl _ _).append (emitTable_laidOut _ _ _ _ _ _ _ _ h1))

theorem emitList_laidOut (cfg : EmitCfg) (i : Nat) :
    ∀ ns, LaidOutO cfg.indentation (emitList cfg ns 0) (emitList cfg ns i) := by
  intro ns
  match ns with
  | [] => exact .refl _ _
  | n :: ns => simp only [emitList]; exact (emit_laidOut cfg i n).append (emitList_laidOut cfg i ns)

theorem emitPairs_laidOut (cfg : EmitCfg) (i : Nat) :
    ∀ ps, LaidOutO cfg.indentation (emitPairs cfg ps 0) (emitPairs cfg ps i) := by
  intro ps
  match ps with
  | [] => exact .refl _ _
  | (a, b) :: ps =>
    simp only [emitPairs]
    exact ((emit_laidOut cfg i a).append (emit_laidOut cfg i b)).append (emitPairs_laidOut cfg i ps)

theorem emitCells_laidOut (cfg : EmitCfg) (k n m : Nat) :
    ∀ ns g nums, LaidOutO cfg.indentation (emitCells cfg 0 0 0 ns g nums) (emitCells cfg k n m ns g nums) := by
  intro ns
  match ns with
  | [] => intro g nums; exact .refl _ _
  | nd :: ns =>
    intro g nums
    by_cases hs : (∃ l b, nd = .rowSeparator l b) ∨ nd = .columnSeparator
    · rcases hs with ⟨l, b, rfl⟩ | rfl
      · have h1 := LaidOutO.mtd (g.resetToNewRow.setRowBorderTop b) n cfg.indentation
        have h2 := (writeNextMtd_laidOut (g.resetToNewRow.setRowBorderTop b) n cfg.indentation).2
        simp only [emitCells]
        rw [h2]
        exact ((((((LaidOutO.nl _ _ _).append (number_laidOut nums l n m cfg.indentation cfg.idPrefix)).append
          (.nl _ _ _)).append (.nl _ _ _)).append (dummy_laidOut nums n cfg.indentation)).append h1).append
          (emitCells_laidOut cfg k n m ns _ nums)
      · have h1 := LaidOutO.mtd g n cfg.indentation
        have h2 := (writeNextMtd_laidOut g n cfg.indentation).2
        simp only [emitCells]
        rw [h2]
        exact ((LaidOutO.nl _ _ _).append h1).append (emitCells_laidOut cfg k n m ns _ nums)
    · have he : ∀ k n m, emitCells cfg k n m (nd :: ns) g nums =
          emit cfg nd m ++ emitCells cfg k n m ns g nums := by
        intro k n m
        cases nd <;> first | rfl | simp at hs
      rw [he, he]
      exact (emit_laidOut cfg m nd).append (emitCells_laidOut cfg k n m ns g nums)
end

theorem emitDocument_laidOut (flags : EmitterConfig) (ast : List Node) (latex : Str) (display : MathDisplay) :
    LaidOut (indentUnit flags.emitter.indentation)
      (emitDocument { flags with prettyPrint := .never } ast latex display).s
      (emitDocument flags ast latex display).s := by
  show LaidOutO _ _ _
  simp only [emitDocument]
  generalize (flags.prettyPrint = .always || (flags.prettyPrint = .auto && display = .block) : Bool) = p
  have hend : LaidOutO flags.emitter.indentation (lit c!"</math>") (lit ((if p then c!"\n" else []) ++ c!"</math>")) := by
    cases p with
    | false => exact .refl _ _
    | true => exact LaidOut.line 0 (.refl _ _)
  have h1 := emit_laidOut flags.emitter (if p then 2 else 0) (nodeVecToNode ast false)
  have h2 := emitList_laidOut flags.emitter (if p then 1 else 0) ast
  refine LaidOutO.append (LaidOutO.append (.refl _ _) ?_) hend
  cases flags.annotation with
  | false => exact h2
  | true =>
    exact ((((LaidOutO.nl _ _ _).append h1).append (.nl _ _ _)).append (.refl _ _)).append (.nl _ _ _)

end Verif

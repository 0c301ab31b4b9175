import Verif.Spec.Tree
/-! Warnings of the emitter. -/
namespace Verif
open Verif.Model Verif.Spec

/-- A reference to a label without a tag -/
def undefRef (cfg : EmitCfg) : Node → Bool
  | .eqRef l => (cfg.labelMap l).isNone
  | _ => false

def isUnknown : Node → Bool
  | .unknownCommand _ => true
  | _ => false

/-- The warnings are those that the nodes ask for. -/
def Warns (cfg : EmitCfg) (o : Out) (ns : List Node) : Prop :=
  o.undefinedReferences = ns.any (undefRef cfg) ∧ o.unknownCommands = ns.any isUnknown

theorem Out.append_u (a b : Out) : (a ++ b).undefinedReferences = (a.undefinedReferences || b.undefinedReferences) := rfl
theorem Out.append_k (a b : Out) : (a ++ b).unknownCommands = (a.unknownCommands || b.unknownCommands) := rfl
theorem lit_u (s : Str) : (lit s).undefinedReferences = false := rfl
theorem lit_k (s : Str) : (lit s).unknownCommands = false := rfl

theorem table_warns {cfg : EmitCfg} {ns : List Node} {base child : Nat} {cells : Nat → Nat → ColumnGenerator → Out}
    (h : ∀ n m g, Warns cfg (cells n m g) ns) (gen : ColumnGenerator) (nums : Option NumberColums)
    (last : Option RowLabelInfo) : Warns cfg (emitTable cfg base child cells gen nums last) ns := by
  refine ⟨?_, ?_⟩
  · simp only [emitTable, Out.append_u, lit_u, Bool.or_false, Bool.false_or]
    exact (h _ _ _).1
  · simp only [emitTable, Out.append_k, lit_k, Bool.or_false, Bool.false_or]
    exact (h _ _ _).2

macro "warns" "[" hs:Lean.Parser.Tactic.simpLemma,* "]" : tactic =>
  `(tactic| (constructor <;> simp only [emit, nodesIn, Out.append_u, Out.append_k, lit_u, lit_k, Bool.or_false,
    Bool.false_or, List.any_cons, List.any_append, List.any_nil, undefRef, isUnknown, Bool.or_assoc, $hs,*]))

mutual
theorem emit_warns (cfg : EmitCfg) (i : Nat) : ∀ n, Warns cfg (emit cfg n i) (nodesIn n) := by
  intro n
  match n with
  | .number _ | .identifierStr _ | .operator _ _ _ _ _ | .pseudoOp _ _ _ _
  | .space _ | .text _ _ _ | .aHref _ _ | .columnSeparator | .rowSeparator _ _ | .unknownCommand _ =>
    warns []
  | .identifierChar _ _ =>
    constructor <;> simp only [emit, nodesIn, Out.append_u, Out.append_k] <;> split <;> (try split) <;> rfl
  | .eqRef l =>
    constructor <;> simp only [emit, nodesIn, Out.append_u, Out.append_k, lit_u, lit_k]
    · cases h : cfg.labelMap l <;> simp [undefRef, h]
    · rfl
  | .sub a b | .sup a b | .frac a b _ _ _ =>
    have h1 := emit_warns cfg (if i > 0 then i + 1 else 0) a
    have h2 := emit_warns cfg (if i > 0 then i + 1 else 0) b
    warns [h1.1, h1.2, h2.1, h2.2]
  | .over a b | .under a b | .root a b =>
    have h1 := emit_warns cfg (if i > 0 then i + 1 else 0) a
    have h2 := emit_warns cfg (if i > 0 then i + 1 else 0) b
    warns [h1.1, h1.2, h2.1, h2.2]
    · exact Bool.or_comm _ _
    · exact Bool.or_comm _ _
  | .subSup a b c | .underOver a b c =>
    have h1 := emit_warns cfg (if i > 0 then i + 1 else 0) a
    have h2 := emit_warns cfg (if i > 0 then i + 1 else 0) b
    have h3 := emit_warns cfg (if i > 0 then i + 1 else 0) c
    warns [h1.1, h1.2, h2.1, h2.2, h3.1, h3.2]
  | .overAccent _ _ a | .underAccent _ _ a | .sqrt a | .padded a _ _ _ _ _ | .phantom a =>
    have h1 := emit_warns cfg (if i > 0 then i + 1 else 0) a
    warns [h1.1, h1.2]
  | .row ns _ =>
    have h1 := emitList_warns cfg (if i > 0 then i + 1 else 0) ns
    constructor <;> simp only [emit, nodesIn, Out.append_u, Out.append_k, lit_u, lit_k, Bool.false_or,
      List.any_cons, undefRef, isUnknown]
    · rw [← h1.1]; cases ns <;> simp [Out.append_u, lit_u, emitList]
    · rw [← h1.2]; cases ns <;> simp [Out.append_k, lit_k, emitList]
  | .enclose a notn =>
    have h1 := emit_warns cfg (if i > 0 then i + 1 else 0) a
    have hu : ∀ (b : Bool) (s : Str), (if b then lit s else lit []).undefinedReferences = false := by
      intro b s; cases b <;> rfl
    have hk : ∀ (b : Bool) (s : Str), (if b then lit s else lit []).unknownCommands = false := by
      intro b s; cases b <;> rfl
    warns [h1.1, h1.2, hu, hk]
  | .multiscripts a pre post =>
    have h1 := emit_warns cfg (if i > 0 then i + 1 else 0) a
    have h2 := emitPairs_warns cfg (if i > 0 then i + 1 else 0) pre
    have h3 := emitPairs_warns cfg (if i > 0 then i + 1 else 0) post
    constructor <;> simp only [emit, nodesIn, Out.append_u, Out.append_k, lit_u, lit_k, Bool.false_or, Bool.or_false,
      List.any_cons, undefRef, isUnknown, List.any_append, h1.1, h1.2, h3.1, h3.2]
    · rw [Bool.or_assoc, Bool.or_assoc, Bool.or_comm (List.any (nodesInPairs pre) _), ← h2.1]
      cases pre <;> simp [Out.append_u, lit_u, emitPairs]
    · rw [Bool.or_assoc, Bool.or_assoc, Bool.or_comm (List.any (nodesInPairs pre) _), ← h2.2]
      cases pre <;> simp [Out.append_k, lit_k, emitPairs]
  | .table _ _ _ content =>
    have h1 := table_warns (base := i) (child := if i > 0 then i + 1 else 0) (fun n m g => emitCells_warns cfg (if i > 0 then i + 1 else 0) n m content g none)
    warns [(h1 _ _ _).1, (h1 _ _ _).2]
  | .equationArray _ _ content =>
    have h1 := table_warns (base := i) (child := if i > 0 then i + 1 else 0) (fun n m g => emitCells_warns cfg (if i > 0 then i + 1 else 0) n m content g (some .wide))
    warns [(h1 _ _ _).1, (h1 _ _ _).2]
  | .multLine _ _ content =>
    have h1 := table_warns (base := i) (child := if i > 0 then i + 1 else 0) (fun n m g => emitCells_warns cfg (if i > 0 then i + 1 else 0) n m content g (some .narrow))
    warns [(h1 _ _ _).1, (h1 _ _ _).2]
  | .array _ _ content =>
    have h1 := table_warns (base := i) (child := if i > 0 then i + 1 else 0) (fun n m g => emitCells_warns cfg (if i > 0 then i + 1 else 0) n m content g none)
    warns [(h1 _ _ _).1, (h1 _ _ _).2]

theorem emitList_warns (cfg : EmitCfg) (i : Nat) : ∀ ns, Warns cfg (emitList cfg ns i) (nodesInList ns) := by
  intro ns
  match ns with
  | [] => exact ⟨rfl, rfl⟩
  | n :: ns =>
    have h1 := emit_warns cfg i n
    have h2 := emitList_warns cfg i ns
    constructor <;> simp only [emitList, nodesInList, Out.append_u, Out.append_k, List.any_append, h1.1, h1.2, h2.1, h2.2]

theorem emitPairs_warns (cfg : EmitCfg) (i : Nat) : ∀ ps, Warns cfg (emitPairs cfg ps i) (nodesInPairs ps) := by
  intro ps
  match ps with
  | [] => exact ⟨rfl, rfl⟩
  | (a, b) :: ps =>
    have h1 := emit_warns cfg i a
    have h3 := emit_warns cfg i b
    have h2 := emitPairs_warns cfg i ps
    constructor <;> simp only [emitPairs, nodesInPairs, Out.append_u, Out.append_k, List.any_append, h1.1, h1.2,
      h2.1, h2.2, h3.1, h3.2]

theorem emitCells_warns (cfg : EmitCfg) (k n m : Nat) :
    ∀ ns g nums, Warns cfg (emitCells cfg k n m ns g nums) (nodesInList ns) := by
  intro ns
  match ns with
  | [] => intro g nums; exact ⟨rfl, rfl⟩
  | nd :: ns =>
    intro g nums
    by_cases hs : (∃ l b, nd = .rowSeparator l b) ∨ nd = .columnSeparator
    · rcases hs with ⟨l, b, rfl⟩ | rfl
      · constructor <;> simp only [emitCells, nodesInList, nodesIn, Out.append_u, Out.append_k, lit_u, lit_k,
          List.any_append, List.any_cons, List.any_nil, undefRef, isUnknown, Bool.or_false, Bool.false_or]
        · exact (emitCells_warns cfg k n m ns _ nums).1
        · exact (emitCells_warns cfg k n m ns _ nums).2
      · constructor <;> simp only [emitCells, nodesInList, nodesIn, Out.append_u, Out.append_k, lit_u, lit_k,
          List.any_append, List.any_cons, List.any_nil, undefRef, isUnknown, Bool.or_false, Bool.false_or]
        · exact (emitCells_warns cfg k n m ns _ nums).1
        · exact (emitCells_warns cfg k n m ns _ nums).2
    · have he : emitCells cfg k n m (nd :: ns) g nums = emit cfg nd m ++ emitCells cfg k n m ns g nums := by
        cases nd <;> first | rfl | simp at hs
      have h1 := emit_warns cfg m nd
      have h2 := emitCells_warns cfg k n m ns g nums
      rw [he]
      constructor <;> simp only [nodesInList, Out.append_u, Out.append_k, List.any_append, h1.1, h1.2, h2.1, h2.2]
end

theorem nodeVecToNode_warns (cfg : EmitCfg) (ast : List Node) :
    (nodesIn (nodeVecToNode ast false)).any (undefRef cfg) = (nodesInList ast).any (undefRef cfg) ∧
    (nodesIn (nodeVecToNode ast false)).any isUnknown = (nodesInList ast).any isUnknown := by
  unfold nodeVecToNode
  split
  · simp [nodesInList]
  · simp [nodesIn, undefRef, isUnknown]

theorem emitDocument_warns (flags : EmitterConfig) (ast : List Node) (latex : Str) (display : MathDisplay) :
    Warns flags.emitter (emitDocument flags ast latex display) (nodesInList ast) := by
  have hd := nodeVecToNode_warns flags.emitter ast
  have h1 := fun i => emit_warns flags.emitter i (nodeVecToNode ast false)
  have h2 := fun i => emitList_warns flags.emitter i ast
  unfold emitDocument
  constructor <;> simp only [Out.append_u, Out.append_k, lit_u, lit_k, Bool.or_false, Bool.false_or]
  · rw [← hd.1]
    cases flags.annotation
    · exact (h2 _).1.trans hd.1.symm
    · exact (by simpa [Out.append_u, lit_u] using (h1 _).1)
  · rw [← hd.2]
    cases flags.annotation
    · exact (h2 _).2.trans hd.2.symm
    · exact (by simpa [Out.append_k, lit_k] using (h1 _).2)

end Verif

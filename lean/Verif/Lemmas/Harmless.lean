import Verif.Spec.Harmless
import Verif.Lemmas.Yield
/-! Nodes from the parser without the known defects can be emitted. -/
namespace Verif
open Model Spec

theorem mem_nodesIn_self (n : Node) : n ∈ nodesIn n := by rw [nodesIn_eq]; simp

theorem mem_nodesInList {n : Node} {ns : List Node} (h : n ∈ ns) : n ∈ nodesInList ns := by
  induction ns with
  | nil => cases h
  | cons m ms ih =>
    rw [nodesInList_cons]
    rcases List.mem_cons.1 h with rfl | h
    · exact List.mem_append_left _ (mem_nodesIn_self _)
    · exact List.mem_append_right _ (ih h)

theorem nodesOk_of_all {ns : List Node} (h : ∀ n ∈ ns, NodeOk n) : NodesOk ns := by
  induction ns with
  | nil => trivial
  | cons n ns ih => exact ⟨h n (.head _), ih fun m hm => h m (.tail _ hm)⟩

/-- What holds for a node -/
structure FineNode (cfg : ParserConfig) (m : Node) : Prop where
  loc : LocalOk cfg m
  inner : isTable m = false → ∀ k ∈ kids m, isSeparator k = false
  stretch : ∀ op attrs size l r, m = .operator op attrs size l r → ¬ (attrs.getLsbD 0 ∧ attrs.getLsbD 1)
  names : ∀ attrs l r name, m = .pseudoOp attrs l r name → PlainText name
  unknown : ∀ name, m = .unknownCommand name → PlainText name

theorem fine_kids {cfg : ParserConfig} {n : Node} (h : ∀ m ∈ nodesIn n, FineNode cfg m) :
    ∀ k ∈ kids n, ∀ m ∈ nodesIn k, FineNode cfg m := by
  intro k hk m hm
  refine h m ?_
  rw [nodesIn_eq]
  refine List.mem_cons_of_mem _ ?_
  revert hk
  generalize kids n = ks
  intro hk
  induction ks with
  | nil => cases hk
  | cons a as ih =>
    rw [nodesInList_cons]
    rcases List.mem_cons.1 hk with rfl | hk
    · exact List.mem_append_left _ hm
    · exact List.mem_append_right _ (ih hk)

theorem contentOk_cons {n : Node} {ns : List Node} (h : isSeparator n = false) :
    ContentOk (n :: ns) ↔ NodeOk n ∧ ContentOk ns := by
  cases n <;> first | (cases h; done) | exact Iff.rfl

mutual
theorem nodeOk_of_fineNode {cfg : ParserConfig} : ∀ n : Node, isSeparator n = false → (∀ m ∈ nodesIn n, FineNode cfg m) → NodeOk n
  | .number _, _, h => (h _ (mem_nodesIn_self _)).loc
  | .identifierChar _ _, _, h => (show LetterOk _ from (h _ (mem_nodesIn_self _)).loc).plain
  | .identifierStr _, _, _ => trivial
  | .operator op attrs size l r, _, h => by
    have h1 : WeakFlags attrs := (h _ (mem_nodesIn_self _)).loc
    exact ⟨(h _ (mem_nodesIn_self _)).stretch _ _ _ _ _ rfl, h1⟩
  | .pseudoOp _ _ _ _, _, h => ⟨(h _ (mem_nodesIn_self _)).loc, (h _ (mem_nodesIn_self _)).names _ _ _ _ rfl⟩
  | .space _, _, _ => trivial
  | .sub a b, _, h => by
    have hk := fine_kids h
    have hi := (h _ (mem_nodesIn_self _)).inner rfl
    exact ⟨nodeOk_of_fineNode a (hi a (by simp [kids])) (hk a (by simp [kids])),
      nodeOk_of_fineNode b (hi b (by simp [kids])) (hk b (by simp [kids]))⟩
  | .sup a b, _, h => by
    have hk := fine_kids h
    have hi := (h _ (mem_nodesIn_self _)).inner rfl
    exact ⟨nodeOk_of_fineNode a (hi a (by simp [kids])) (hk a (by simp [kids])),
      nodeOk_of_fineNode b (hi b (by simp [kids])) (hk b (by simp [kids]))⟩
  | .over a b, _, h => by
    have hk := fine_kids h
    have hi := (h _ (mem_nodesIn_self _)).inner rfl
    exact ⟨nodeOk_of_fineNode a (hi a (by simp [kids])) (hk a (by simp [kids])),
      nodeOk_of_fineNode b (hi b (by simp [kids])) (hk b (by simp [kids]))⟩
  | .under a b, _, h => by
    have hk := fine_kids h
    have hi := (h _ (mem_nodesIn_self _)).inner rfl
    exact ⟨nodeOk_of_fineNode a (hi a (by simp [kids])) (hk a (by simp [kids])),
      nodeOk_of_fineNode b (hi b (by simp [kids])) (hk b (by simp [kids]))⟩
  | .root a b, _, h => by
    have hk := fine_kids h
    have hi := (h _ (mem_nodesIn_self _)).inner rfl
    exact ⟨nodeOk_of_fineNode a (hi a (by simp [kids])) (hk a (by simp [kids])),
      nodeOk_of_fineNode b (hi b (by simp [kids])) (hk b (by simp [kids]))⟩
  | .frac a b _ _ _, _, h => by
    have hk := fine_kids h
    have hi := (h _ (mem_nodesIn_self _)).inner rfl
    exact ⟨nodeOk_of_fineNode a (hi a (by simp [kids])) (hk a (by simp [kids])),
      nodeOk_of_fineNode b (hi b (by simp [kids])) (hk b (by simp [kids]))⟩
  | .subSup a b c, _, h => by
    have hk := fine_kids h
    have hi := (h _ (mem_nodesIn_self _)).inner rfl
    exact ⟨nodeOk_of_fineNode a (hi a (by simp [kids])) (hk a (by simp [kids])),
      nodeOk_of_fineNode b (hi b (by simp [kids])) (hk b (by simp [kids])),
      nodeOk_of_fineNode c (hi c (by simp [kids])) (hk c (by simp [kids]))⟩
  | .underOver a b c, _, h => by
    have hk := fine_kids h
    have hi := (h _ (mem_nodesIn_self _)).inner rfl
    exact ⟨nodeOk_of_fineNode a (hi a (by simp [kids])) (hk a (by simp [kids])),
      nodeOk_of_fineNode b (hi b (by simp [kids])) (hk b (by simp [kids])),
      nodeOk_of_fineNode c (hi c (by simp [kids])) (hk c (by simp [kids]))⟩
  | .overAccent _ _ a, _, h =>
    ⟨(h _ (mem_nodesIn_self _)).loc,
      nodeOk_of_fineNode a ((h _ (mem_nodesIn_self _)).inner rfl a (by simp [kids])) (fine_kids h a (by simp [kids]))⟩
  | .underAccent _ _ a, _, h =>
    ⟨(h _ (mem_nodesIn_self _)).loc,
      nodeOk_of_fineNode a ((h _ (mem_nodesIn_self _)).inner rfl a (by simp [kids])) (fine_kids h a (by simp [kids]))⟩
  | .sqrt a, _, h =>
    nodeOk_of_fineNode a ((h _ (mem_nodesIn_self _)).inner rfl a (by simp [kids])) (fine_kids h a (by simp [kids]))
  | .padded a _ _ _ _ _, _, h =>
    nodeOk_of_fineNode a ((h _ (mem_nodesIn_self _)).inner rfl a (by simp [kids])) (fine_kids h a (by simp [kids]))
  | .phantom a, _, h =>
    nodeOk_of_fineNode a ((h _ (mem_nodesIn_self _)).inner rfl a (by simp [kids])) (fine_kids h a (by simp [kids]))
  | .enclose a _, _, h =>
    nodeOk_of_fineNode a ((h _ (mem_nodesIn_self _)).inner rfl a (by simp [kids])) (fine_kids h a (by simp [kids]))
  | .row ns _, _, h => nodesOk_of_fineNode ns ((h _ (mem_nodesIn_self _)).inner rfl) (fine_kids h)
  | .text _ _ _, _, _ => trivial
  | .aHref _ _, _, _ => trivial
  | .eqRef _, _, h => (h _ (mem_nodesIn_self _)).loc
  | .table _ _ _ c, _, h => contentOk_of_fineNode c (fine_kids h)
  | .array _ _ c, _, h => contentOk_of_fineNode c (fine_kids h)
  | .equationArray _ _ c, _, h => ⟨(h _ (mem_nodesIn_self _)).loc, contentOk_of_fineNode c (fine_kids h)⟩
  | .multLine _ _ c, _, h => ⟨(h _ (mem_nodesIn_self _)).loc, contentOk_of_fineNode c (fine_kids h)⟩
  | .columnSeparator, hs, _ => by cases hs
  | .rowSeparator _ _, hs, _ => by cases hs
  | .multiscripts a pre post, _, h => by
    have hk := fine_kids h
    have hi := (h _ (mem_nodesIn_self _)).inner rfl
    refine ⟨nodeOk_of_fineNode a (hi a (by simp [kids])) (hk a (by simp [kids])), ?_, ?_⟩
    · refine pairsOk_of_fineNode pre (fun k hk' => hi k ?_) (fun k hk' => hk k ?_) <;>
        exact List.mem_cons_of_mem _ (List.mem_append_left _ hk')
    · refine pairsOk_of_fineNode post (fun k hk' => hi k ?_) (fun k hk' => hk k ?_) <;>
        exact List.mem_cons_of_mem _ (List.mem_append_right _ hk')
  | .unknownCommand _, _, h => (h _ (mem_nodesIn_self _)).unknown _ rfl

theorem nodesOk_of_fineNode {cfg : ParserConfig} : ∀ ns : List Node, (∀ n ∈ ns, isSeparator n = false) →
    (∀ n ∈ ns, ∀ m ∈ nodesIn n, FineNode cfg m) → NodesOk ns
  | [], _, _ => trivial
  | n :: ns, hs, h => ⟨nodeOk_of_fineNode n (hs n (.head _)) (h n (.head _)),
      nodesOk_of_fineNode ns (fun m hm => hs m (.tail _ hm)) (fun m hm => h m (.tail _ hm))⟩

theorem pairsOk_of_fineNode {cfg : ParserConfig} : ∀ ps : List (Node × Node),
    (∀ n ∈ ps.flatMap (fun p => [p.1, p.2]), isSeparator n = false) →
    (∀ n ∈ ps.flatMap (fun p => [p.1, p.2]), ∀ m ∈ nodesIn n, FineNode cfg m) → PairsOk ps
  | [], _, _ => trivial
  | (a, b) :: ps, hs, h => ⟨nodeOk_of_fineNode a (hs a (by simp)) (h a (by simp)),
      nodeOk_of_fineNode b (hs b (by simp)) (h b (by simp)),
      pairsOk_of_fineNode ps (fun m hm => hs m (by simp only [List.flatMap_cons]; exact List.mem_append_right _ hm))
        (fun m hm => h m (by simp only [List.flatMap_cons]; exact List.mem_append_right _ hm))⟩

theorem contentOk_of_fineNode {cfg : ParserConfig} : ∀ ns : List Node,
    (∀ n ∈ ns, ∀ m ∈ nodesIn n, FineNode cfg m) → ContentOk ns
  | [], _ => trivial
  | n :: ns, h => by
    have ih := contentOk_of_fineNode ns fun m hm => h m (.tail _ hm)
    by_cases hs : isSeparator n = true
    · have hl := (h n (.head _) _ (mem_nodesIn_self _)).loc
      cases n <;> first | (cases hs; done) | exact ih | exact ⟨hl, ih⟩
    · have hs : isSeparator n = false := by simpa using hs
      exact (contentOk_cons hs).2 ⟨nodeOk_of_fineNode n hs (h n (.head _)), ih⟩
end

/-- Nodes from the parser without the known defects can be emitted. -/
theorem nodesOk_of_harmless {cfg : ParserConfig} {c c' : Counters} {ns : List Node} (hy : Yield cfg c ns c')
    (h : Harmless cfg.ignoreUnknownCommands ns) : NodesOk ns := by
  refine nodesOk_of_fineNode (cfg := cfg) ns h.top ?_
  intro n hn m hm
  have hm' : m ∈ nodesInList ns := by
    clear hy h
    induction ns with
    | nil => cases hn
    | cons a as ih =>
      rw [nodesInList_cons]
      rcases List.mem_cons.1 hn with rfl | hn
      · exact List.mem_append_left _ hm
      · exact List.mem_append_right _ (ih hn)
  have hl := hy.ok m hm'
  refine ⟨hl, h.inner m hm', ?_, ?_, ?_⟩
  · rintro op attrs size l r rfl; exact h.stretch _ _ _ _ _ hm'
  · rintro attrs l r name rfl; exact h.names _ _ _ _ hm'
  · rintro name rfl; exact h.unknown hl _ hm'

end Verif

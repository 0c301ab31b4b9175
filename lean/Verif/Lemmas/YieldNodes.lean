import Verif.Lemmas.Yield
import Verif.Lemmas.LogicLeaf
import Verif.Model.Parser
/-! The functions with which the parser puts nodes together. -/
namespace Verif
open Model Spec

variable {cfg : ParserConfig} {c c1 c2 c3 : Counters}

/-- The scripts so far -/
def flatB (b : Bounds) : List Node := b.sub.toList ++ b.sup.toList

/-- The nodes of a sequence so far -/
def flatSeq (nodes : List Node) : InfixFrac → List Node
  | none => nodes
  | some (num, _, _) => num ++ nodes

theorem weakFlags_or {a : OpAttrs} {x : OpAttrs} (h : WeakFlags a) (hx : ∀ i, 2 ≤ i → i ≤ 6 → x.getLsbD i = false) :
    WeakFlags (a ||| x) := by
  unfold WeakFlags at *
  simp only [BitVec.getLsbD_or, hx 2 (by omega) (by omega), hx 3 (by omega) (by omega), hx 4 (by omega) (by omega),
    hx 5 (by omega) (by omega), hx 6 (by omega) (by omega), Bool.or_false]
  exact h

theorem FlagsOk.weak {a : OpAttrs} (h : FlagsOk a) : WeakFlags a := by
  unfold FlagsOk at h
  exact ⟨h.2.1, h.2.2.1, h.2.2.2.1, h.2.2.2.2⟩

namespace Yield

theorem op {o : MathMLOperator} {a : OpAttrs} {z l r} (h : WeakFlags a) : Yield cfg c [.operator o a z l r] c :=
  leaf _ rfl h rfl

theorem letter {n : Node} (h : LetterNode n) : Yield cfg c [n] c := by
  rcases h with ⟨x, a, rfl, h⟩ | ⟨t, rfl⟩
  · exact leaf _ rfl h rfl
  · exact leaf _ rfl trivial rfl

theorem emptyRow : Yield cfg c [.emptyRow] c := leaf _ rfl trivial rfl

theorem space (l : Length) : Yield cfg c [.space l] c := leaf _ rfl trivial rfl

theorem row {ns : List Node} {a : RowAttrs} (h : Yield cfg c ns c1) : Yield cfg c [.row ns a] c1 :=
  wrap _ h (.refl _) trivial rfl

theorem cons {n : Node} {ns : List Node} (h : Yield cfg c [n] c1) (h2 : Yield cfg c1 ns c2) : Yield cfg c (n :: ns) c2 :=
  append h h2

theorem snoc {n : Node} {ns : List Node} (h : Yield cfg c ns c1) (h2 : Yield cfg c1 [n] c2) :
    Yield cfg c (ns ++ [n]) c2 := append h h2

theorem two {a b : Node} (h : Yield cfg c [a] c1) (h2 : Yield cfg c1 [b] c2) : Yield cfg c [a, b] c2 := append h h2

theorem three {a b d : Node} (h : Yield cfg c [a] c1) (h2 : Yield cfg c1 [b] c2) (h3 : Yield cfg c2 [d] c3) :
    Yield cfg c [a, b, d] c3 := append h (append h2 h3)

theorem nodeVec {ns : List Node} {b : Bool} (h : Yield cfg c ns c1) : Yield cfg c [nodeVecToNode ns b] c1 := by
  unfold nodeVecToNode
  split
  · split
    · split
      · rename_i op attrs z l r
        refine wrap _ (h.unwrap rfl) (.refl _) ?_ rfl
        exact h.local_
      · exact h
    · exact h
  · exact row h

/-- Put some of the nodes into a node without a tag. -/
theorem contract (n : Node) {a b : List Node} (h : Yield cfg c (a ++ b) c1) (hp : a.Perm (kids n)) (hl : LocalOk cfg n)
    (ht : tagOf n = none) : Yield cfg c (n :: b) c1 := by
  obtain ⟨h2, r1, p1, n1⟩ := h.perm (hp.append_right b)
  have he : nodesInList (n :: b) = n :: nodesInList (kids n ++ b) := by
    rw [nodesInList_cons, nodesIn_eq, nodesInList_append]; rfl
  refine ⟨?_, r1, ?_, n1⟩
  · rw [he]
    intro m hm
    rcases List.mem_cons.1 hm with rfl | hm
    · exact hl
    · exact h2 m hm
  · unfold tagsIn
    rw [he, List.filterMap_cons, ht]
    exact p1

theorem nodeVec' {ns b : List Node} {x : Bool} (h : Yield cfg c (ns ++ b) c1) :
    Yield cfg c (nodeVecToNode ns x :: b) c1 := by
  unfold nodeVecToNode
  split
  · split
    · split
      · rename_i op attrs z l r
        refine contract _ (a := []) (h.unwrap rfl) (.refl _) ?_ rfl
        exact h.head
      · exact h
    · exact h
  · exact contract _ h (.refl _) trivial rfl

theorem delim {d : Option StretchableOp} : Yield cfg c [delimOperator d] c := by
  unfold delimOperator
  split
  · refine op ?_
    split <;> decide
  · exact op (by decide)

theorem fence {ns : List Node} {o cl st} (h : Yield cfg c ns c1) : Yield cfg c [fenced ns o cl st] c1 :=
  row (cons delim (snoc h delim))

theorem frac {a b : Node} {lt u attr} (h : Yield cfg c [a] c1) (h2 : Yield cfg c1 [b] c2) :
    Yield cfg c [.frac a b lt u attr] c2 := wrap _ (two h h2) (.refl _) trivial rfl

theorem over {a b : Node} (h : Yield cfg c [a] c1) (h2 : Yield cfg c1 [b] c2) : Yield cfg c [.over a b] c2 :=
  wrap _ (two h h2) (.refl _) trivial rfl

theorem under {a b : Node} (h : Yield cfg c [a] c1) (h2 : Yield cfg c1 [b] c2) : Yield cfg c [.under a b] c2 :=
  wrap _ (two h h2) (.refl _) trivial rfl

theorem underover {t : Node} {b : Bounds} {n} (h : Yield cfg c [t] c1) (hb : Yield cfg c1 (flatB b) c2)
    (hn : b.tryWrapNodeUnderover t = some n) : Yield cfg c [n] c2 := by
  obtain ⟨sub, sup⟩ := b
  unfold Bounds.tryWrapNodeUnderover at hn
  have hx := h.append hb
  cases sub <;> cases sup <;> simp only [flatB, Option.toList] at hx hn <;> cases hn
  · exact wrap _ hx (.swap _ _ _) trivial rfl
  · exact wrap _ hx (.swap _ _ _) trivial rfl
  · exact wrap _ hx (.refl _) trivial rfl

theorem subsup {t : Node} {b : Bounds} {n} (h : Yield cfg c [t] c1) (hb : Yield cfg c1 (flatB b) c2)
    (hn : b.tryWrapNodeSubsup t = some n) : Yield cfg c [n] c2 := by
  obtain ⟨sub, sup⟩ := b
  unfold Bounds.tryWrapNodeSubsup at hn
  have hx := h.append hb
  cases sub <;> cases sup <;> simp only [flatB, Option.toList] at hx hn <;> cases hn
  · exact wrap _ hx (.refl _) trivial rfl
  · exact wrap _ hx (.refl _) trivial rfl
  · exact wrap _ hx (.refl _) trivial rfl

theorem bounds_none_uo {t : Node} {b : Bounds} (hn : b.tryWrapNodeUnderover t = none) : flatB b = [] := by
  obtain ⟨sub, sup⟩ := b
  cases sub <;> cases sup <;> first | rfl | cases hn

theorem bounds_none_ss {t : Node} {b : Bounds} (hn : b.tryWrapNodeSubsup t = none) : flatB b = [] := by
  obtain ⟨sub, sup⟩ := b
  cases sub <;> cases sup <;> first | rfl | cases hn

theorem getD_none {t : Node} {b : Bounds} (h : Yield cfg c [t] c1) (hb : Yield cfg c1 (flatB b) c2) (he : flatB b = []) :
    Yield cfg c [t] c2 := by
  have := h.append hb
  rw [he, List.append_nil] at this
  exact this

theorem boundsWrap {t : Node} {b : Bounds} {u} (h : Yield cfg c [t] c1) (hb : Yield cfg c1 (flatB b) c2) :
    Yield cfg c [b.wrap u t] c2 := by
  unfold Bounds.wrap
  cases u with
  | true =>
    simp only [if_true]
    cases hn : b.tryWrapNodeUnderover t with
    | none => exact getD_none h hb (bounds_none_uo hn)
    | some n => exact underover h hb hn
  | false =>
    simp only [Bool.false_eq_true, if_false]
    cases hn : b.tryWrapNodeSubsup t with
    | none => exact getD_none h hb (bounds_none_ss hn)
    | some n => exact subsup h hb hn

theorem optional {o : Option Node} (h : Yield cfg c o.toList c1) : Yield cfg c [o.getD .emptyRow] c1 := by
  cases o with
  | none =>
    have := (emptyRow (cfg := cfg) (c := c)).append h
    exact this
  | some n => exact h

/-- Both scripts one after the other -/
theorem pair {b : Bounds} (hb : Yield cfg c (flatB b) c1) : Yield cfg c [b.toPair.1, b.toPair.2] c1 := by
  obtain ⟨sub, sup⟩ := b
  cases sub <;> cases sup <;> simp only [flatB, Option.toList, Bounds.toPair, Option.getD] at hb ⊢
  · exact (two emptyRow emptyRow).append hb
  · exact cons emptyRow hb
  · exact snoc (ns := [_]) hb emptyRow
  · exact hb

theorem attach {t : Node} {b : Bounds} (h : Yield cfg c [t] c1) (hb : Yield cfg c1 (flatB b) c2) :
    Yield cfg c [Rec.attachScripts t b] c2 := by
  unfold Rec.attachScripts
  split
  · rename_i base pre
    split
    · rename_i ht
      refine getD_none h hb ?_
      obtain ⟨sub, sup⟩ := b
      cases sub <;> cases sup <;> first | rfl | cases ht
    · have h1 := (h.unwrap (a := []) rfl).append (pair hb)
      exact wrap _ h1 (by simp [kids]) trivial rfl
  · cases hn : b.tryWrapNodeSubsup t with
    | none => exact getD_none h hb (bounds_none_ss hn)
    | some n => exact subsup h hb hn

theorem finishInfix {ns : List Node} {inf : InfixFrac} (h : Yield cfg c (flatSeq ns inf) c1) :
    Yield cfg c (Rec.finishInfix ns inf) c1 := by
  unfold Rec.finishInfix
  split
  · exact h
  · rename_i num wl d
    have hf : ∀ lt u, Yield cfg c [.frac (nodeVecToNode num false) (nodeVecToNode ns false) lt u none] c1 := by
      intro lt u
      have h1 := (nodeVec' (x := false) h).perm (List.perm_append_comm (l₁ := [_]))
      exact wrap _ (nodeVec' (x := false) h1) (.swap _ _ _) trivial rfl
    cases d with
    | none => exact hf _ _
    | some d => cases d <;> exact fence (hf _ _)

theorem mathClass {n : Node} {l r} (h : Yield cfg c [n] c1) : Yield cfg c [mathClassNode n l r] c1 := by
  unfold mathClassNode
  split
  · refine wrap _ (h.unwrap rfl) (.refl _) ?_ rfl
    refine weakFlags_or h.local_ ?_
    intro i h1 h2
    have : i = 2 ∨ i = 3 ∨ i = 4 ∨ i = 5 ∨ i = 6 := by omega
    rcases this with rfl | rfl | rfl | rfl | rfl <;> decide
  · exact wrap _ (h.unwrap rfl) (.refl _) (show WeakFlags OpAttrs.empty by decide) rfl
  · exact wrap _ h (.refl _) trivial rfl

theorem overlay {n m : Node} {o} (h : Yield cfg c [n] c1) (hm : overlayNode o n = some m) : Yield cfg c [m] c1 := by
  unfold overlayNode at hm
  split at hm <;> cases hm
  · exact wrap _ (h.unwrap rfl) (.refl _) h.local_ rfl
  · refine wrap _ (h.unwrap rfl) (.refl _) ?_ rfl
    exact LetterOk.withOverlay _ h.local_
  · exact wrap _ (h.unwrap rfl) (.refl _) h.local_ rfl
  · exact wrap _ (h.unwrap rfl) (.refl _) trivial rfl

theorem pair' {b : Bounds} {rest : List Node} (h : Yield cfg c (flatB b ++ rest) c1) :
    Yield cfg c ([b.toPair.1, b.toPair.2] ++ rest) c1 := by
  obtain ⟨sub, sup⟩ := b
  cases sub <;> cases sup <;> simp only [flatB, Option.toList, Bounds.toPair, Option.getD] at h ⊢
  · exact cons emptyRow (cons emptyRow h)
  · exact cons emptyRow h
  · exact (cons emptyRow h).perm (.swap _ _ _)
  · exact h

theorem sideset {op : Node} {pre post : Bounds} {aPre aPost : List Node} (hop : Yield cfg c [op] c)
    (h1 : Yield cfg c (flatB pre ++ aPre) c1) (h2 : Yield cfg c1 (flatB post ++ aPost) c2) :
    Yield cfg c [Rec.sidesetNode op pre post aPre aPost] c2 := by
  classical
  have hx := hop.append (h1.append h2)
  have hbase : ∀ base, base = (if aPre.isEmpty then op else Node.row (aPre ++ [op]) {}) →
      Yield cfg c (base :: (flatB pre ++ (flatB post ++ aPost))) c2 := by
    rintro base rfl
    split
    · rename_i he
      rw [List.isEmpty_iff.1 he, List.append_nil] at hx
      exact hx
    · refine contract _ (a := aPre ++ [op]) (hx.perm ?_) (.refl _) trivial rfl
      rw [List.perm_iff_count]; intro a
      simp only [List.count_append, List.count_cons, List.count_nil]; omega
  have hb := hbase _ rfl
  generalize hbs : (if aPre.isEmpty then op else Node.row (aPre ++ [op]) {}) = base at hb
  have hb1 := pair' (b := pre) (rest := flatB post ++ (base :: aPost)) (hb.perm (by
    rw [List.perm_iff_count]; intro a
    simp only [List.count_append, List.count_cons]; omega))
  have hb2 := pair' (b := post) (rest := [pre.toPair.1, pre.toPair.2] ++ (base :: aPost)) (hb1.perm (by
    rw [List.perm_iff_count]; intro a
    simp only [List.count_append, List.count_cons]; omega))
  have hnode := contract (Node.multiscripts base [pre.toPair] [post.toPair]) (b := aPost) (a := _) (hb2.perm (by
      rw [List.perm_iff_count]; intro a
      simp only [List.count_append, List.count_cons, List.count_nil, kids, List.flatMap_cons, List.flatMap_nil]
      omega)) (.refl _) trivial rfl
  unfold Rec.sidesetNode
  simp only [hbs]
  split
  · rename_i he
    rw [List.isEmpty_iff.1 he] at hnode
    exact hnode
  · exact row hnode

theorem nil_eq {n : Node} (h : Yield cfg c [] c1) (h2 : Yield cfg c1 [n] c2) : Yield cfg c [n] c2 := h.append h2

theorem xarrow {rel : Rel} {l r} {u : Option Node} {o : Node} (h1 : Yield cfg c u.toList c1) (h2 : Yield cfg c1 [o] c2) :
    Yield cfg c [Rec.xarrowNode rel l r u o] c2 := by
  unfold Rec.xarrowNode
  have hov : Yield cfg c1 [Node.over (.space (LatexUnit.lengthWithUnit .em (35/10)))
      (nodeVecToNode [.space (LatexUnit.lengthWithUnit .em (4286/10000)), o,
        .space (LatexUnit.lengthWithUnit .em (4286/10000))] false)] c2 :=
    over (space _) (nodeVec (three (space _) h2 (space _)))
  have harrow : ∀ c, Yield cfg c [Node.operator rel.asOp (if rel.cat = .A then OpAttrs.empty else OpAttrs.stretchyTrue)
      none l r] c := fun c => op (by split <;> decide)
  refine row (three (space _) ?_ (space _))
  cases u with
  | none =>
    exact nil_eq h1 (over hov (harrow _))
  | some u =>
    exact wrap _ (three (harrow _) (under (space _) (nodeVec (three (space _) h1 (space _)))) hov) (.refl _) trivial rfl

end Yield
end Verif

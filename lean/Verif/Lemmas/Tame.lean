import Verif.Spec.Tame
import Verif.Lemmas.NextRow
import Verif.Lemmas.Harmless
/-! The meanings of formulas without the known defects can be emitted. -/
namespace Verif
open Model Spec

/-- A node without the known defects -/
structure CalmNode (m : Node) : Prop where
  inner : isTable m = false → ∀ k ∈ kids m, isSeparator k = false
  stretch : ∀ op attrs size l r, m = .operator op attrs size l r → ¬ (attrs.getLsbD 0 ∧ attrs.getLsbD 1)
  names : ∀ attrs l r name, m = .pseudoOp attrs l r name → PlainText name
  unknown : ∀ name, m ≠ .unknownCommand name

/-- A node which may stand anywhere -/
structure Good (n : Node) : Prop where
  sep : isSeparator n = false
  all : ∀ m ∈ nodesIn n, CalmNode m

/-- Nodes which may stand in a formula -/
def GoodIn (sep : Bool) (ns : List Node) : Prop :=
  ∀ n ∈ ns, (sep = false → isSeparator n = false) ∧ ∀ m ∈ nodesIn n, CalmNode m

theorem mem_inList {m : Node} {ns : List Node} : m ∈ nodesInList ns ↔ ∃ n ∈ ns, m ∈ nodesIn n := by
  induction ns with
  | nil => simp [nodesInList_nil]
  | cons n ns ih => rw [nodesInList_cons]; simp [ih]

theorem good_of {n : Node} (hs : isSeparator n = false) (hc : CalmNode n) (hk : ∀ k ∈ kids n, ∀ m ∈ nodesIn k, CalmNode m) : Good n := by
  refine ⟨hs, fun m hm => ?_⟩
  rw [nodesIn_eq] at hm
  rcases List.mem_cons.1 hm with rfl | hm
  · exact hc
  · obtain ⟨k, h1, h2⟩ := mem_inList.1 hm
    exact hk k h1 m h2

/-- A node whose parts are good, and which is not an operator, a name or an unknown command -/
def ordinary : Node → Bool
  | .operator .. | .pseudoOp .. | .unknownCommand .. | .columnSeparator | .rowSeparator .. => false
  | _ => true

theorem good_kids {n : Node} (h : ordinary n = true) (hk : ∀ k ∈ kids n, Good k) : Good n := by
  refine good_of ?_ ⟨fun _ k hk' => (hk k hk').sep, ?_, ?_, ?_⟩ fun k hk' => (hk k hk').all
  · cases n <;> first | rfl | cases h
  · rintro _ _ _ _ _ rfl; cases h
  · rintro _ _ _ _ rfl; cases h
  · rintro _ rfl; cases h

theorem good_table {n : Node} (h : ordinary n = true) (ht : isTable n = true) (hk : GoodIn true (kids n)) : Good n := by
  refine good_of ?_ ⟨fun h2 => ?_, ?_, ?_, ?_⟩ fun k hk' => (hk k hk').2
  · cases n <;> first | rfl | cases h
  · rw [ht] at h2; cases h2
  · rintro _ _ _ _ _ rfl; cases h
  · rintro _ _ _ _ rfl; cases h
  · rintro _ rfl; cases h

theorem good_op {op attrs size l r} (h : ¬ (attrs.getLsbD 0 ∧ attrs.getLsbD 1)) : Good (.operator op attrs size l r) := by
  refine good_of rfl ⟨fun _ => by simp [kids], ?_, nofun, nofun⟩ (by simp [kids])
  rintro _ _ _ _ _ ⟨⟩
  exact h

theorem goodIn_of_good {ns : List Node} (h : ∀ n ∈ ns, Good n) (sep : Bool) : GoodIn sep ns :=
  fun n hn => ⟨fun _ => (h n hn).sep, (h n hn).all⟩

theorem good_of_goodIn {ns : List Node} (h : GoodIn false ns) : ∀ n ∈ ns, Good n :=
  fun n hn => ⟨(h n hn).1 rfl, (h n hn).2⟩

theorem goodIn_cons {sep : Bool} {n : Node} {ns : List Node} (h : Good n) (hs : GoodIn sep ns) : GoodIn sep (n :: ns) := by
  intro m hm
  rcases List.mem_cons.1 hm with rfl | hm
  · exact ⟨fun _ => h.sep, h.all⟩
  · exact hs m hm

theorem good_row {ns : List Node} (h : GoodIn false ns) (a : RowAttrs) : Good (.row ns a) :=
  good_kids rfl (good_of_goodIn h)

theorem good_vec {ns : List Node} (h : GoodIn false ns) (reset : Bool) : Good (nodeVecToNode ns reset) := by
  unfold nodeVecToNode
  split
  · rename_i single
    have hg := good_of_goodIn h single (List.mem_singleton.2 rfl)
    split
    · split
      · rename_i op attrs _ _ _
        exact good_op ((hg.all _ (mem_nodesIn_self _)).stretch _ _ _ _ _ rfl)
      · exact hg
    · exact hg
  · exact good_row h _

theorem good_unlessSingle {ns : List Node} (h : GoodIn false ns) : Good (Rec.rowUnlessSingle ns) := by
  unfold Rec.rowUnlessSingle
  split
  · exact good_of_goodIn h _ (List.mem_singleton.2 rfl)
  · exact good_row h _

/-- Scripts which may stand anywhere -/
structure GoodBounds (b : Bounds) : Prop where
  sub : ∀ n, b.sub = some n → Good n
  sup : ∀ n, b.sup = some n → Good n

theorem good_empty : Good .emptyRow := good_kids rfl (by intro k hk; cases hk)

theorem goodBounds_empty : GoodBounds {} := ⟨by rintro _ ⟨⟩, by rintro _ ⟨⟩⟩

theorem good_atom (style : Style) (inSeq : Bool) (prev next : Class) (t : Token) : Good (atomNode style inSeq prev next t).2 := by
  unfold atomNode
  split <;> first
    | (refine good_kids rfl ?_; simp only [kids]; simp; done)
    | (refine good_op ?_; decide)
    | exact good_empty
    | skip
  · rename_i rel
    refine good_op ?_
    cases rel.cat <;> decide
  · unfold ordNode
    dsimp only
    refine good_op ?_
    split <;> decide
  · unfold parenNode
    dsimp only
    refine good_op ?_
    split <;> split <;> decide
  · unfold parenNode
    dsimp only
    refine good_op ?_
    split <;> split <;> decide

theorem good_delim (d : Option StretchableOp) : Good (delimOperator d) := by
  unfold delimOperator
  split
  · dsimp only
    refine good_op ?_
    split <;> decide
  · refine good_op ?_; decide

theorem good_fenced {ns : List Node} (h : GoodIn false ns) (o c : Option StretchableOp) (s : Option Style) :
    Good (fenced ns o c s) := by
  unfold fenced
  refine good_row ?_ _
  intro n hn
  rcases List.mem_cons.1 hn with rfl | hn
  · exact ⟨fun _ => (good_delim _).sep, (good_delim _).all⟩
  · rcases List.mem_append.1 hn with hn | hn
    · exact h n hn
    · cases List.mem_singleton.1 hn
      exact ⟨fun _ => (good_delim _).sep, (good_delim _).all⟩

theorem kids_good {n : Node} (h : Good n) (ht : isTable n = false) : ∀ k ∈ kids n, Good k := by
  intro k hk
  refine ⟨(h.all _ (mem_nodesIn_self _)).inner ht k hk, fun m hm => h.all m ?_⟩
  rw [nodesIn_eq]
  exact .tail _ (mem_inList.2 ⟨k, hk, hm⟩)

theorem good_scripts {n : Node} {b : Bounds} (h : Good n) (hb : GoodBounds b) : Good (withScripts n b) := by
  unfold withScripts
  split
  · exact h
  · rename_i base pre _
    have hk := kids_good h rfl
    refine good_kids rfl fun k hk' => ?_
    have : k ∈ kids (.multiscripts base pre []) ∨ k = b.toPair.1 ∨ k = b.toPair.2 := by
      simp only [kids, List.flatMap_cons, List.flatMap_nil, List.append_nil, List.mem_cons, List.mem_append,
        List.not_mem_nil, or_false] at hk' ⊢
      grind
    have hx : ∀ o : Option Node, (∀ n, o = some n → Good n) → Good (o.getD .emptyRow) := by
      intro o ho
      cases o with
      | none => exact good_empty
      | some n => exact ho n rfl
    rcases this with h | rfl | rfl
    · exact hk k h
    · exact hx _ hb.sub
    · exact hx _ hb.sup
  · exact h
  · exact good_kids rfl (by simp only [kids]; simp; exact ⟨h, hb.sub _ rfl⟩)
  · exact good_kids rfl (by simp only [kids]; simp; exact ⟨h, hb.sup _ rfl⟩)
  · exact good_kids rfl (by simp only [kids]; simp; exact ⟨h, hb.sub _ rfl, hb.sup _ rfl⟩)

theorem good_limits {n : Node} {b : Bounds} (h : Good n) (hb : GoodBounds b) : Good (withLimits n b) := by
  unfold withLimits
  split
  · exact h
  · exact good_kids rfl (by simp only [kids]; simp; exact ⟨hb.sub _ rfl, h⟩)
  · exact good_kids rfl (by simp only [kids]; simp; exact ⟨hb.sup _ rfl, h⟩)
  · exact good_kids rfl (by simp only [kids]; simp; exact ⟨h, hb.sub _ rfl, hb.sup _ rfl⟩)

theorem good_opNode {limits : Bool} {n : Node} {b : Bounds} (h : Good n) (hb : GoodBounds b) : Good (opNode limits n b) := by
  unfold opNode
  split
  · exact good_limits h hb
  · exact good_scripts h hb

theorem good_env {e : Env} {ns : List Node} {spec : Option ArraySpec} {info : Option RowLabelInfo} {rows : Option Nat}
    {line : Option LineType} {n : Node} (h : GoodIn true ns)
    (hn : e.constructNode ns spec info rows line = some n) : Good n := by
  have hf : ∀ {x : Node} {o c : Option StretchableOp}, Good x → Good (fenced [x] o c none) := by
    intro x o c hx
    refine good_fenced (fun m hm => ?_) _ _ _
    cases List.mem_singleton.1 hm
    exact ⟨fun _ => hx.sep, hx.all⟩
  cases e <;> simp only [Env.constructNode, Env.constructNode.matrixNode, Option.map_eq_some_iff] at hn <;> first
    | (cases hn; exact good_table rfl rfl h)
    | (cases hn; exact hf (good_table rfl rfl h))
    | (obtain ⟨s, -, rfl⟩ := hn; exact good_table rfl rfl h)

theorem except_bind_ok {α β ε : Type} {m : Except ε α} {k : α → Except ε β} {b : β} (h : (m >>= k) = .ok b) :
    ∃ a, m = .ok a ∧ k a = .ok b := by
  cases m with
  | error e => cases h
  | ok a => exact ⟨a, rfl, h⟩

/-! ### Operators in the argument of `\mathrel` -/

/-- Not an operator which is made to stretch -/
def Slack (n : Node) : Prop := ∀ op attrs size l r, n = .operator op attrs size l r → attrs.getLsbD 1 = false

theorem slack_op {op attrs size l r} (h : BitVec.getLsbD attrs 1 = false) : Slack (.operator op attrs size l r) := by
  rintro _ _ _ _ _ ⟨⟩
  exact h

/-- Operators -/
def isOperator : Node → Bool
  | .operator .. => true
  | _ => false

theorem slack_of {n : Node} (h : isOperator n = false) : Slack n := by
  rintro _ _ _ _ _ rfl
  cases h

theorem slack_vec {ns : List Node} (h : ∀ n ∈ ns, Slack n) (reset : Bool) : Slack (nodeVecToNode ns reset) := by
  unfold nodeVecToNode
  split
  · rename_i single
    have hg := h single (List.mem_singleton.2 rfl)
    split
    · split
      · exact slack_op (hg _ _ _ _ _ rfl)
      · exact hg
    · exact hg
  · exact slack_of rfl

theorem slack_scripts {n : Node} {b : Bounds} (h : Slack n) : Slack (withScripts n b) := by
  unfold withScripts
  split <;> first | exact h | exact slack_of rfl

theorem slack_limits {n : Node} {b : Bounds} (h : Slack n) : Slack (withLimits n b) := by
  unfold withLimits
  split <;> first | exact h | exact slack_of rfl

theorem slack_opNode {limits : Bool} {n : Node} {b : Bounds} (h : Slack n) : Slack (opNode limits n b) := by
  unfold opNode
  split
  · exact slack_limits h
  · exact slack_scripts h

theorem slack_atom (style : Style) (inSeq : Bool) (prev next : Class) (t : Token) : Slack (atomNode style inSeq prev next t).2 := by
  unfold atomNode
  split <;> first
    | (exact slack_of rfl; done)
    | (refine slack_op ?_; decide)
    | skip
  · rename_i rel
    refine slack_op ?_
    cases rel.cat <;> decide
  · unfold ordNode
    dsimp only
    refine slack_op ?_
    split <;> decide
  · unfold parenNode
    dsimp only
    refine slack_op ?_
    split <;> split <;> decide
  · unfold parenNode
    dsimp only
    refine slack_op ?_
    split <;> split <;> decide

theorem slack_class {n : Node} {l r : Option MathSpacing} (h : Slack n) : Slack (mathClassNode n l r) := by
  unfold mathClassNode
  split
  · refine slack_op ?_
    have := h _ _ _ _ _ rfl
    rw [BitVec.getLsbD_or, this]
    decide
  · exact slack_op (by decide)
  · exact slack_of rfl

theorem good_class {n : Node} {l r : Option MathSpacing} (h : Good n) (hs : Slack n) : Good (mathClassNode n l r) := by
  unfold mathClassNode
  split
  · refine good_op ?_
    have := hs _ _ _ _ _ rfl
    intro hb
    have h1 := hb.2
    rw [BitVec.getLsbD_or, this] at h1
    revert h1
    decide
  · exact good_op (by decide)
  · exact good_kids rfl (by simp only [kids]; simpa using h)

theorem slack_struck {o : OverlayChar} {n n' : Node} (hd : struck o n = .ok n') (h : Slack n) : Slack n' := by
  unfold struck at hd
  cases n <;> simp only [overlayNode] at hd <;> cases hd <;>
    first
      | exact slack_op (h _ _ _ _ _ rfl)
      | exact slack_of rfl

theorem plain_overlay {o : OverlayChar} {s : Str} (h : PlainText s) : PlainText (overlayText o s) := by
  have hs : (afterFirstCharAndVs s).1 ++ (afterFirstCharAndVs s).2 = s := by
    unfold afterFirstCharAndVs
    split
    · rfl
    · rfl
    · split <;> rfl
  have key : ∀ c, c ≠ o.toChar → c ∉ s → c ∉ overlayText o s := by
    intro c ho hc hm
    unfold overlayText at hm
    rw [List.mem_append, List.mem_cons] at hm
    rw [← hs] at hc
    rcases hm with hm | hm | hm
    · exact hc (List.mem_append_left _ hm)
    · exact ho hm
    · exact hc (List.mem_append_right _ hm)
  exact ⟨key _ (by cases o <;> decide) h.1, key _ (by cases o <;> decide) h.2.1, key _ (by cases o <;> decide) h.2.2⟩

theorem good_struck {o : OverlayChar} {n n' : Node} (hd : struck o n = .ok n') (h : Good n) : Good n' := by
  unfold struck at hd
  have hself : CalmNode n := h.all n (by rw [nodesIn_eq]; exact List.mem_cons_self)
  cases n <;> simp only [overlayNode] at hd <;> cases hd <;>
    first
      | exact good_op (hself.stretch _ _ _ _ _ rfl)
      | exact good_kids rfl (by simp [kids])
      | (refine good_of rfl ⟨fun _ => by simp [kids], nofun, ?_, nofun⟩ (by simp [kids])
         rintro _ _ _ _ ⟨⟩
         exact plain_overlay (hself.names _ _ _ _ rfl))

theorem getLsb_limits {m : Bool} {lim : Option LimitsKind} {b : Bounds} : (limitsAttrs m lim b).getLsbD 1 = false := by
  unfold limitsAttrs
  split
  · decide
  · split <;> decide

theorem getLsb_big {d : StretchableOp} {a : OpAttrs} (ha : a = .empty ∨ a = .formInfix ∨ a = .formPrefix ∨ a = .formPostfix) :
    ¬ ((bigAttrs d.stretchy ||| a).getLsbD 0 ∧ (bigAttrs d.stretchy ||| a).getLsbD 1) ∧
    ((decide (d.stretchy = .always) || decide (d.stretchy = .alwaysAsymmetric)) = true →
      (bigAttrs d.stretchy ||| a).getLsbD 1 = false) := by
  cases d.stretchy <;> rcases ha with rfl | rfl | rfl | rfl <;> decide

theorem getLsb_middle {d : StretchableOp} : ¬ ((middleStretchAttrs d).getLsbD 0 ∧ (middleStretchAttrs d).getLsbD 1) ∧
    ((decide (d.stretchy = .always) || decide (d.stretchy = .alwaysAsymmetric)) = true →
      (middleStretchAttrs d).getLsbD 1 = false) := by
  unfold middleStretchAttrs
  cases d.stretchy <;> decide

theorem good_word {tf : MathVariant} {cs : List SuperChar} {p : Prop} :
    Good (wordNode tf cs) ∧ (p → Slack (wordNode tf cs)) := by
  unfold wordNode
  split <;> exact ⟨good_kids rfl (by simp [kids]), fun _ => slack_of rfl⟩

theorem leaf_cases {x : Leaf} {style : Style} {prev next : Class} {r : Class × Node}
    (hd : x.denote style prev next = .ok r) : Good r.2 ∧ ((Base.leaf x).unstretched = true → Slack r.2) := by
  have hop : ∀ {op attrs size l r}, ¬ (BitVec.getLsbD attrs 0 ∧ BitVec.getLsbD attrs 1) ∧
      ((Base.leaf x).unstretched = true → BitVec.getLsbD attrs 1 = false) →
      Good (.operator op attrs size l r) ∧ ((Base.leaf x).unstretched = true → Slack (.operator op attrs size l r)) :=
    fun h => ⟨good_op h.1, fun hu => slack_op (h.2 hu)⟩
  have hor : ∀ a : OpAttrs, a ||| .empty = a := by intro a; exact BitVec.or_zero
  cases x with
  | big size side t =>
    simp only [Leaf.denote, someDelim] at hd
    cases hdel : t.unwrapMath.delimiter with
    | none => rw [hdel] at hd; cases hd
    | some d =>
      rw [hdel] at hd
      cases hd
      have hu : (Base.leaf (.big size side t)).unstretched =
          (decide (d.stretchy = .always) || decide (d.stretchy = .alwaysAsymmetric)) := by
        simp only [Base.unstretched, stretchesItself, hdel]
      rw [hu] at hop ⊢
      have h0 := getLsb_big (d := d) (a := .empty) (Or.inl rfl)
      rw [hor] at h0
      unfold bigNode
      dsimp only
      split
      · dsimp only
        refine hop ?_
        split
        · exact getLsb_big (by simp)
        · exact h0
      · dsimp only
        split
        · exact hop (getLsb_big (by simp))
        · exact hop h0
      · dsimp only
        split
        · exact hop (getLsb_big (by simp))
        · exact hop h0
      · exact hop h0
  | middle t =>
    simp only [Leaf.denote, someDelim] at hd
    cases hdel : t.unwrapMath.delimiter with
    | none => rw [hdel] at hd; cases hd
    | some d =>
      rw [hdel] at hd
      cases hd
      have hu : (Base.leaf (.middle t)).unstretched =
          (decide (d.stretchy = .always) || decide (d.stretchy = .alwaysAsymmetric)) := by
        simp only [Base.unstretched, stretchesItself, hdel]
      rw [hu] at hop ⊢
      exact hop getLsb_middle
  | eqRef text =>
    simp only [Leaf.denote] at hd
    cases hd
    exact ⟨good_kids rfl (by simp [kids]), fun _ => slack_of rfl⟩
  | hspace kind text =>
    simp only [Leaf.denote] at hd
    split at hd
    · split at hd
      · cases hd
        exact ⟨good_kids rfl (by simp [kids]), fun _ => slack_of rfl⟩
      · cases hd
    · cases hd
  | textBox style text =>
    simp only [Leaf.denote] at hd
    cases hd
    dsimp only
    split
    · exact ⟨good_empty, fun _ => slack_of rfl⟩
    · exact ⟨good_kids rfl (by simp [kids]), fun _ => slack_of rfl⟩
  | font tf text =>
    simp only [Leaf.denote] at hd
    cases hd
    exact good_word
  | fontTok tf t =>
    simp only [Leaf.denote] at hd
    cases hd
    exact good_word

theorem slack_fenced {ns : List Node} {o c : Option StretchableOp} {s : Option Style} : Slack (fenced ns o c s) :=
  slack_of rfl

theorem slack_endEnv {e e' : Env} {spec : Option ArraySpec} {line : Option LineType} {ns : List Node} {l0 l l' : Loc}
    {r : Class × Node} (h : endEnv e e' spec line ns l0 l = .ok (r, l')) : Slack r.2 := by
  have hc : ∀ {info rows n}, e.constructNode ns spec info rows line = some n → Slack n := by
    intro info rows n hn
    cases e <;> simp only [Env.constructNode, Env.constructNode.matrixNode, Option.map_eq_some_iff] at hn <;> first
      | (cases hn; exact slack_of rfl)
      | (cases hn; exact slack_fenced)
      | (obtain ⟨s, -, rfl⟩ := hn; exact slack_of rfl)
  unfold endEnv at h
  split at h
  · cases h
  · dsimp only at h
    split at h
    · split at h
      · cases h; exact hc ‹_›
      · cases h
    · obtain ⟨⟨i, n', l4⟩, -, h⟩ := except_bind_ok h
      split at h
      · cases h; exact hc ‹_›
      · cases h

mutual
theorem slack_form : ∀ (f : Form), f.unstretched = true → ∀ (l : Loc) (prev nxt : Class) (ns : List Node) (l' : Loc),
    f.denote l prev nxt = .ok (ns, l') → ∀ n ∈ ns, Slack n
  | .nil, _, l, prev, nxt, ns, l', hd => by
    simp only [Form.denote] at hd
    cases hd
    simp
  | .item b s rest, h, l, prev, nxt, ns, l', hd => by
    simp only [Form.unstretched, Bool.and_eq_true] at h
    simp only [Form.denote] at hd
    obtain ⟨⟨r1, l1⟩, hd1, hd⟩ := except_bind_ok hd
    obtain ⟨⟨r2, l2⟩, hd2, hd⟩ := except_bind_ok hd
    obtain ⟨⟨r3, l3⟩, hd3, hd⟩ := except_bind_ok hd
    cases hd
    simp only [List.forall_mem_cons]
    exact ⟨slack_scripts (slack_base b h.1 _ _ _ _ _ hd1), slack_form rest h.2 _ _ _ _ _ hd3⟩
  | .bigOp o s rest, h, l, prev, nxt, ns, l', hd => by
    simp only [Form.unstretched] at h
    simp only [Form.denote] at hd
    split at hd
    · obtain ⟨⟨r2, l2⟩, hd2, hd⟩ := except_bind_ok hd
      obtain ⟨⟨r3, l3⟩, hd3, hd⟩ := except_bind_ok hd
      cases hd
      simp only [List.forall_mem_cons]
      exact ⟨slack_scripts (slack_op (by decide)), slack_form rest h _ _ _ _ _ hd3⟩
    · obtain ⟨⟨r2, l2⟩, hd2, hd⟩ := except_bind_ok hd
      obtain ⟨⟨r3, l3⟩, hd3, hd⟩ := except_bind_ok hd
      cases hd
      simp only [List.forall_mem_cons]
      refine ⟨slack_opNode (slack_op ?_), slack_form rest h _ _ _ _ _ hd3⟩
      exact getLsb_limits
  | .func name lim s rest, h, l, prev, nxt, ns, l', hd => by
    simp only [Form.unstretched] at h
    simp only [Form.denote] at hd
    obtain ⟨⟨r2, l2⟩, hd2, hd⟩ := except_bind_ok hd
    obtain ⟨⟨r3, l3⟩, hd3, hd⟩ := except_bind_ok hd
    cases hd
    simp only [List.forall_mem_cons]
    exact ⟨slack_opNode (slack_of rfl), slack_form rest h _ _ _ _ _ hd3⟩
  | .amp rest, h, l, prev, nxt, ns, l', hd => by
    simp only [Form.unstretched] at h
    simp only [Form.denote] at hd
    split at hd
    · obtain ⟨⟨r3, l3⟩, hd3, hd⟩ := except_bind_ok hd
      cases hd
      simp only [List.forall_mem_cons]
      exact ⟨slack_of rfl, slack_form rest h _ _ _ _ _ hd3⟩
    · cases hd
  | .newLine line rest, h, l, prev, nxt, ns, l', hd => by
    simp only [Form.unstretched] at h
    simp only [Form.denote] at hd
    obtain ⟨⟨r2, l2⟩, hd2, hd⟩ := except_bind_ok hd
    obtain ⟨⟨r3, l3⟩, hd3, hd⟩ := except_bind_ok hd
    cases hd
    simp only [List.forall_mem_cons]
    refine ⟨?_, slack_form rest h _ _ _ _ _ hd3⟩
    rcases (lineBreak_ok (nextRow_ok hd2)).2 with h | ⟨i, h⟩ <;> (rw [h]; exact slack_of rfl)
  | .call _ _ _ cont, h, l, prev, nxt, ns, l', hd => by
    simp only [Form.unstretched] at h
    simp only [Form.denote] at hd
    obtain ⟨l1, -, hd⟩ := except_bind_ok hd
    exact slack_form cont h _ _ _ _ _ hd
  | .emptyCall _ _ s rest, h, l, prev, nxt, ns, l', hd => by
    simp only [Form.unstretched] at h
    simp only [Form.denote] at hd
    obtain ⟨l1, -, hd⟩ := except_bind_ok hd
    obtain ⟨⟨r2, l2⟩, hd2, hd⟩ := except_bind_ok hd
    obtain ⟨⟨r3, l3⟩, hd3, hd⟩ := except_bind_ok hd
    cases hd
    simp only [List.forall_mem_cons]
    exact ⟨slack_scripts (slack_of rfl), slack_form rest h _ _ _ _ _ hd3⟩
  | .noNumber rest, h, l, prev, nxt, ns, l', hd => by
    simp only [Form.unstretched] at h
    simp only [Form.denote] at hd
    exact slack_form rest h _ _ _ _ _ hd
  | .tag paren text rest, h, l, prev, nxt, ns, l', hd => by
    simp only [Form.unstretched] at h
    simp only [Form.denote] at hd
    obtain ⟨l1, -, hd⟩ := except_bind_ok hd
    exact slack_form rest h _ _ _ _ _ hd
  | .label text rest, h, l, prev, nxt, ns, l', hd => by
    simp only [Form.unstretched] at h
    simp only [Form.denote] at hd
    obtain ⟨l1, -, hd⟩ := except_bind_ok hd
    exact slack_form rest h _ _ _ _ _ hd
  | .style st rest, h, l, prev, nxt, ns, l', hd => by
    simp only [Form.denote] at hd
    obtain ⟨⟨r, l1⟩, hd1, hd⟩ := except_bind_ok hd
    cases hd
    simp only [List.forall_mem_cons]
    exact ⟨slack_of rfl, by simp⟩
  | .color name rest, h, l, prev, nxt, ns, l', hd => by
    simp only [Form.denote] at hd
    obtain ⟨c, -, hd⟩ := except_bind_ok hd
    obtain ⟨⟨r, l1⟩, hd1, hd⟩ := except_bind_ok hd
    cases hd
    simp only [List.forall_mem_cons]
    exact ⟨slack_of rfl, by simp⟩

theorem slack_base : ∀ (b : Base), b.unstretched = true → ∀ (l : Loc) (prev nxt : Class) (r : Class × Node) (l' : Loc),
    b.denote l prev nxt = .ok (r, l') → Slack r.2
  | .atom t, _, l, prev, nxt, r, l', hd => by
    simp only [Base.denote] at hd
    cases hd
    exact slack_atom _ _ _ _ _
  | .number d more, _, l, prev, nxt, r, l', hd => by
    simp only [Base.denote] at hd
    cases hd
    exact slack_of rfl
  | .group f, h, l, prev, nxt, r, l', hd => by
    simp only [Base.unstretched] at h
    simp only [Base.denote] at hd
    obtain ⟨⟨r1, l1⟩, hd1, hd⟩ := except_bind_ok hd
    cases hd
    exact slack_vec (slack_form f h _ _ _ _ _ hd1) _
  | .frac attr isBinom num den, h, l, prev, nxt, r, l', hd => by
    simp only [Base.denote] at hd
    obtain ⟨⟨r1, l1⟩, hd1, hd⟩ := except_bind_ok hd
    obtain ⟨⟨r2, l2⟩, hd2, hd⟩ := except_bind_ok hd
    cases hd
    dsimp only
    split
    · exact slack_fenced
    · exact slack_of rfl
  | .genfrac x num den, h, l, prev, nxt, r, l', hd => by
    simp only [Base.denote] at hd
    obtain ⟨o, -, hd⟩ := except_bind_ok hd
    obtain ⟨c, -, hd⟩ := except_bind_ok hd
    obtain ⟨lt, -, hd⟩ := except_bind_ok hd
    obtain ⟨style, -, hd⟩ := except_bind_ok hd
    obtain ⟨⟨r1, l1⟩, hd1, hd⟩ := except_bind_ok hd
    obtain ⟨⟨r2, l2⟩, hd2, hd⟩ := except_bind_ok hd
    cases hd
    exact slack_fenced
  | .stackTok isOver symbol t, h, l, prev, nxt, r, l', hd => by
    simp only [Base.denote] at hd
    obtain ⟨⟨r1, l1⟩, hd1, hd⟩ := except_bind_ok hd
    cases hd
    cases isOver <;> exact slack_of rfl
  | .stackGroup isOver symbol f, h, l, prev, nxt, r, l', hd => by
    simp only [Base.denote] at hd
    obtain ⟨⟨r1, l1⟩, hd1, hd⟩ := except_bind_ok hd
    obtain ⟨⟨r2, l2⟩, hd2, hd⟩ := except_bind_ok hd
    cases hd
    cases isOver <;> exact slack_of rfl
  | .arrow rel over, h, l, prev, nxt, r, l', hd => by
    simp only [Base.denote] at hd
    obtain ⟨⟨r1, l1⟩, hd1, hd⟩ := except_bind_ok hd
    cases hd
    exact slack_of rfl
  | .arrowUnder rel under over, h, l, prev, nxt, r, l', hd => by
    simp only [Base.denote] at hd
    obtain ⟨⟨r1, l1⟩, hd1, hd⟩ := except_bind_ok hd
    obtain ⟨⟨r2, l2⟩, hd2, hd⟩ := except_bind_ok hd
    cases hd
    exact slack_of rfl
  | .cramped st f, h, l, prev, nxt, r, l', hd => by
    simp only [Base.denote] at hd
    obtain ⟨⟨r1, l1⟩, hd1, hd⟩ := except_bind_ok hd
    cases hd
    exact slack_of rfl
  | .sqrt a, h, l, prev, nxt, r, l', hd => by
    simp only [Base.denote] at hd
    obtain ⟨⟨r1, l1⟩, hd1, hd⟩ := except_bind_ok hd
    cases hd
    exact slack_of rfl
  | .root degree a, h, l, prev, nxt, r, l', hd => by
    simp only [Base.denote] at hd
    obtain ⟨⟨r1, l1⟩, hd1, hd⟩ := except_bind_ok hd
    obtain ⟨⟨r2, l2⟩, hd2, hd⟩ := except_bind_ok hd
    cases hd
    exact slack_of rfl
  | .deco d a, h, l, prev, nxt, r, l', hd => by
    simp only [Base.denote] at hd
    obtain ⟨⟨r1, l1⟩, hd1, hd⟩ := except_bind_ok hd
    cases hd
    dsimp only
    unfold Deco.node
    split <;> first | exact slack_of rfl | (split <;> exact slack_of rfl)
  | .brace x isOver a, h, l, prev, nxt, r, l', hd => by
    simp only [Base.denote] at hd
    obtain ⟨⟨r1, l1⟩, hd1, hd⟩ := except_bind_ok hd
    cases hd
    dsimp only
    unfold braceNode
    split <;> exact slack_of rfl
  | .braceLabel x isOver a b, h, l, prev, nxt, r, l', hd => by
    simp only [Base.denote] at hd
    obtain ⟨⟨r1, l1⟩, hd1, hd⟩ := except_bind_ok hd
    obtain ⟨⟨r2, l2⟩, hd2, hd⟩ := except_bind_ok hd
    cases hd
    dsimp only
    split <;> exact slack_of rfl
  | .prescript sup sub a, h, l, prev, nxt, r, l', hd => by
    simp only [Base.denote] at hd
    obtain ⟨⟨r1, l1⟩, hd1, hd⟩ := except_bind_ok hd
    obtain ⟨⟨r2, l2⟩, hd2, hd⟩ := except_bind_ok hd
    obtain ⟨⟨r3, l3⟩, hd3, hd⟩ := except_bind_ok hd
    cases hd
    exact slack_of rfl
  | .leaf x, h, l, prev, nxt, r, l', hd => by
    simp only [Base.denote] at hd
    obtain ⟨r1, hd1, hd⟩ := except_bind_ok hd
    cases hd
    exact (leaf_cases hd1).2 h
  | .mathClass kind b, h, l, prev, nxt, r, l', hd => by
    simp only [Base.unstretched] at h
    simp only [Base.denote] at hd
    obtain ⟨⟨r1, l1⟩, hd1, hd⟩ := except_bind_ok hd
    cases hd
    exact slack_class (slack_base b h _ _ _ _ _ hd1)
  | .overlay o b, h, l, prev, nxt, r, l', hd => by
    simp only [Base.unstretched] at h
    simp only [Base.denote] at hd
    obtain ⟨⟨r1, l1⟩, hd1, hd⟩ := except_bind_ok hd
    obtain ⟨n, hd2, hd⟩ := except_bind_ok hd
    cases hd
    exact slack_struck hd2 (slack_base b h _ _ _ _ _ hd1)
  | .fence lt rt f, h, l, prev, nxt, r, l', hd => by
    simp only [Base.denote] at hd
    obtain ⟨o, -, hd⟩ := except_bind_ok hd
    obtain ⟨⟨r1, l1⟩, hd1, hd⟩ := except_bind_ok hd
    obtain ⟨c, -, hd⟩ := except_bind_ok hd
    cases hd
    exact slack_fenced
  | .env e e' o f, h, l, prev, nxt, r, l', hd => by
    simp only [Base.denote] at hd
    obtain ⟨spec, -, hd⟩ := except_bind_ok hd
    obtain ⟨⟨r1, l1⟩, hd1, hd⟩ := except_bind_ok hd
    exact slack_endEnv hd
end

theorem good_one {n k : Node} (h : ordinary n = true) (hk : kids n = [k]) (hg : Good k) : Good n :=
  good_kids h (by rw [hk]; simpa using hg)

theorem good_deco {n : Node} (d : Deco) (h : Good n) : Good (d.node n) := by
  have hp : Good (.phantom n) := good_one rfl rfl h
  cases d with
  | accent o isOver attrs => cases isOver <;> exact good_one rfl rfl h
  | enclose k => exact good_one rfl rfl h
  | phantom kind =>
    cases kind
    · exact hp
    · exact good_one rfl rfl hp
    · exact good_one rfl rfl hp

theorem good_brace {n : Node} {x : OrdLike} {isOver : Bool} (h : Good n) : Good (braceNode x isOver n) := by
  cases isOver <;> exact good_one rfl rfl h

theorem good_alone (style : Style) (prev next : Class) (t : Token) : Good (aloneNode style prev next t).2 := by
  unfold aloneNode
  split
  · exact good_kids rfl (by simp [kids])
  · exact good_atom _ _ _ _ _

theorem good_stack {isOver : Bool} {a n : Node} (ha : Good a) (hn : Good n) : Good (stackNode isOver a n) := by
  cases isOver
  · exact good_kids (n := .under a n) rfl (by simp only [kids]; simp; exact ⟨ha, hn⟩)
  · exact good_kids (n := .over a n) rfl (by simp only [kids]; simp; exact ⟨ha, hn⟩)

theorem good_arrow {rel : Rel} {sp : Option MathSpacing × Option MathSpacing} {under : Option Node} {over : Node}
    (hu : ∀ n, under = some n → Good n) (ho : Good over) : Good (arrowNode rel sp under over) := by
  have hs : ∀ l, Good (Node.space l) := fun l => good_kids rfl (by simp [kids])
  have hl : ∀ n, Good n → Good (arrowLabel n) := fun n hn => by
    unfold arrowLabel
    exact good_kids rfl (by simp only [kids]; simp; exact ⟨hs _, hn, hs _⟩)
  have hop : ∀ l r, Good (.operator rel.asOp (if rel.cat = .A then .empty else .stretchyTrue) none l r) := fun _ _ => by
    split <;> exact good_op (by decide)
  have hab : ∀ x n, Good n → Good (Node.over (.space x) (arrowLabel n)) := fun x n hn =>
    good_kids rfl (by simp only [kids]; simp; exact ⟨hs _, hl n hn⟩)
  unfold arrowNode
  cases under with
  | none =>
    have := good_kids (n := .over (.over (.space (LatexUnit.lengthWithUnit .em (35/10))) (arrowLabel over))
      (.operator rel.asOp (if rel.cat = .A then .empty else .stretchyTrue) none sp.1 sp.2)) rfl
      (by simp only [kids]; simp; exact ⟨hab _ _ ho, hop _ _⟩)
    exact good_kids rfl (by simp only [kids]; simp; exact ⟨hs _, this, hs _⟩)
  | some u =>
    have h1 : Good (Node.under (.space (LatexUnit.lengthWithUnit .em (35/10))) (arrowLabel u)) :=
      good_kids rfl (by simp only [kids]; simp; exact ⟨hs _, hl u (hu u rfl)⟩)
    have := good_kids (n := .underOver (.operator rel.asOp (if rel.cat = .A then .empty else .stretchyTrue) none sp.1 sp.2)
      (.under (.space (LatexUnit.lengthWithUnit .em (35/10))) (arrowLabel u))
      (.over (.space (LatexUnit.lengthWithUnit .em (35/10))) (arrowLabel over))) rfl
      (by simp only [kids]; simp; exact ⟨hop _ _, h1, hab _ _ ho⟩)
    exact good_kids rfl (by simp only [kids]; simp; exact ⟨hs _, this, hs _⟩)

theorem plain_of_name {s : Str} (h : plainName s = true) : PlainText s := by
  simp only [plainName, Bool.and_eq_true, Bool.not_eq_true', List.contains_iff_mem, Bool.eq_false_iff, ne_eq] at h
  exact ⟨h.1.1, h.1.2, h.2⟩

theorem addSub_good {n : Node} {b b' : Bounds} (hn : Good n) (hb : GoodBounds b) (h : addSub n b = .ok b') : GoodBounds b' := by
  unfold addSub at h
  split at h
  · cases h
  · cases h; exact ⟨by rintro _ ⟨⟩; exact hn, hb.sup⟩

theorem addSup_good {n : Node} {b b' : Bounds} (hn : Good n) (hb : GoodBounds b) (h : addSup n b = .ok b') : GoodBounds b' := by
  unfold addSup at h
  split at h
  · cases h
  · cases h; exact ⟨hb.sub, by rintro _ ⟨⟩; exact hn⟩

theorem good_primes (ts : List Token) : GoodIn false (primesNodes ts) := by
  refine goodIn_of_good (fun n hn => ?_) _
  unfold primesNodes at hn
  obtain ⟨⟨d, k⟩, -, hn⟩ := List.mem_flatMap.1 hn
  have hp : ∀ op, Good (Node.plainOp op) := fun op => good_op (by decide)
  have hsp : Good primeSpace := good_kids rfl (by simp [kids, primeSpace])
  dsimp only at hn
  unfold primeNodes at hn
  dsimp only at hn
  split at hn
  · cases List.mem_singleton.1 hn
    exact hp _
  · rcases List.mem_cons.1 hn with rfl | hn
    · exact hp _
    · obtain ⟨l, hl, hn⟩ := List.mem_flatten.1 hn
      rw [(List.mem_replicate.1 hl).2] at hn
      simp only [List.mem_cons, List.not_mem_nil, or_false] at hn
      rcases hn with rfl | rfl
      · exact hsp
      · exact hp _

mutual
theorem tame_form : ∀ (f : Form) (sep : Bool), f.tame sep = true → ∀ (l : Loc) (prev nxt : Class) (ns : List Node) (l' : Loc),
    f.denote l prev nxt = .ok (ns, l') → GoodIn sep ns
  | .nil, sep, _, l, prev, nxt, ns, l', hd => by
    simp only [Form.denote] at hd
    cases hd
    intro n hn
    cases hn
  | .item b s rest, sep, h, l, prev, nxt, ns, l', hd => by
    simp only [Form.tame, Bool.and_eq_true] at h
    simp only [Form.denote] at hd
    obtain ⟨⟨r1, l1⟩, hd1, hd⟩ := except_bind_ok hd
    obtain ⟨⟨r2, l2⟩, hd2, hd⟩ := except_bind_ok hd
    obtain ⟨⟨r3, l3⟩, hd3, hd⟩ := except_bind_ok hd
    cases hd
    exact goodIn_cons (good_scripts (tame_base b h.1.1 _ _ _ _ _ hd1) (tame_scripts s h.1.2 _ _ _ _ goodBounds_empty hd2))
      (tame_form rest sep h.2 _ _ _ _ _ hd3)
  | .bigOp o s rest, sep, h, l, prev, nxt, ns, l', hd => by
    simp only [Form.tame, Bool.and_eq_true] at h
    simp only [Form.denote] at hd
    have hop : ∀ l r, Good (.operator o.op.asOp .empty none l r) := fun _ _ => good_op (by decide)
    split at hd
    · obtain ⟨⟨r2, l2⟩, hd2, hd⟩ := except_bind_ok hd
      obtain ⟨⟨r3, l3⟩, hd3, hd⟩ := except_bind_ok hd
      cases hd
      exact goodIn_cons (good_scripts (hop _ _) (tame_scripts s h.1 _ _ _ _ goodBounds_empty hd2))
        (tame_form rest sep h.2 _ _ _ _ _ hd3)
    · obtain ⟨⟨r2, l2⟩, hd2, hd⟩ := except_bind_ok hd
      obtain ⟨⟨r3, l3⟩, hd3, hd⟩ := except_bind_ok hd
      cases hd
      exact goodIn_cons (good_opNode (good_op (fun hb => by rw [getLsb_limits] at hb; cases hb.2))
        (tame_scripts s h.1 _ _ _ _ goodBounds_empty hd2))
        (tame_form rest sep h.2 _ _ _ _ _ hd3)
  | .func x lim s rest, sep, h, l, prev, nxt, ns, l', hd => by
    simp only [Form.tame, Bool.and_eq_true] at h
    simp only [Form.denote] at hd
    have hop : ∀ a l r, Good (.pseudoOp a l r x.name.shown) := by
      intro a l r
      refine good_of rfl ⟨fun _ => by simp [kids], nofun, ?_, nofun⟩ (by simp [kids])
      rintro _ _ _ _ ⟨⟩
      exact plain_of_name h.1.1
    obtain ⟨⟨r2, l2⟩, hd2, hd⟩ := except_bind_ok hd
    obtain ⟨⟨r3, l3⟩, hd3, hd⟩ := except_bind_ok hd
    cases hd
    exact goodIn_cons (good_opNode (hop _ _ _) (tame_scripts s h.1.2 _ _ _ _ goodBounds_empty hd2))
      (tame_form rest sep h.2 _ _ _ _ _ hd3)
  | .amp rest, sep, h, l, prev, nxt, ns, l', hd => by
    simp only [Form.tame, Bool.and_eq_true] at h
    obtain ⟨rfl, h⟩ := h
    simp only [Form.denote] at hd
    split at hd
    · obtain ⟨⟨r3, l3⟩, hd3, hd⟩ := except_bind_ok hd
      cases hd
      intro n hn
      rcases List.mem_cons.1 hn with rfl | hn
      · exact ⟨nofun, fun m hm => by
          simp only [nodesIn, List.mem_singleton] at hm
          subst hm
          exact ⟨fun _ => by simp [kids], nofun, nofun, nofun⟩⟩
      · exact tame_form rest true h _ _ _ _ _ hd3 n hn
    · cases hd
  | .newLine line rest, sep, h, l, prev, nxt, ns, l', hd => by
    simp only [Form.tame, Bool.and_eq_true] at h
    obtain ⟨rfl, h⟩ := h
    simp only [Form.denote] at hd
    obtain ⟨⟨r2, l2⟩, hd2, hd⟩ := except_bind_ok hd
    obtain ⟨⟨r3, l3⟩, hd3, hd⟩ := except_bind_ok hd
    cases hd
    intro n hn
    rcases List.mem_cons.1 hn with rfl | hn
    · refine ⟨nofun, ?_⟩
      have hsep : ∀ i, ∀ m ∈ nodesIn (.rowSeparator i line), CalmNode m := by
        intro i m hm
        simp only [nodesIn, List.mem_singleton] at hm
        subst hm
        exact ⟨fun _ => by simp [kids], nofun, nofun, nofun⟩
      rcases (lineBreak_ok (nextRow_ok hd2)).2 with h | ⟨i, h⟩
      · rw [h]; exact good_empty.all
      · rw [h]; exact hsep _
    · exact tame_form rest true h _ _ _ _ _ hd3 n hn
  | .call _ _ _ cont, sep, h, l, prev, nxt, ns, l', hd => by
    simp only [Form.tame] at h
    simp only [Form.denote] at hd
    obtain ⟨l1, -, hd⟩ := except_bind_ok hd
    exact tame_form cont sep h _ _ _ _ _ hd
  | .emptyCall _ _ s rest, sep, h, l, prev, nxt, ns, l', hd => by
    simp only [Form.tame, Bool.and_eq_true] at h
    simp only [Form.denote] at hd
    obtain ⟨l1, -, hd⟩ := except_bind_ok hd
    obtain ⟨⟨r2, l2⟩, hd2, hd⟩ := except_bind_ok hd
    obtain ⟨⟨r3, l3⟩, hd3, hd⟩ := except_bind_ok hd
    cases hd
    exact goodIn_cons (good_scripts good_empty (tame_scripts s h.1 _ _ _ _ goodBounds_empty hd2))
      (tame_form rest sep h.2 _ _ _ _ _ hd3)
  | .noNumber rest, sep, h, l, prev, nxt, ns, l', hd => by
    simp only [Form.tame] at h
    simp only [Form.denote] at hd
    exact tame_form rest sep h _ _ _ _ _ hd
  | .tag paren text rest, sep, h, l, prev, nxt, ns, l', hd => by
    simp only [Form.tame] at h
    simp only [Form.denote] at hd
    obtain ⟨l1, -, hd⟩ := except_bind_ok hd
    exact tame_form rest sep h _ _ _ _ _ hd
  | .label text rest, sep, h, l, prev, nxt, ns, l', hd => by
    simp only [Form.tame] at h
    simp only [Form.denote] at hd
    obtain ⟨l1, -, hd⟩ := except_bind_ok hd
    exact tame_form rest sep h _ _ _ _ _ hd
  | .style st rest, sep, h, l, prev, nxt, ns, l', hd => by
    simp only [Form.tame] at h
    simp only [Form.denote] at hd
    obtain ⟨⟨r, l1⟩, hd1, hd⟩ := except_bind_ok hd
    cases hd
    exact goodIn_cons (good_row (tame_form rest false h _ _ _ _ _ hd1) _) (by intro n hn; cases hn)
  | .color name rest, sep, h, l, prev, nxt, ns, l', hd => by
    simp only [Form.tame] at h
    simp only [Form.denote] at hd
    obtain ⟨c, -, hd⟩ := except_bind_ok hd
    obtain ⟨⟨r, l1⟩, hd1, hd⟩ := except_bind_ok hd
    cases hd
    exact goodIn_cons (good_row (tame_form rest false h _ _ _ _ _ hd1) _) (by intro n hn; cases hn)

theorem tame_base : ∀ (b : Base), b.tame = true → ∀ (l : Loc) (prev nxt : Class) (r : Class × Node) (l' : Loc),
    b.denote l prev nxt = .ok (r, l') → Good r.2
  | .atom t, _, l, prev, nxt, r, l', hd => by
    simp only [Base.denote] at hd
    cases hd
    exact good_atom ..
  | .number d more, _, l, prev, nxt, r, l', hd => by
    simp only [Base.denote] at hd
    cases hd
    exact good_kids rfl (by simp [kids])
  | .group f, h, l, prev, nxt, r, l', hd => by
    simp only [Base.tame] at h
    simp only [Base.denote] at hd
    obtain ⟨⟨r1, l1⟩, hd1, hd⟩ := except_bind_ok hd
    cases hd
    exact good_vec (tame_form f false h _ _ _ _ _ hd1) _
  | .frac attr isBinom num den, h, l, prev, nxt, r, l', hd => by
    simp only [Base.tame, Bool.and_eq_true] at h
    simp only [Base.denote] at hd
    obtain ⟨⟨r1, l1⟩, hd1, hd⟩ := except_bind_ok hd
    obtain ⟨⟨r2, l2⟩, hd2, hd⟩ := except_bind_ok hd
    cases hd
    have hg : ∀ v u, Good (Node.frac r1 r2 v u attr) := fun v u =>
      good_kids rfl (by simp only [kids]; simp; exact ⟨tame_arg num h.1 _ _ _ _ hd1, tame_arg den h.2 _ _ _ _ hd2⟩)
    dsimp only
    split
    · refine good_fenced (fun m hm => ?_) _ _ _
      cases List.mem_singleton.1 hm
      exact ⟨fun _ => (hg _ _).sep, (hg _ _).all⟩
    · exact hg _ _
  | .genfrac x num den, h, l, prev, nxt, r, l', hd => by
    simp only [Base.tame, Bool.and_eq_true] at h
    simp only [Base.denote] at hd
    obtain ⟨o, -, hd⟩ := except_bind_ok hd
    obtain ⟨c, -, hd⟩ := except_bind_ok hd
    obtain ⟨lt, -, hd⟩ := except_bind_ok hd
    obtain ⟨style, -, hd⟩ := except_bind_ok hd
    obtain ⟨⟨r1, l1⟩, hd1, hd⟩ := except_bind_ok hd
    obtain ⟨⟨r2, l2⟩, hd2, hd⟩ := except_bind_ok hd
    cases hd
    have hg : ∀ v u, Good (Node.frac r1 r2 v u none) := fun v u =>
      good_kids rfl (by simp only [kids]; simp; exact ⟨tame_arg num h.1 _ _ _ _ hd1, tame_arg den h.2 _ _ _ _ hd2⟩)
    refine good_fenced (fun m hm => ?_) _ _ _
    cases List.mem_singleton.1 hm
    exact ⟨fun _ => (hg _ _).sep, (hg _ _).all⟩
  | .stackTok isOver symbol t, h, l, prev, nxt, r, l', hd => by
    simp only [Base.tame] at h
    simp only [Base.denote] at hd
    obtain ⟨⟨r1, l1⟩, hd1, hd⟩ := except_bind_ok hd
    cases hd
    exact good_stack (tame_arg symbol h _ _ _ _ hd1) (good_alone _ _ _ _)
  | .stackGroup isOver symbol f, h, l, prev, nxt, r, l', hd => by
    simp only [Base.tame, Bool.and_eq_true] at h
    simp only [Base.denote] at hd
    obtain ⟨⟨r1, l1⟩, hd1, hd⟩ := except_bind_ok hd
    obtain ⟨⟨r2, l2⟩, hd2, hd⟩ := except_bind_ok hd
    cases hd
    exact good_stack (tame_arg symbol h.1 _ _ _ _ hd1) (good_vec (tame_form f false h.2 _ _ _ _ _ hd2) _)
  | .arrow rel over, h, l, prev, nxt, r, l', hd => by
    simp only [Base.tame] at h
    simp only [Base.denote] at hd
    obtain ⟨⟨r1, l1⟩, hd1, hd⟩ := except_bind_ok hd
    cases hd
    exact good_arrow (under := none) (by rintro _ ⟨⟩) (tame_arg over h _ _ _ _ hd1)
  | .arrowUnder rel under over, h, l, prev, nxt, r, l', hd => by
    simp only [Base.tame, Bool.and_eq_true] at h
    simp only [Base.denote] at hd
    obtain ⟨⟨r1, l1⟩, hd1, hd⟩ := except_bind_ok hd
    obtain ⟨⟨r2, l2⟩, hd2, hd⟩ := except_bind_ok hd
    cases hd
    exact good_arrow (under := some _) (by rintro _ ⟨⟩; exact good_vec (tame_form under false h.1 _ _ _ _ _ hd1) _)
      (tame_arg over h.2 _ _ _ _ hd2)
  | .cramped st f, h, l, prev, nxt, r, l', hd => by
    simp only [Base.tame] at h
    simp only [Base.denote] at hd
    obtain ⟨⟨r1, l1⟩, hd1, hd⟩ := except_bind_ok hd
    cases hd
    exact good_one rfl rfl (good_vec (tame_form f false h _ _ _ _ _ hd1) _)
  | .sqrt a, h, l, prev, nxt, r, l', hd => by
    simp only [Base.tame] at h
    simp only [Base.denote] at hd
    obtain ⟨⟨r1, l1⟩, hd1, hd⟩ := except_bind_ok hd
    cases hd
    exact good_kids rfl (by simp only [kids]; simp; exact tame_arg a h _ _ _ _ hd1)
  | .root degree a, h, l, prev, nxt, r, l', hd => by
    simp only [Base.tame, Bool.and_eq_true] at h
    simp only [Base.denote] at hd
    obtain ⟨⟨r1, l1⟩, hd1, hd⟩ := except_bind_ok hd
    obtain ⟨⟨r2, l2⟩, hd2, hd⟩ := except_bind_ok hd
    cases hd
    exact good_kids rfl (by
      simp only [kids]; simp
      exact ⟨good_vec (tame_form degree false h.1 _ _ _ _ _ hd1) _, tame_arg a h.2 _ _ _ _ hd2⟩)
  | .deco d a, h, l, prev, nxt, r, l', hd => by
    simp only [Base.tame] at h
    simp only [Base.denote] at hd
    obtain ⟨⟨r1, l1⟩, hd1, hd⟩ := except_bind_ok hd
    cases hd
    exact good_deco d (tame_arg a h _ _ _ _ hd1)
  | .brace x isOver a, h, l, prev, nxt, r, l', hd => by
    simp only [Base.tame] at h
    simp only [Base.denote] at hd
    obtain ⟨⟨r1, l1⟩, hd1, hd⟩ := except_bind_ok hd
    cases hd
    exact good_brace (tame_arg a h _ _ _ _ hd1)
  | .braceLabel x isOver a b, h, l, prev, nxt, r, l', hd => by
    simp only [Base.tame, Bool.and_eq_true] at h
    simp only [Base.denote] at hd
    obtain ⟨⟨r1, l1⟩, hd1, hd⟩ := except_bind_ok hd
    obtain ⟨⟨r2, l2⟩, hd2, hd⟩ := except_bind_ok hd
    cases hd
    have h1 := good_brace (x := x) (isOver := isOver) (tame_arg a h.1 _ _ _ _ hd1)
    have h2 := tame_arg b h.2 _ _ _ _ hd2
    dsimp only
    split
    · exact good_kids rfl (by simp only [kids]; simp; exact ⟨h2, h1⟩)
    · exact good_kids rfl (by simp only [kids]; simp; exact ⟨h2, h1⟩)
  | .prescript sup sub a, h, l, prev, nxt, r, l', hd => by
    simp only [Base.tame, Bool.and_eq_true] at h
    simp only [Base.denote] at hd
    obtain ⟨⟨r1, l1⟩, hd1, hd⟩ := except_bind_ok hd
    obtain ⟨⟨r2, l2⟩, hd2, hd⟩ := except_bind_ok hd
    obtain ⟨⟨r3, l3⟩, hd3, hd⟩ := except_bind_ok hd
    cases hd
    have h1 := tame_arg sup h.1.1 _ _ _ _ hd1
    have h2 := tame_arg sub h.1.2 _ _ _ _ hd2
    have h3 := tame_arg a h.2 _ _ _ _ hd3
    exact good_kids rfl (by simp only [kids]; simp; exact ⟨h3, h2, h1⟩)
  | .leaf x, h, l, prev, nxt, r, l', hd => by
    simp only [Base.denote] at hd
    obtain ⟨r1, hd1, hd⟩ := except_bind_ok hd
    cases hd
    exact (leaf_cases hd1).1
  | .mathClass kind b, h, l, prev, nxt, r, l', hd => by
    simp only [Base.tame, Bool.and_eq_true] at h
    simp only [Base.denote] at hd
    obtain ⟨⟨r1, l1⟩, hd1, hd⟩ := except_bind_ok hd
    cases hd
    exact good_class (tame_base b h.1 _ _ _ _ _ hd1) (slack_base b h.2 _ _ _ _ _ hd1)
  | .overlay o b, h, l, prev, nxt, r, l', hd => by
    simp only [Base.tame] at h
    simp only [Base.denote] at hd
    obtain ⟨⟨r1, l1⟩, hd1, hd⟩ := except_bind_ok hd
    obtain ⟨n, hd2, hd⟩ := except_bind_ok hd
    cases hd
    exact good_struck hd2 (tame_base b h _ _ _ _ _ hd1)
  | .fence lt rt f, h, l, prev, nxt, r, l', hd => by
    simp only [Base.tame] at h
    simp only [Base.denote] at hd
    obtain ⟨o, -, hd⟩ := except_bind_ok hd
    obtain ⟨⟨r1, l1⟩, hd1, hd⟩ := except_bind_ok hd
    obtain ⟨c, -, hd⟩ := except_bind_ok hd
    cases hd
    exact good_fenced (tame_form f false h _ _ _ _ _ hd1) _ _ _
  | .env e e' o f, h, l, prev, nxt, r, l', hd => by
    simp only [Base.tame] at h
    simp only [Base.denote] at hd
    obtain ⟨spec, -, hd⟩ := except_bind_ok hd
    obtain ⟨⟨r1, l1⟩, hd1, hd⟩ := except_bind_ok hd
    have hg := tame_form f true h _ _ _ _ _ hd1
    unfold endEnv at hd
    split at hd
    · cases hd
    · dsimp only at hd
      split at hd
      · split at hd
        · cases hd; exact good_env hg ‹_›
        · cases hd
      · obtain ⟨⟨i, n', l4⟩, -, hd⟩ := except_bind_ok hd
        split at hd
        · cases hd; exact good_env hg ‹_›
        · cases hd

theorem tame_arg : ∀ (a : Arg), a.tame = true → ∀ (reset : Bool) (l : Loc) (r : Node) (l' : Loc),
    a.denote reset l = .ok (r, l') → Good r
  | .tok t, _, reset, l, r, l', hd => by
    simp only [Arg.denote] at hd
    split at hd
    · cases hd; exact good_kids rfl (by simp [kids])
    · cases hd; exact good_atom ..
  | .braces f, h, reset, l, r, l', hd => by
    simp only [Arg.tame] at h
    simp only [Arg.denote] at hd
    obtain ⟨⟨r1, l1⟩, hd1, hd⟩ := except_bind_ok hd
    cases hd
    exact good_vec (tame_form f false h _ _ _ _ _ hd1) _

theorem tame_scripts : ∀ (s : Scripts), s.tame = true → ∀ (l : Loc) (b b' : Bounds) (l' : Loc),
    GoodBounds b → s.denote l b = .ok (b', l') → GoodBounds b'
  | .nil, _, l, b, b', l', hb, hd => by
    simp only [Scripts.denote] at hd
    cases hd
    exact hb
  | .sub a s, h, l, b, b', l', hb, hd => by
    simp only [Scripts.tame, Bool.and_eq_true] at h
    simp only [Scripts.denote] at hd
    obtain ⟨⟨r1, l1⟩, hd1, hd⟩ := except_bind_ok hd
    obtain ⟨b2, hd2, hd⟩ := except_bind_ok hd
    exact tame_scripts s h.2 _ _ _ _ (addSub_good (tame_arg a h.1 _ _ _ _ hd1) hb hd2) hd
  | .sup a s, h, l, b, b', l', hb, hd => by
    simp only [Scripts.tame, Bool.and_eq_true] at h
    simp only [Scripts.denote] at hd
    obtain ⟨⟨r1, l1⟩, hd1, hd⟩ := except_bind_ok hd
    obtain ⟨b2, hd2, hd⟩ := except_bind_ok hd
    exact tame_scripts s h.2 _ _ _ _ (addSup_good (tame_arg a h.1 _ _ _ _ hd1) hb hd2) hd
  | .primes t ts s, h, l, b, b', l', hb, hd => by
    simp only [Scripts.tame] at h
    simp only [Scripts.denote] at hd
    obtain ⟨b2, hd2, hd⟩ := except_bind_ok hd
    exact tame_scripts s h _ _ _ _ (addSup_good (good_unlessSingle (good_primes _)) hb hd2) hd
  | .primesSup t ts a s, h, l, b, b', l', hb, hd => by
    simp only [Scripts.tame, Bool.and_eq_true] at h
    simp only [Scripts.denote] at hd
    obtain ⟨⟨r1, l1⟩, hd1, hd⟩ := except_bind_ok hd
    obtain ⟨b2, hd2, hd⟩ := except_bind_ok hd
    refine tame_scripts s h.2 _ _ _ _ (addSup_good (good_unlessSingle ?_) hb hd2) hd
    intro n hn
    rcases List.mem_append.1 hn with hn | hn
    · exact good_primes _ n hn
    · cases List.mem_singleton.1 hn
      have := tame_arg a h.1 _ _ _ _ hd1
      exact ⟨fun _ => this.sep, this.all⟩
end

theorem harmless_of_good {ns : List Node} (h : GoodIn false ns) (b : Bool) : Harmless b ns := by
  have hall : ∀ m ∈ nodesInList ns, CalmNode m := by
    intro m hm
    obtain ⟨n, h1, h2⟩ := mem_inList.1 hm
    exact (h n h1).2 m h2
  refine ⟨fun n hn => (h n hn).1 rfl, fun m hm => (hall m hm).inner, ?_, ?_, ?_⟩
  · intro op attrs size l r hm; exact (hall _ hm).stretch _ _ _ _ _ rfl
  · intro attrs l r name hm; exact (hall _ hm).names _ _ _ _ rfl
  · intro _ name hm; exact absurd rfl ((hall _ hm).unknown name)

/-- The meaning of a formula without the known defects -/
theorem tame_harmless {f : Form} (h : f.tame false = true) {l : Loc} {prev nxt : Class} {ns : List Node} {l' : Loc}
    (hd : f.denote l prev nxt = .ok (ns, l')) (b : Bool) : Harmless b ns :=
  harmless_of_good (tame_form f false h _ _ _ _ _ hd) b

end Verif

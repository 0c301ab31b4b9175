import Verif.Lemmas.Rows
import Verif.Lemmas.Tame
/-! Formulas which have nothing to do with numbers show no tags. -/
namespace Verif
open Model Spec

/-- There is no tag in the node. -/
def Untag (n : Node) : Prop := ∀ m ∈ nodesIn n, tagOf m = none

/-- There are no tags in the nodes. -/
def UntagAll (ns : List Node) : Prop := ∀ n ∈ ns, Untag n

theorem untag_kids {n : Node} (h : tagOf n = none) (hk : ∀ k ∈ kids n, Untag k) : Untag n := by
  intro m hm
  rw [nodesIn_eq] at hm
  rcases List.mem_cons.1 hm with rfl | hm
  · exact h
  · obtain ⟨k, h1, h2⟩ := mem_inList.1 hm
    exact hk k h1 m h2

theorem untag_nil : UntagAll [] := by intro n hn; cases hn

theorem untagAll_cons {n : Node} {ns : List Node} (h : Untag n) (hs : UntagAll ns) : UntagAll (n :: ns) := by
  intro m hm
  rcases List.mem_cons.1 hm with rfl | hm
  · exact h
  · exact hs m hm

theorem untag_row {ns : List Node} (h : UntagAll ns) (a : RowAttrs) : Untag (.row ns a) := untag_kids rfl h

theorem untag_op {op attrs size l r} : Untag (.operator op attrs size l r) := untag_kids rfl (by intro k hk; cases hk)

theorem untag_vec {ns : List Node} (h : UntagAll ns) (reset : Bool) : Untag (nodeVecToNode ns reset) := by
  unfold nodeVecToNode
  split
  · rename_i single
    have hg := h single (List.mem_singleton.2 rfl)
    split
    · split
      · exact untag_op
      · exact hg
    · exact hg
  · exact untag_row h _

theorem untag_unlessSingle {ns : List Node} (h : UntagAll ns) : Untag (Rec.rowUnlessSingle ns) := by
  unfold Rec.rowUnlessSingle
  split
  · exact h _ (List.mem_singleton.2 rfl)
  · exact untag_row h _

/-- There are no tags in the scripts. -/
structure UntagBounds (b : Bounds) : Prop where
  sub : ∀ n, b.sub = some n → Untag n
  sup : ∀ n, b.sup = some n → Untag n

theorem untag_empty : Untag .emptyRow := untag_kids rfl (by intro k hk; cases hk)

theorem untagBounds_empty : UntagBounds {} := ⟨by rintro _ ⟨⟩, by rintro _ ⟨⟩⟩

theorem untag_atom (style : Style) (inSeq : Bool) (prev next : Class) (t : Token) : Untag (atomNode style inSeq prev next t).2 := by
  unfold atomNode
  split <;> first
    | (refine untag_kids rfl ?_; intro k hk; cases hk; done)
    | exact untag_op

theorem untag_delim (d : Option StretchableOp) : Untag (delimOperator d) := by
  unfold delimOperator
  split <;> exact untag_op

theorem untag_fenced {ns : List Node} (h : UntagAll ns) (o c : Option StretchableOp) (s : Option Style) :
    Untag (fenced ns o c s) := by
  unfold fenced
  refine untag_row ?_ _
  intro n hn
  rcases List.mem_cons.1 hn with rfl | hn
  · exact untag_delim _
  · rcases List.mem_append.1 hn with hn | hn
    · exact h n hn
    · cases List.mem_singleton.1 hn
      exact untag_delim _

theorem kids_untag {n : Node} (h : Untag n) : ∀ k ∈ kids n, Untag k := by
  intro k hk m hm
  refine h m ?_
  rw [nodesIn_eq]
  exact .tail _ (mem_inList.2 ⟨k, hk, hm⟩)

theorem untag_scripts {n : Node} {b : Bounds} (h : Untag n) (hb : UntagBounds b) : Untag (withScripts n b) := by
  unfold withScripts
  split
  · exact h
  · rename_i base pre _
    have hk := kids_untag h
    refine untag_kids rfl fun k hk' => ?_
    have : k ∈ kids (.multiscripts base pre []) ∨ k = b.toPair.1 ∨ k = b.toPair.2 := by
      simp only [kids, List.flatMap_cons, List.flatMap_nil, List.append_nil, List.mem_cons, List.mem_append,
        List.not_mem_nil, or_false] at hk' ⊢
      grind
    have hx : ∀ o : Option Node, (∀ n, o = some n → Untag n) → Untag (o.getD .emptyRow) := by
      intro o ho
      cases o with
      | none => exact untag_empty
      | some n => exact ho n rfl
    rcases this with h | rfl | rfl
    · exact hk k h
    · exact hx _ hb.sub
    · exact hx _ hb.sup
  · exact h
  · exact untag_kids rfl (by simp only [kids]; simp; exact ⟨h, hb.sub _ rfl⟩)
  · exact untag_kids rfl (by simp only [kids]; simp; exact ⟨h, hb.sup _ rfl⟩)
  · exact untag_kids rfl (by simp only [kids]; simp; exact ⟨h, hb.sub _ rfl, hb.sup _ rfl⟩)

theorem untag_limits {n : Node} {b : Bounds} (h : Untag n) (hb : UntagBounds b) : Untag (withLimits n b) := by
  unfold withLimits
  split
  · exact h
  · exact untag_kids rfl (by simp only [kids]; simp; exact ⟨hb.sub _ rfl, h⟩)
  · exact untag_kids rfl (by simp only [kids]; simp; exact ⟨hb.sup _ rfl, h⟩)
  · exact untag_kids rfl (by simp only [kids]; simp; exact ⟨h, hb.sub _ rfl, hb.sup _ rfl⟩)

theorem untag_opNode {limits : Bool} {n : Node} {b : Bounds} (h : Untag n) (hb : UntagBounds b) : Untag (opNode limits n b) := by
  unfold opNode
  split
  · exact untag_limits h hb
  · exact untag_scripts h hb

theorem untag_env {e : Env} {ns : List Node} {spec : Option ArraySpec} {rows : Option Nat} {line : Option LineType}
    {n : Node} (h : UntagAll ns) (hn : e.constructNode ns spec none rows line = some n) : Untag n := by
  have hf : ∀ {x : Node} {o c : Option StretchableOp}, Untag x → Untag (fenced [x] o c none) := by
    intro x o c hx
    refine untag_fenced (fun m hm => ?_) _ _ _
    cases List.mem_singleton.1 hm
    exact hx
  cases e <;> simp only [Env.constructNode, Env.constructNode.matrixNode, Option.map_eq_some_iff] at hn <;> first
    | (cases hn; exact untag_kids rfl h)
    | (cases hn; exact hf (untag_kids rfl h))
    | (obtain ⟨s, -, rfl⟩ := hn; exact untag_kids rfl h)

theorem untag_one {n k : Node} (h : tagOf n = none) (hk : kids n = [k]) (hg : Untag k) : Untag n :=
  untag_kids h (by rw [hk]; simpa using hg)

theorem untag_deco {n : Node} (d : Deco) (h : Untag n) : Untag (d.node n) := by
  have hp : Untag (.phantom n) := untag_one rfl rfl h
  cases d with
  | accent o isOver attrs => cases isOver <;> exact untag_one rfl rfl h
  | enclose k => exact untag_one rfl rfl h
  | phantom kind =>
    cases kind
    · exact hp
    · exact untag_one rfl rfl hp
    · exact untag_one rfl rfl hp

theorem untag_brace {n : Node} {x : OrdLike} {isOver : Bool} (h : Untag n) : Untag (braceNode x isOver n) := by
  cases isOver <;> exact untag_one rfl rfl h

theorem untag_alone (style : Style) (prev next : Class) (t : Token) : Untag (aloneNode style prev next t).2 := by
  unfold aloneNode
  split
  · exact untag_kids rfl (by simp [kids])
  · exact untag_atom _ _ _ _ _

theorem untag_stack {isOver : Bool} {a n : Node} (ha : Untag a) (hn : Untag n) : Untag (stackNode isOver a n) := by
  cases isOver
  · exact untag_kids (n := .under a n) rfl (by simp only [kids]; simp; exact ⟨ha, hn⟩)
  · exact untag_kids (n := .over a n) rfl (by simp only [kids]; simp; exact ⟨ha, hn⟩)

theorem untag_arrow {rel : Rel} {sp : Option MathSpacing × Option MathSpacing} {under : Option Node} {over : Node}
    (hu : ∀ n, under = some n → Untag n) (ho : Untag over) : Untag (arrowNode rel sp under over) := by
  have hs : ∀ l, Untag (Node.space l) := fun l => untag_kids rfl (by simp [kids])
  have hl : ∀ n, Untag n → Untag (arrowLabel n) := fun n hn => by
    unfold arrowLabel
    exact untag_kids rfl (by simp only [kids]; simp; exact ⟨hs _, hn, hs _⟩)
  have hop : ∀ l r, Untag (.operator rel.asOp (if rel.cat = .A then .empty else .stretchyTrue) none l r) := fun _ _ => by
    exact untag_op
  have hab : ∀ x n, Untag n → Untag (Node.over (.space x) (arrowLabel n)) := fun x n hn =>
    untag_kids rfl (by simp only [kids]; simp; exact ⟨hs _, hl n hn⟩)
  unfold arrowNode
  cases under with
  | none =>
    have := untag_kids (n := .over (.over (.space (LatexUnit.lengthWithUnit .em (35/10))) (arrowLabel over))
      (.operator rel.asOp (if rel.cat = .A then .empty else .stretchyTrue) none sp.1 sp.2)) rfl
      (by simp only [kids]; simp; exact ⟨hab _ _ ho, hop _ _⟩)
    exact untag_kids rfl (by simp only [kids]; simp; exact ⟨hs _, this, hs _⟩)
  | some u =>
    have h1 : Untag (Node.under (.space (LatexUnit.lengthWithUnit .em (35/10))) (arrowLabel u)) :=
      untag_kids rfl (by simp only [kids]; simp; exact ⟨hs _, hl u (hu u rfl)⟩)
    have := untag_kids (n := .underOver (.operator rel.asOp (if rel.cat = .A then .empty else .stretchyTrue) none sp.1 sp.2)
      (.under (.space (LatexUnit.lengthWithUnit .em (35/10))) (arrowLabel u))
      (.over (.space (LatexUnit.lengthWithUnit .em (35/10))) (arrowLabel over))) rfl
      (by simp only [kids]; simp; exact ⟨hop _ _, h1, hab _ _ ho⟩)
    exact untag_kids rfl (by simp only [kids]; simp; exact ⟨hs _, this, hs _⟩)

theorem untag_class {n : Node} {l r : Option MathSpacing} (h : Untag n) : Untag (mathClassNode n l r) := by
  unfold mathClassNode
  split
  · exact untag_op
  · exact untag_op
  · exact untag_one rfl rfl h

theorem untag_struck {o : OverlayChar} {n n' : Node} (h : struck o n = .ok n') : Untag n' := by
  unfold struck at h
  cases n <;> simp only [overlayNode] at h <;> cases h <;>
    exact untag_kids rfl (by intro k hk; cases hk)

theorem word_untag {tf : MathVariant} {cs : List SuperChar} : Untag (wordNode tf cs) := by
  unfold wordNode
  split <;> exact untag_kids rfl (by intro k hk; cases hk)

theorem untag_leaf {x : Leaf} {style : Style} {prev next : Class} {r : Class × Node}
    (hd : x.denote style prev next = .ok r) : Untag r.2 := by
  cases x with
  | big size side t =>
    simp only [Leaf.denote] at hd
    obtain ⟨d, -, hd⟩ := except_bind_ok hd
    cases hd
    unfold bigNode
    dsimp only
    split <;> (dsimp only; first | exact untag_op | (split <;> exact untag_op))
  | middle t =>
    simp only [Leaf.denote] at hd
    obtain ⟨d, -, hd⟩ := except_bind_ok hd
    cases hd
    exact untag_op
  | eqRef text =>
    simp only [Leaf.denote] at hd
    cases hd
    exact untag_kids rfl (by intro k hk; cases hk)
  | hspace kind text =>
    simp only [Leaf.denote] at hd
    split at hd
    · split at hd
      · cases hd
        exact untag_kids rfl (by intro k hk; cases hk)
      · cases hd
    · cases hd
  | textBox style text =>
    simp only [Leaf.denote] at hd
    cases hd
    dsimp only
    split
    · exact untag_empty
    · exact untag_kids rfl (by intro k hk; cases hk)
  | font tf text =>
    simp only [Leaf.denote] at hd
    cases hd
    exact word_untag
  | fontTok tf t =>
    simp only [Leaf.denote] at hd
    cases hd
    exact word_untag

theorem addSub_untag {n : Node} {b b' : Bounds} (hn : Untag n) (hb : UntagBounds b) (h : addSub n b = .ok b') : UntagBounds b' := by
  unfold addSub at h
  split at h
  · cases h
  · cases h; exact ⟨by rintro _ ⟨⟩; exact hn, hb.sup⟩

theorem addSup_untag {n : Node} {b b' : Bounds} (hn : Untag n) (hb : UntagBounds b) (h : addSup n b = .ok b') : UntagBounds b' := by
  unfold addSup at h
  split at h
  · cases h
  · cases h; exact ⟨hb.sub, by rintro _ ⟨⟩; exact hn⟩

theorem untag_primes (ts : List Token) : UntagAll (primesNodes ts) := by
  intro n hn
  unfold primesNodes at hn
  obtain ⟨⟨d, k⟩, -, hn⟩ := List.mem_flatMap.1 hn
  have hp : ∀ op, Untag (Node.plainOp op) := fun op => untag_op
  have hsp : Untag primeSpace := untag_kids rfl (by intro k hk; cases hk)
  dsimp only at hn
  unfold primeNodes at hn
  dsimp only at hn
  split at hn
  · cases List.mem_singleton.1 hn
    exact hp _
  · rcases List.mem_cons.1 hn with rfl | hn
    · exact hp _
    · obtain ⟨l, hl, hn⟩ := List.mem_flatten.1 hn
      rw [(List.mem_replicate.1 hl).2] at hn
      simp only [List.mem_cons, List.not_mem_nil, or_false] at hn
      rcases hn with rfl | rfl
      · exact hsp
      · exact hp _

mutual
theorem untag_form : ∀ (f : Form) (sep : Bool), f.quiet sep = true → ∀ (l : Loc) (prev nxt : Class) (ns : List Node) (l' : Loc),
    (sep = true → l.env.numbered = none) → f.denote l prev nxt = .ok (ns, l') → UntagAll ns
  | .nil, sep, _, l, prev, nxt, ns, l', _, hd => by
    simp only [Form.denote] at hd
    cases hd
    exact untag_nil
  | .item b s rest, sep, h, l, prev, nxt, ns, l', he, hd => by
    simp only [Form.quiet, Bool.and_eq_true] at h
    simp only [Form.denote] at hd
    obtain ⟨⟨r1, l1⟩, hd1, hd⟩ := except_bind_ok hd
    obtain ⟨⟨r2, l2⟩, hd2, hd⟩ := except_bind_ok hd
    obtain ⟨⟨r3, l3⟩, hd3, hd⟩ := except_bind_ok hd
    cases hd
    obtain rfl := quiet_base_eq h.1.1 hd1
    obtain rfl := quiet_scripts_eq h.1.2 hd2
    exact untagAll_cons (untag_scripts (untag_base b h.1.1 _ _ _ _ _ hd1) (untag_scrs s h.1.2 _ _ _ _ untagBounds_empty hd2))
      (untag_form rest sep h.2 _ _ _ _ _ he hd3)
  | .bigOp o s rest, sep, h, l, prev, nxt, ns, l', he, hd => by
    simp only [Form.quiet, Bool.and_eq_true] at h
    simp only [Form.denote] at hd
    split at hd
    · obtain ⟨⟨r2, l2⟩, hd2, hd⟩ := except_bind_ok hd
      obtain ⟨⟨r3, l3⟩, hd3, hd⟩ := except_bind_ok hd
      cases hd
      obtain rfl := quiet_scripts_eq h.1 hd2
      exact untagAll_cons (untag_scripts untag_op (untag_scrs s h.1 _ _ _ _ untagBounds_empty hd2))
        (untag_form rest sep h.2 _ _ _ _ _ he hd3)
    · obtain ⟨⟨r2, l2⟩, hd2, hd⟩ := except_bind_ok hd
      obtain ⟨⟨r3, l3⟩, hd3, hd⟩ := except_bind_ok hd
      cases hd
      obtain rfl := quiet_scripts_eq h.1 hd2
      exact untagAll_cons (untag_opNode untag_op (untag_scrs s h.1 _ _ _ _ untagBounds_empty hd2))
        (untag_form rest sep h.2 _ _ _ _ _ he hd3)
  | .func name lim s rest, sep, h, l, prev, nxt, ns, l', he, hd => by
    simp only [Form.quiet, Bool.and_eq_true] at h
    simp only [Form.denote] at hd
    obtain ⟨⟨r2, l2⟩, hd2, hd⟩ := except_bind_ok hd
    obtain ⟨⟨r3, l3⟩, hd3, hd⟩ := except_bind_ok hd
    cases hd
    obtain rfl := quiet_scripts_eq h.1 hd2
    exact untagAll_cons (untag_opNode (untag_kids rfl (by intro k hk; cases hk)) (untag_scrs s h.1 _ _ _ _ untagBounds_empty hd2))
      (untag_form rest sep h.2 _ _ _ _ _ he hd3)
  | .amp rest, sep, h, l, prev, nxt, ns, l', he, hd => by
    simp only [Form.quiet, Bool.and_eq_true] at h
    simp only [Form.denote] at hd
    split at hd
    · obtain ⟨⟨r3, l3⟩, hd3, hd⟩ := except_bind_ok hd
      cases hd
      exact untagAll_cons (untag_kids rfl (by intro k hk; cases hk)) (untag_form rest sep h.2 _ _ _ _ _ he hd3)
    · cases hd
  | .newLine line rest, sep, h, l, prev, nxt, ns, l', he, hd => by
    simp only [Form.quiet, Bool.and_eq_true] at h
    obtain ⟨rfl, h⟩ := h
    simp only [Form.denote] at hd
    obtain ⟨⟨r2, l2⟩, hd2, hd⟩ := except_bind_ok hd
    obtain ⟨⟨r3, l3⟩, hd3, hd⟩ := except_bind_ok hd
    cases hd
    replace hd2 := nextRow_ok hd2
    unfold lineBreak at hd2
    rw [he rfl] at hd2
    split at hd2
    · cases hd2
      exact untagAll_cons untag_empty (untag_form rest true h _ _ _ _ _ he hd3)
    · cases hd2
      exact untagAll_cons (untag_kids rfl (by intro k hk; cases hk)) (untag_form rest true h _ _ _ _ _ he hd3)
  | .noNumber _, _, h, _, _, _, _, _, _, _ => by simp [Form.quiet] at h
  | .tag _ _ _, _, h, _, _, _, _, _, _, _ => by simp [Form.quiet] at h
  | .label _ _, _, h, _, _, _, _, _, _, _ => by simp [Form.quiet] at h
  | .style st rest, sep, h, l, prev, nxt, ns, l', _, hd => by
    simp only [Form.quiet] at h
    simp only [Form.denote] at hd
    obtain ⟨⟨r, l1⟩, hd1, hd⟩ := except_bind_ok hd
    cases hd
    exact untagAll_cons (untag_row (untag_form rest false h _ _ _ _ _ nofun hd1) _) untag_nil
  | .color name rest, sep, h, l, prev, nxt, ns, l', _, hd => by
    simp only [Form.quiet] at h
    simp only [Form.denote] at hd
    obtain ⟨c, -, hd⟩ := except_bind_ok hd
    obtain ⟨⟨r, l1⟩, hd1, hd⟩ := except_bind_ok hd
    cases hd
    exact untagAll_cons (untag_row (untag_form rest false h _ _ _ _ _ nofun hd1) _) untag_nil

theorem untag_base : ∀ (b : Base), b.quiet = true → ∀ (l : Loc) (prev nxt : Class) (r : Class × Node) (l' : Loc),
    b.denote l prev nxt = .ok (r, l') → Untag r.2
  | .atom t, _, l, prev, nxt, r, l', hd => by
    simp only [Base.denote] at hd
    cases hd
    exact untag_atom _ _ _ _ _
  | .number d more, _, l, prev, nxt, r, l', hd => by
    simp only [Base.denote] at hd
    cases hd
    exact untag_kids rfl (by intro k hk; cases hk)
  | .group f, h, l, prev, nxt, r, l', hd => by
    simp only [Base.quiet] at h
    simp only [Base.denote] at hd
    obtain ⟨⟨r1, l1⟩, hd1, hd⟩ := except_bind_ok hd
    cases hd
    exact untag_vec (untag_form f false h _ _ _ _ _ nofun hd1) _
  | .frac attr isBinom num den, h, l, prev, nxt, r, l', hd => by
    simp only [Base.quiet, Bool.and_eq_true] at h
    simp only [Base.denote] at hd
    obtain ⟨⟨r1, l1⟩, hd1, hd⟩ := except_bind_ok hd
    obtain ⟨⟨r2, l2⟩, hd2, hd⟩ := except_bind_ok hd
    cases hd
    have hg : ∀ v u, Untag (Node.frac r1 r2 v u attr) := fun v u =>
      untag_kids rfl (by simp only [kids]; simp; exact ⟨untag_arg num h.1 _ _ _ _ hd1, untag_arg den h.2 _ _ _ _ hd2⟩)
    dsimp only
    split
    · refine untag_fenced (fun m hm => ?_) _ _ _
      cases List.mem_singleton.1 hm
      exact hg _ _
    · exact hg _ _
  | .genfrac x num den, h, l, prev, nxt, r, l', hd => by
    simp only [Base.quiet, Bool.and_eq_true] at h
    simp only [Base.denote] at hd
    obtain ⟨o, -, hd⟩ := except_bind_ok hd
    obtain ⟨c, -, hd⟩ := except_bind_ok hd
    obtain ⟨lt, -, hd⟩ := except_bind_ok hd
    obtain ⟨style, -, hd⟩ := except_bind_ok hd
    obtain ⟨⟨r1, l1⟩, hd1, hd⟩ := except_bind_ok hd
    obtain ⟨⟨r2, l2⟩, hd2, hd⟩ := except_bind_ok hd
    cases hd
    have hg : ∀ v u, Untag (Node.frac r1 r2 v u none) := fun v u =>
      untag_kids rfl (by simp only [kids]; simp; exact ⟨untag_arg num h.1 _ _ _ _ hd1, untag_arg den h.2 _ _ _ _ hd2⟩)
    refine untag_fenced (fun m hm => ?_) _ _ _
    cases List.mem_singleton.1 hm
    exact hg _ _
  | .stackTok isOver symbol t, h, l, prev, nxt, r, l', hd => by
    simp only [Base.quiet] at h
    simp only [Base.denote] at hd
    obtain ⟨⟨r1, l1⟩, hd1, hd⟩ := except_bind_ok hd
    cases hd
    exact untag_stack (untag_arg symbol h _ _ _ _ hd1) (untag_alone _ _ _ _)
  | .stackGroup isOver symbol f, h, l, prev, nxt, r, l', hd => by
    simp only [Base.quiet, Bool.and_eq_true] at h
    simp only [Base.denote] at hd
    obtain ⟨⟨r1, l1⟩, hd1, hd⟩ := except_bind_ok hd
    obtain ⟨⟨r2, l2⟩, hd2, hd⟩ := except_bind_ok hd
    cases hd
    exact untag_stack (untag_arg symbol h.1 _ _ _ _ hd1) (untag_vec (untag_form f false h.2 _ _ _ _ _ nofun hd2) _)
  | .arrow rel over, h, l, prev, nxt, r, l', hd => by
    simp only [Base.quiet] at h
    simp only [Base.denote] at hd
    obtain ⟨⟨r1, l1⟩, hd1, hd⟩ := except_bind_ok hd
    cases hd
    exact untag_arrow (under := none) (by rintro _ ⟨⟩) (untag_arg over h _ _ _ _ hd1)
  | .arrowUnder rel under over, h, l, prev, nxt, r, l', hd => by
    simp only [Base.quiet, Bool.and_eq_true] at h
    simp only [Base.denote] at hd
    obtain ⟨⟨r1, l1⟩, hd1, hd⟩ := except_bind_ok hd
    obtain ⟨⟨r2, l2⟩, hd2, hd⟩ := except_bind_ok hd
    cases hd
    exact untag_arrow (under := some _) (by rintro _ ⟨⟩; exact untag_vec (untag_form under false h.1 _ _ _ _ _ nofun hd1) _)
      (untag_arg over h.2 _ _ _ _ hd2)
  | .cramped st f, h, l, prev, nxt, r, l', hd => by
    simp only [Base.quiet] at h
    simp only [Base.denote] at hd
    obtain ⟨⟨r1, l1⟩, hd1, hd⟩ := except_bind_ok hd
    cases hd
    exact untag_one rfl rfl (untag_vec (untag_form f false h _ _ _ _ _ nofun hd1) _)
  | .sqrt a, h, l, prev, nxt, r, l', hd => by
    simp only [Base.quiet] at h
    simp only [Base.denote] at hd
    obtain ⟨⟨r1, l1⟩, hd1, hd⟩ := except_bind_ok hd
    cases hd
    exact untag_kids rfl (by simp only [kids]; simp; exact untag_arg a h _ _ _ _ hd1)
  | .root degree a, h, l, prev, nxt, r, l', hd => by
    simp only [Base.quiet, Bool.and_eq_true] at h
    simp only [Base.denote] at hd
    obtain ⟨⟨r1, l1⟩, hd1, hd⟩ := except_bind_ok hd
    obtain ⟨⟨r2, l2⟩, hd2, hd⟩ := except_bind_ok hd
    cases hd
    exact untag_kids rfl (by
      simp only [kids]; simp
      exact ⟨untag_vec (untag_form degree false h.1 _ _ _ _ _ nofun hd1) _, untag_arg a h.2 _ _ _ _ hd2⟩)
  | .deco d a, h, l, prev, nxt, r, l', hd => by
    simp only [Base.quiet] at h
    simp only [Base.denote] at hd
    obtain ⟨⟨r1, l1⟩, hd1, hd⟩ := except_bind_ok hd
    cases hd
    exact untag_deco d (untag_arg a h _ _ _ _ hd1)
  | .brace x isOver a, h, l, prev, nxt, r, l', hd => by
    simp only [Base.quiet] at h
    simp only [Base.denote] at hd
    obtain ⟨⟨r1, l1⟩, hd1, hd⟩ := except_bind_ok hd
    cases hd
    exact untag_brace (untag_arg a h _ _ _ _ hd1)
  | .braceLabel x isOver a b, h, l, prev, nxt, r, l', hd => by
    simp only [Base.quiet, Bool.and_eq_true] at h
    simp only [Base.denote] at hd
    obtain ⟨⟨r1, l1⟩, hd1, hd⟩ := except_bind_ok hd
    obtain ⟨⟨r2, l2⟩, hd2, hd⟩ := except_bind_ok hd
    cases hd
    have h1 := untag_brace (x := x) (isOver := isOver) (untag_arg a h.1 _ _ _ _ hd1)
    have h2 := untag_arg b h.2 _ _ _ _ hd2
    dsimp only
    split
    · exact untag_kids rfl (by simp only [kids]; simp; exact ⟨h2, h1⟩)
    · exact untag_kids rfl (by simp only [kids]; simp; exact ⟨h2, h1⟩)
  | .prescript sup sub a, h, l, prev, nxt, r, l', hd => by
    simp only [Base.quiet, Bool.and_eq_true] at h
    simp only [Base.denote] at hd
    obtain ⟨⟨r1, l1⟩, hd1, hd⟩ := except_bind_ok hd
    obtain ⟨⟨r2, l2⟩, hd2, hd⟩ := except_bind_ok hd
    obtain ⟨⟨r3, l3⟩, hd3, hd⟩ := except_bind_ok hd
    cases hd
    have h1 := untag_arg sup h.1.1 _ _ _ _ hd1
    have h2 := untag_arg sub h.1.2 _ _ _ _ hd2
    have h3 := untag_arg a h.2 _ _ _ _ hd3
    exact untag_kids rfl (by simp only [kids]; simp; exact ⟨h3, h2, h1⟩)
  | .leaf x, h, l, prev, nxt, r, l', hd => by
    simp only [Base.denote] at hd
    obtain ⟨r1, hd1, hd⟩ := except_bind_ok hd
    cases hd
    exact untag_leaf hd1
  | .mathClass kind b, h, l, prev, nxt, r, l', hd => by
    simp only [Base.quiet] at h
    simp only [Base.denote] at hd
    obtain ⟨⟨r1, l1⟩, hd1, hd⟩ := except_bind_ok hd
    cases hd
    exact untag_class (untag_base b h _ _ _ _ _ hd1)
  | .overlay o b, h, l, prev, nxt, r, l', hd => by
    simp only [Base.denote] at hd
    obtain ⟨⟨r1, l1⟩, -, hd⟩ := except_bind_ok hd
    obtain ⟨n, hd2, hd⟩ := except_bind_ok hd
    cases hd
    exact untag_struck hd2
  | .fence lt rt f, h, l, prev, nxt, r, l', hd => by
    simp only [Base.quiet] at h
    simp only [Base.denote] at hd
    obtain ⟨o, -, hd⟩ := except_bind_ok hd
    obtain ⟨⟨r1, l1⟩, hd1, hd⟩ := except_bind_ok hd
    obtain ⟨c, -, hd⟩ := except_bind_ok hd
    cases hd
    exact untag_fenced (untag_form f false h _ _ _ _ _ nofun hd1) _ _ _
  | .env e e' o f, h, l, prev, nxt, r, l', hd => by
    simp only [Base.quiet, Bool.and_eq_true, Option.isNone_iff_eq_none] at h
    simp only [Base.denote] at hd
    have hn : (envState e).numbered = none := by rw [envState, h.1]; rfl
    obtain ⟨spec, -, hd⟩ := except_bind_ok hd
    obtain ⟨⟨r1, l1⟩, hd1, hd⟩ := except_bind_ok hd
    have hg := untag_form f true h.2 _ _ _ _ _ (fun _ => hn) hd1
    obtain ⟨q, hq⟩ := quiet_form f true h.2 (envStyle e) (envState e) .opening .ending (fun _ => hn)
    have hq2 := hq { l with style := envStyle e, env := envState e } ⟨rfl, fun _ => rfl, rfl⟩
    dsimp only at hq2
    rw [hd1] at hq2
    have hl1 : l1.env.numbered = none := by
      cases q with
      | error e => cases hq2
      | ok a => cases hq2; exact hn
    unfold endEnv at hd
    split at hd
    · cases hd
    · dsimp only at hd
      rw [hl1] at hd
      dsimp only at hd
      split at hd
      · cases hd; exact untag_env hg ‹_›
      · cases hd

theorem untag_arg : ∀ (a : Arg), a.quiet = true → ∀ (reset : Bool) (l : Loc) (r : Node) (l' : Loc),
    a.denote reset l = .ok (r, l') → Untag r
  | .tok t, _, reset, l, r, l', hd => by
    simp only [Arg.denote] at hd
    split at hd
    · cases hd; exact untag_kids rfl (by intro k hk; cases hk)
    · cases hd; exact untag_atom _ _ _ _ _
  | .braces f, h, reset, l, r, l', hd => by
    simp only [Arg.quiet] at h
    simp only [Arg.denote] at hd
    obtain ⟨⟨r1, l1⟩, hd1, hd⟩ := except_bind_ok hd
    cases hd
    exact untag_vec (untag_form f false h _ _ _ _ _ nofun hd1) _

theorem untag_scrs : ∀ (s : Scripts), s.quiet = true → ∀ (l : Loc) (b b' : Bounds) (l' : Loc),
    UntagBounds b → s.denote l b = .ok (b', l') → UntagBounds b'
  | .nil, _, l, b, b', l', hb, hd => by
    simp only [Scripts.denote] at hd
    cases hd
    exact hb
  | .sub a s, h, l, b, b', l', hb, hd => by
    simp only [Scripts.quiet, Bool.and_eq_true] at h
    simp only [Scripts.denote] at hd
    obtain ⟨⟨r1, l1⟩, hd1, hd⟩ := except_bind_ok hd
    obtain ⟨b2, hd2, hd⟩ := except_bind_ok hd
    exact untag_scrs s h.2 _ _ _ _ (addSub_untag (untag_arg a h.1 _ _ _ _ hd1) hb hd2) hd
  | .sup a s, h, l, b, b', l', hb, hd => by
    simp only [Scripts.quiet, Bool.and_eq_true] at h
    simp only [Scripts.denote] at hd
    obtain ⟨⟨r1, l1⟩, hd1, hd⟩ := except_bind_ok hd
    obtain ⟨b2, hd2, hd⟩ := except_bind_ok hd
    exact untag_scrs s h.2 _ _ _ _ (addSup_untag (untag_arg a h.1 _ _ _ _ hd1) hb hd2) hd
  | .primes t ts s, h, l, b, b', l', hb, hd => by
    simp only [Scripts.quiet] at h
    simp only [Scripts.denote] at hd
    obtain ⟨b2, hd2, hd⟩ := except_bind_ok hd
    exact untag_scrs s h _ _ _ _ (addSup_untag (untag_unlessSingle (untag_primes _)) hb hd2) hd
  | .primesSup t ts a s, h, l, b, b', l', hb, hd => by
    simp only [Scripts.quiet, Bool.and_eq_true] at h
    simp only [Scripts.denote] at hd
    obtain ⟨⟨r1, l1⟩, hd1, hd⟩ := except_bind_ok hd
    obtain ⟨b2, hd2, hd⟩ := except_bind_ok hd
    refine untag_scrs s h.2 _ _ _ _ (addSup_untag (untag_unlessSingle ?_) hb hd2) hd
    intro n hn
    rcases List.mem_append.1 hn with hn | hn
    · exact untag_primes _ n hn
    · cases List.mem_singleton.1 hn
      exact untag_arg a h.1 _ _ _ _ hd1
end

theorem tagsIn_of_untag {n : Node} (h : Untag n) : tagsIn [n] = [] := by
  unfold tagsIn
  rw [List.filterMap_eq_nil_iff]
  intro m hm
  obtain ⟨k, hk, h2⟩ := mem_inList.1 hm
  cases List.mem_singleton.1 hk
  exact h m h2

end Verif

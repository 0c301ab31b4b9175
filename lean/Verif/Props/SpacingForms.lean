import Verif.Props.Spacing
import Verif.Props.Pages
/-! Property C37 for formulas with scripts, groups, fractions, roots and so on. -/
namespace Verif
open Model Spec

/-- There is no padding besides the space of the core. -/
def plainPads : Node → Bool
  | .padded _ _ _ none none _ => true
  | .padded _ _ _ _ _ _ => false
  | _ => true

/-- Neither an operator nor space -/
structure Inert (n : Node) : Prop where
  core : core n = none
  ink : spaceLike n = false
  pads : plainPads n = true

/-! ### Scripts do not change the space -/

theorem core_withScripts (n : Node) (b : Bounds) : core (withScripts n b) = core n := by
  unfold withScripts
  split <;> rfl

theorem core_opNode (limits : Bool) (n : Node) (b : Bounds) : core (opNode limits n b) = core n := by
  unfold opNode
  split
  · unfold withLimits
    split <;> rfl
  · exact core_withScripts n b

theorem inert_withScripts {n : Node} (b : Bounds) (h : Inert n) : Inert (withScripts n b) := by
  refine ⟨by rw [core_withScripts]; exact h.1, ?_, ?_⟩
  · have := h.2
    unfold withScripts
    split <;> first | exact this | rfl
  · have := h.3
    unfold withScripts
    split <;> first | exact this | rfl

/-- Is the node padded? -/
def isPadded : Node → Bool
  | .padded .. => true
  | _ => false

theorem shown_core {a : Atom} {n : Node} (h : isPadded n = false) : shownSpace a n = coreSpace a (core n) := by
  cases n <;> first | rfl | cases h

theorem shown_of {a : Atom} {m n : Node} (hm : isPadded m = false) (hn : isPadded n = false) (h : core m = core n) :
    shownSpace a m = shownSpace a n := by
  rw [shown_core hm, shown_core hn, h]

theorem withScripts_cases (n : Node) (b : Bounds) : withScripts n b = n ∨ isPadded (withScripts n b) = false := by
  unfold withScripts
  split <;> first | exact Or.inl rfl | exact Or.inr rfl

/-! ### What is neither an operator nor space -/

theorem spaceLikes_mem {n : Node} {ns : List Node} (h : n ∈ ns) (hn : spaceLike n = false) : spaceLikes ns = false := by
  induction ns with
  | nil => cases h
  | cons m ns ih =>
    unfold spaceLikes
    rcases List.mem_cons.1 h with rfl | h
    · rw [hn]; rfl
    · rw [ih h, Bool.and_false]

theorem coreOf_mem {n : Node} {ns : List Node} (h : n ∈ ns) (hn : Inert n) : coreOf ns = none := by
  induction ns with
  | nil => rfl
  | cons m ns ih =>
    unfold coreOf
    rcases List.mem_cons.1 h with rfl | h
    · rw [hn.2, hn.1]
      simp
    · rw [ih h, spaceLikes_mem h hn.2]
      simp

theorem inert_row {n : Node} {ns : List Node} (attrs : RowAttrs) (h : n ∈ ns) (hn : Inert n) : Inert (.row ns attrs) := by
  refine ⟨?_, ?_, rfl⟩
  · unfold core; exact coreOf_mem h hn
  · unfold spaceLike; exact spaceLikes_mem h hn.2

theorem inert_vec {n : Node} {ns : List Node} (reset : Bool) (h : n ∈ ns) (hn : Inert n) :
    Inert (nodeVecToNode ns reset) := by
  match ns with
  | [] => cases h
  | [m] =>
    have : n = m := by simpa using h
    subst this
    cases n <;> first
      | (cases reset <;> exact hn)
      | exact absurd hn.1 (by unfold core; exact Option.some_ne_none _)
  | a :: b :: ns => exact inert_row _ h hn

/-- A row which begins and ends with a delimiter -/
theorem inert_fenced (content : List Node) (o c : Option StretchableOp) (st : Option Style) :
    Inert (fenced content o c st) := by
  have hd : ∀ d, spaceLike (delimOperator d) = false := by
    intro d
    cases d <;> rfl
  have h1 : spaceLikes (content ++ [delimOperator c]) = false := spaceLikes_mem (List.mem_append_right _ List.mem_cons_self) (hd c)
  refine ⟨?_, ?_, rfl⟩
  · show coreOf (delimOperator o :: (content ++ [delimOperator c])) = none
    unfold coreOf
    rw [hd, h1]
    rfl
  · exact spaceLikes_mem (n := delimOperator o) List.mem_cons_self (hd o)

theorem inert_inked {st : Style} {inSeq : Bool} {p nx : Class} {t : Token} (h : inked t = true) (hd : isAtom t = true) :
    Inert (atomNode st inSeq p nx t).2 := by
  unfold inked at h
  cases t <;> first | exact ⟨rfl, rfl, rfl⟩ | (cases h; done) | cases hd

theorem inert_word (tf : MathVariant) (cs : List SuperChar) : Inert (wordNode tf cs) := by
  unfold wordNode
  split <;> exact ⟨rfl, rfl, rfl⟩

theorem inert_class {n : Node} (l r : Option MathSpacing) (h : Inert n) :
    mathClassNode n l r = .padded n false false l r none := by
  unfold mathClassNode
  split
  · exact absurd h.1 (Option.some_ne_none _)
  · exact absurd h.2 (by intro h; cases h)
  · rfl

theorem inert_struck {n m : Node} {o : OverlayChar} (h : Inert n) (hs : struck o n = .ok m) : Inert m := by
  unfold struck overlayNode at hs
  cases n <;> first
    | exact absurd h.1 (Option.some_ne_none _)
    | (cases hs; exact ⟨rfl, rfl, rfl⟩)
    | cases hs

theorem inert_alone {st : Style} {p nx : Class} {t : Token} (h : inked t = true) : Inert (aloneNode st p nx t).2 := by
  unfold inked at h
  cases t <;> first | exact ⟨rfl, rfl, rfl⟩ | cases h

theorem inert_stack {isOver : Bool} {a n : Node} (h : Inert n) : Inert (stackNode isOver a n) := by
  cases isOver <;> exact ⟨h.1, rfl, rfl⟩

mutual
theorem heavy_form {br : Bool} : (f : Form) → f.heavy = true → f.ok br = true → ∀ ⦃l l' : Loc⦄ ⦃p nxt : Class⦄ ⦃ns : List Node⦄,
    f.denote l p nxt = .ok (ns, l') → ∃ n ∈ ns, Inert n
  | .nil => fun h => by cases h
  | .item b s rest => by
    intro h ho l l' p nxt ns hd
    unfold Form.ok at ho
    simp only [Bool.and_eq_true] at ho
    unfold Form.denote at hd
    obtain ⟨r, h1, hd⟩ := bind_ok hd
    obtain ⟨rs, h2, hd⟩ := bind_ok hd
    obtain ⟨rr, h3, hd⟩ := bind_ok hd
    cases hd
    unfold Form.heavy at h
    rcases Bool.or_eq_true _ _ ▸ h with h | h
    · exact ⟨_, List.mem_cons_self, inert_withScripts _ (heavy_base b h ho.1.1 h1)⟩
    · obtain ⟨n, g1, g2⟩ := heavy_form rest h ho.2 h3
      exact ⟨n, List.mem_cons_of_mem _ g1, g2⟩
  | .bigOp o s rest => by
    intro h ho l l' p nxt ns hd
    unfold Form.ok at ho
    simp only [Bool.and_eq_true] at ho
    unfold Form.denote at hd
    split at hd
    · obtain ⟨rs, h2, hd⟩ := bind_ok hd
      obtain ⟨rr, h3, hd⟩ := bind_ok hd
      cases hd
      obtain ⟨n, g1, g2⟩ := heavy_form rest h ho.2 h3
      exact ⟨n, List.mem_cons_of_mem _ g1, g2⟩
    · obtain ⟨rs, h2, hd⟩ := bind_ok hd
      obtain ⟨rr, h3, hd⟩ := bind_ok hd
      cases hd
      obtain ⟨n, g1, g2⟩ := heavy_form rest h ho.2 h3
      exact ⟨n, List.mem_cons_of_mem _ g1, g2⟩
  | .func x _ s rest => by
    intro h ho l l' p nxt ns hd
    unfold Form.ok at ho
    simp only [Bool.and_eq_true] at ho
    unfold Form.denote at hd
    obtain ⟨rs, h2, hd⟩ := bind_ok hd
    obtain ⟨rr, h3, hd⟩ := bind_ok hd
    cases hd
    obtain ⟨n, g1, g2⟩ := heavy_form rest h ho.2 h3
    exact ⟨n, List.mem_cons_of_mem _ g1, g2⟩
  | .amp rest => by
    intro h ho l l' p nxt ns hd
    unfold Form.ok at ho
    unfold Form.denote at hd
    split at hd
    · obtain ⟨rr, h3, hd⟩ := bind_ok hd
      cases hd
      obtain ⟨n, g1, g2⟩ := heavy_form rest h ho h3
      exact ⟨n, List.mem_cons_of_mem _ g1, g2⟩
    · cases hd
  | .newLine line rest => by
    intro h ho l l' p nxt ns hd
    unfold Form.ok at ho
    unfold Form.denote at hd
    obtain ⟨r, h1, hd⟩ := bind_ok hd
    obtain ⟨rr, h3, hd⟩ := bind_ok hd
    cases hd
    obtain ⟨n, g1, g2⟩ := heavy_form rest h ho h3
    exact ⟨n, List.mem_cons_of_mem _ g1, g2⟩
  | .noNumber rest => by
    intro h ho l l' p nxt ns hd
    unfold Form.ok at ho
    unfold Form.denote at hd
    exact heavy_form rest h ho hd
  | .tag _ _ rest => by
    intro h ho l l' p nxt ns hd
    unfold Form.ok at ho
    simp only [Bool.and_eq_true] at ho
    unfold Form.denote at hd
    obtain ⟨_, h1, hd⟩ := bind_ok hd
    exact heavy_form rest h ho.2 hd
  | .label _ rest => by
    intro h ho l l' p nxt ns hd
    unfold Form.ok at ho
    simp only [Bool.and_eq_true] at ho
    unfold Form.denote at hd
    obtain ⟨_, h1, hd⟩ := bind_ok hd
    exact heavy_form rest h ho.2 hd
  | .style _ rest => by
    intro h ho l l' p nxt ns hd
    unfold Form.ok at ho
    simp only [Bool.and_eq_true] at ho
    unfold Form.denote at hd
    obtain ⟨rr, h3, hd⟩ := bind_ok hd
    cases hd
    obtain ⟨n, g1, g2⟩ := heavy_form rest h ho.2 h3
    exact ⟨_, List.mem_cons_self, inert_row _ g1 g2⟩
  | .color _ rest => by
    intro h ho l l' p nxt ns hd
    unfold Form.ok at ho
    simp only [Bool.and_eq_true] at ho
    unfold Form.denote at hd
    obtain ⟨c, h1, hd⟩ := bind_ok hd
    obtain ⟨rr, h3, hd⟩ := bind_ok hd
    cases hd
    obtain ⟨n, g1, g2⟩ := heavy_form rest h ho.2 h3
    exact ⟨_, List.mem_cons_self, inert_row _ g1 g2⟩
  | .call _ _ _ cont => by
    intro h ho l l' p nxt ns hd
    unfold Form.ok at ho
    simp only [Bool.and_eq_true] at ho
    unfold Form.denote at hd
    obtain ⟨_, h1, hd⟩ := bind_ok hd
    exact heavy_form cont h ho.2 hd
  | .emptyCall _ _ s rest => by
    intro h ho l l' p nxt ns hd
    unfold Form.ok at ho
    simp only [Bool.and_eq_true] at ho
    unfold Form.denote at hd
    obtain ⟨_, h1, hd⟩ := bind_ok hd
    obtain ⟨rs, h2, hd⟩ := bind_ok hd
    obtain ⟨rr, h3, hd⟩ := bind_ok hd
    cases hd
    obtain ⟨n, g1, g2⟩ := heavy_form rest h ho.2 h3
    exact ⟨n, List.mem_cons_of_mem _ g1, g2⟩
theorem heavy_base {br : Bool} {aft : List Tk} : (b : Base) → b.heavy = true → b.ok br aft = true → ∀ ⦃l l' : Loc⦄ ⦃p nxt : Class⦄ ⦃r : Class × Node⦄,
    b.denote l p nxt = .ok (r, l') → Inert r.2
  | .atom t => by
    intro h ho l l' p nxt r hd
    unfold Base.ok at ho
    simp only [Bool.and_eq_true] at ho
    cases hd
    exact inert_inked h ho.1
  | .number _ _ => by
    intro h ho l l' p nxt r hd
    cases hd
    exact ⟨rfl, rfl, rfl⟩
  | .group f => by
    intro h ho l l' p nxt r hd
    unfold Base.denote at hd
    obtain ⟨x, h1, hd⟩ := bind_ok hd
    cases hd
    obtain ⟨n, g1, g2⟩ := heavy_form f h ho h1
    exact inert_vec false g1 g2
  | .frac attr isBinom num den => by
    intro h ho l l' p nxt r hd
    unfold Base.ok at ho
    simp only [Bool.and_eq_true] at ho
    unfold Base.denote at hd
    obtain ⟨x, h1, hd⟩ := bind_ok hd
    obtain ⟨y, h2, hd⟩ := bind_ok hd
    cases hd
    cases isBinom
    · exact ⟨(heavy_arg num h ho.1 h1).1, rfl, rfl⟩
    · exact inert_fenced _ _ _ _
  | .genfrac x num den => by
    intro h ho l l' p nxt r hd
    unfold Base.denote at hd
    obtain ⟨_, _, hd⟩ := bind_ok hd
    obtain ⟨_, _, hd⟩ := bind_ok hd
    obtain ⟨_, _, hd⟩ := bind_ok hd
    obtain ⟨_, _, hd⟩ := bind_ok hd
    obtain ⟨x, h1, hd⟩ := bind_ok hd
    obtain ⟨y, h2, hd⟩ := bind_ok hd
    cases hd
    exact inert_fenced _ _ _ _
  | .stackTok isOver symbol t => by
    intro h ho l l' p nxt r hd
    unfold Base.denote at hd
    obtain ⟨x, h1, hd⟩ := bind_ok hd
    cases hd
    replace h : inked t.unwrapMath = true := h
    exact inert_stack (inert_alone h)
  | .stackGroup isOver symbol f => by
    intro h ho l l' p nxt r hd
    unfold Base.ok at ho
    simp only [Bool.and_eq_true] at ho
    unfold Base.denote at hd
    obtain ⟨x, h1, hd⟩ := bind_ok hd
    obtain ⟨y, h2, hd⟩ := bind_ok hd
    cases hd
    obtain ⟨n, g1, g2⟩ := heavy_form f h ho.2 h2
    exact inert_stack (inert_vec false g1 g2)
  | .arrow _ _ => fun h => by cases h
  | .arrowUnder _ _ _ => fun h => by cases h
  | .cramped _ f => by
    intro h ho l l' p nxt r hd
    unfold Base.denote at hd
    obtain ⟨x, h1, hd⟩ := bind_ok hd
    cases hd
    obtain ⟨n, g1, g2⟩ := heavy_form f h ho h1
    exact inert_row _ List.mem_cons_self (inert_vec true g1 g2)
  | .sqrt a => by
    intro h ho l l' p nxt r hd
    unfold Base.denote at hd
    obtain ⟨x, h1, hd⟩ := bind_ok hd
    cases hd
    exact ⟨rfl, rfl, rfl⟩
  | .root _ a => by
    intro h ho l l' p nxt r hd
    unfold Base.denote at hd
    obtain ⟨x, h1, hd⟩ := bind_ok hd
    obtain ⟨y, h2, hd⟩ := bind_ok hd
    cases hd
    exact ⟨rfl, rfl, rfl⟩
  | .deco d a => by
    intro h ho l l' p nxt r hd
    unfold Base.denote at hd
    obtain ⟨x, h1, hd⟩ := bind_ok hd
    cases hd
    have := heavy_arg a h ho h1
    unfold Deco.node
    split
    · split <;> exact ⟨this.1, rfl, rfl⟩
    · exact ⟨this.1, rfl, rfl⟩
    all_goals exact ⟨this.1, this.2, rfl⟩
  | .brace _ _ _ => fun h => by cases h
  | .braceLabel _ _ _ _ => fun h => by cases h
  | .prescript _ _ a => by
    intro h ho l l' p nxt r hd
    unfold Base.ok at ho
    simp only [Bool.and_eq_true] at ho
    unfold Base.denote at hd
    obtain ⟨x, h1, hd⟩ := bind_ok hd
    obtain ⟨y, h2, hd⟩ := bind_ok hd
    obtain ⟨z, h3, hd⟩ := bind_ok hd
    cases hd
    exact ⟨(heavy_arg a h ho.2 h3).1, rfl, rfl⟩
  | .leaf x => by
    intro h ho l l' p nxt r hd
    unfold Base.denote at hd
    obtain ⟨y, h1, hd⟩ := bind_ok hd
    cases hd
    cases x <;> first
      | (cases h; done)
      | (cases h1; exact inert_word _ _)
  | .mathClass _ _ => fun h => by cases h
  | .overlay _ b => by
    intro h ho l l' p nxt r hd
    unfold Base.ok at ho
    unfold Base.denote at hd
    obtain ⟨x, h1, hd⟩ := bind_ok hd
    obtain ⟨y, h2, hd⟩ := bind_ok hd
    cases hd
    exact inert_struck (heavy_base b h ho h1) h2
  | .fence _ _ f => by
    intro h ho l l' p nxt r hd
    unfold Base.denote at hd
    obtain ⟨x, h1, hd⟩ := bind_ok hd
    obtain ⟨y, h2, hd⟩ := bind_ok hd
    obtain ⟨z, h3, hd⟩ := bind_ok hd
    cases hd
    exact inert_fenced _ _ _ _
  | .env _ _ _ _ => fun h => by cases h
theorem heavy_arg : (a : Arg) → a.heavy = true → a.ok = true → ∀ ⦃reset : Bool⦄ ⦃l l' : Loc⦄ ⦃n : Node⦄,
    a.denote reset l = .ok (n, l') → Inert n
  | .tok t => by
    intro h ho reset l l' n hd
    unfold Arg.ok at ho
    unfold Arg.heavy at h
    unfold Arg.denote at hd
    generalize t.unwrapMath = u at h ho hd
    unfold inked at h
    cases u <;> first
      | (cases h; done)
      | (cases hd; exact ⟨rfl, rfl, rfl⟩)
  | .braces f => by
    intro h ho reset l l' n hd
    unfold Arg.denote at hd
    obtain ⟨x, h1, hd⟩ := bind_ok hd
    cases hd
    obtain ⟨n, g1, g2⟩ := heavy_form f h ho h1
    exact inert_vec _ g1 g2
end

/-! ### The space of a part of a formula -/

theorem shown_plain {a : Atom} {n : Node} (h : plainPads n = true) : shownSpace a n = coreSpace a (core n) := by
  cases n
  case padded n w ht l r v =>
    cases l <;> cases r <;> first
      | (cases h; done)
      | simp only [shownSpace, Option.map_none, Option.getD_none, Nat.zero_add]
  all_goals rfl

theorem shown_scripts {a : Atom} {n : Node} (h : plainPads n = true) (b : Bounds) :
    shownSpace a (withScripts n b) = shownSpace a n := by
  rcases withScripts_cases n b with e | e
  · rw [e]
  · rw [shown_core e, core_withScripts, shown_plain h]

theorem shown_opNode {a : Atom} {n : Node} (h : plainPads n = true) (limits : Bool) (b : Bounds) :
    shownSpace a (opNode limits n b) = shownSpace a n := by
  cases limits
  · exact shown_scripts h b
  · unfold opNode withLimits
    rw [if_pos rfl]
    split <;> first
      | rfl
      | (rw [shown_plain rfl, shown_plain h]; rfl)

theorem foresees_side {st : Style} {a : Atom} {p nx : Class} {next : Option Atom} (h : foresees a nx next = true) :
    side st a p nx = side st a p (rightClass next) ∧ classAfter st a p nx = classAfter st a p (rightClass next) := by
  unfold foresees at h
  simp only [Bool.or_eq_true, Bool.and_eq_true, decide_eq_true_eq] at h
  rcases h with (((rfl | rfl) | rfl) | rfl) | ⟨⟨h1, rfl⟩, rfl⟩
  · exact ⟨rfl, rfl⟩
  · exact ⟨rfl, rfl⟩
  · exact ⟨rfl, rfl⟩
  · exact ⟨rfl, rfl⟩
  · cases st <;> cases a <;> first | exact absurd rfl h1 | (cases p <;> decide)

theorem classSpacing_side {kind : MathClassKind} (hk : kind ≠ .bin) (st : Style) (p nx : Class) :
    (((classSpacing st p nx kind).1.map muWidth).getD 0, ((classSpacing st p nx kind).2.map muWidth).getD 0) =
      side st (givenAtom kind) p nx ∧
    (((classSpacing st p nx kind).1.map muWidth).getD (naturalSpace (givenAtom kind)).1,
      ((classSpacing st p nx kind).2.map muWidth).getD (naturalSpace (givenAtom kind)).2) = side st (givenAtom kind) p nx ∧
    Like (givenClass kind) (classAfter st (givenAtom kind) p nx) := by
  cases kind <;> first
    | exact absurd rfl hk
    | exact ⟨rfl, rfl, Or.inl rfl⟩
    | exact ⟨rfl, rfl, Or.inr ⟨rfl, rfl⟩⟩
    | (refine ⟨?_, ?_, Or.inl rfl⟩ <;> (cases st <;> cases p <;> cases nx <;> decide))

/-- What is shown for a part whose type is known -/
structure ShowsSpace (st : Style) (a : Atom) (p nx : Class) (r : Class × Node) : Prop where
  space : shownSpace a r.2 = side st a p nx
  class_ : Like r.1 (classAfter st a p nx)

theorem shows_ord {st : Style} {p nx c : Class} {n : Node} (hc : Like c .default) (hp : plainPads n = true)
    (h : core n = none) : ShowsSpace st .ord p nx (c, n) :=
  ⟨by rw [shown_plain hp, h]; rfl, hc⟩

theorem plain_operator {t : Token} {a : Atom} (h : plainAtom t = some a) (hn : inked t = false) (st : Style)
    (inSeq : Bool) (p nx : Class) : ∃ op attrs size l r, (atomNode st inSeq p nx t).2 = .operator op attrs size l r := by
  unfold plainAtom at h
  unfold inked at hn
  cases t <;> first
    | (cases h; done)
    | (cases hn; done)
    | exact ⟨_, _, _, _, _, rfl⟩

theorem bigNode_shows (size : Size) (sd : Option ParenType) (st : Style) (p nx : Class) (d : StretchableOp) {a : Atom}
    (h : (Base.leaf (.big size sd t)).atomType = some a) : ShowsSpace st a p nx (bigNode size sd st p nx d) ∧
      plainPads (bigNode size sd st p nx d).2 = true := by
  have h0 : ∀ (b : Prop) [Decidable b], ((if b then none else some MathSpacing.zero).map muWidth).getD 0 = 0 := by
    intro b _
    split <;> rfl
  have zero : ∀ (op : MathMLOperator) (at1 at2 : OpAttrs) (b : Prop) [Decidable b] (a : Atom), naturalSpace a = (0, 0) →
      coreSpace a (core (if b then .operator op at1 (some size) none none
        else .operator op at2 (some size) (noSpace d) (noSpace d))) = (0, 0) := by
    intro op at1 at2 b _ a ha
    split
    · simp only [core, coreSpace, ha]; rfl
    · simp only [core, coreSpace, ha, noSpace, h0]
  have pads : ∀ (op : MathMLOperator) (at1 at2 : OpAttrs) (b : Prop) [Decidable b],
      plainPads (if b then .operator op at1 (some size) none none
        else .operator op at2 (some size) (noSpace d) (noSpace d)) = true := by
    intro op at1 at2 b _
    split <;> rfl
  unfold Base.atomType at h
  cases sd with
  | none =>
    cases h
    refine ⟨⟨?_, Or.inl rfl⟩, rfl⟩
    simp only [bigNode, shownSpace, core, coreSpace, naturalSpace, noSpace, h0, side]
  | some sd =>
    cases sd <;> cases h
    case some.left.refl =>
      exact ⟨⟨(shown_plain (pads ..)).trans (zero _ _ _ _ _ rfl), Or.inl rfl⟩, pads ..⟩
    case some.right.refl =>
      exact ⟨⟨(shown_plain (pads ..)).trans (zero _ _ _ _ _ rfl), Or.inr ⟨rfl, rfl⟩⟩, pads ..⟩
    case some.middle.refl =>
      refine ⟨⟨?_, Or.inl rfl⟩, rfl⟩
      have key : ∀ f : Bool, (((relationSpacing st p nx f).1.map muWidth).getD 5,
          ((relationSpacing st p nx f).2.map muWidth).getD 5) = side st .rel p nx := by
        intro f
        cases f
        · rfl
        · exact (force_side st p nx).1
      exact key _

theorem alone_cases (t : Token) : (∃ c, t = .digit c) ∨ aloneAtom t = plainAtom t ∧
    ∀ st p nx, aloneNode st p nx t = atomNode st true p nx t := by
  cases t
  case digit c => exact Or.inl ⟨c, rfl⟩
  all_goals exact Or.inr ⟨rfl, fun _ _ _ => rfl⟩

theorem alone_node {t : Token} {a : Atom} (h : aloneAtom t = some a) (st : Style) (p nx : Class) :
    shownSpace a (aloneNode st p nx t).2 = side st a p nx ∧
    Like (aloneNode st p nx t).1 (classAfter st a p nx) := by
  rcases alone_cases t with ⟨c, rfl⟩ | ⟨e1, e2⟩
  · cases h; exact ⟨rfl, Or.inl rfl⟩
  · rw [e2]
    exact plain_node (e1.symm.trans h) st p nx

theorem alone_shown {t : Token} {a : Atom} (h : aloneAtom t = some a) (st : Style) (p nx : Class) :
    shownSpace a (aloneNode st p nx t).2 = coreSpace a (core (aloneNode st p nx t).2) := by
  refine shown_plain ?_
  cases hi : inked t with
  | false =>
    rcases alone_cases t with ⟨c, rfl⟩ | ⟨e1, e2⟩
    · rfl
    · obtain ⟨_, _, _, _, _, e⟩ := plain_operator (e1.symm.trans h) hi st true p nx
      rw [e2, e]
      rfl
  | true => exact (inert_alone hi).3

theorem base_shows {b : Base} {a : Atom} (h : b.atomType = some a) {br : Bool} {aft : List Tk} (ho : b.ok br aft = true)
    {l l' : Loc} {p nx : Class} {r : Class × Node} (hk : l.stacked = false) (hd : b.denote l p nx = .ok (r, l')) :
    l'.style = l.style ∧ ShowsSpace l.style a p (b.sees nx) r ∧ (b.takesScripts = true → plainPads r.2 = true) := by
  cases b with
  | atom t =>
    unfold Base.denote at hd
    rw [seen_calm hk] at hd
    cases hd
    obtain ⟨h1, h2⟩ := plain_node h l.style p nx
    refine ⟨rfl, ⟨h1, h2⟩, fun _ => ?_⟩
    have ha : plainAtom t.unwrapMath = some a := h
    cases hi : inked t.unwrapMath with
    | false =>
      obtain ⟨_, _, _, _, _, e⟩ := plain_operator ha hi l.style true p nx
      rw [e]; rfl
    | true =>
      generalize t.unwrapMath = u at hi ha
      unfold inked at hi
      cases u <;> first | (cases hi; done) | rfl
  | number d more =>
    cases hd; cases h
    exact ⟨rfl, shows_ord (Or.inl rfl) rfl rfl, fun _ => rfl⟩
  | sqrt x =>
    unfold Base.denote at hd
    obtain ⟨y, h1, hd⟩ := bind_ok hd
    cases hd; cases h
    exact ⟨(arg_kept _ h1).1, shows_ord (Or.inl rfl) rfl rfl, fun _ => rfl⟩
  | root x y =>
    unfold Base.denote at hd
    obtain ⟨z, h1, hd⟩ := bind_ok hd
    obtain ⟨w, h2, hd⟩ := bind_ok hd
    cases hd; cases h
    have := arg_kept _ (l' := w.2) (n := w.1) h2
    exact ⟨this.1, shows_ord (Or.inl rfl) rfl rfl, fun _ => rfl⟩
  | group f =>
    replace h : (if f.heavy then some Atom.ord else none) = some a := h
    split at h
    · rename_i hh
      cases h
      have := heavy_base (.group f) hh ho hd
      unfold Base.denote at hd
      obtain ⟨y, h1, hd⟩ := bind_ok hd
      cases hd
      exact ⟨rfl, shows_ord (Or.inl rfl) this.3 this.1, fun _ => this.3⟩
    · cases h
  | frac attr isBinom num den =>
    replace h : (if isBinom || num.heavy then some Atom.ord else none) = some a := h
    split at h
    · rename_i hh
      cases h
      have := heavy_base (.frac attr isBinom num den) hh ho hd
      unfold Base.denote at hd
      obtain ⟨y, h1, hd⟩ := bind_ok hd
      obtain ⟨z, h2, hd⟩ := bind_ok hd
      cases hd
      exact ⟨rfl, shows_ord (Or.inl rfl) this.3 this.1, fun _ => this.3⟩
    · cases h
  | genfrac x num den =>
    have := heavy_base (.genfrac x num den) rfl ho hd
    have hs := (base_kept (.genfrac x num den) hd).1
    unfold Base.denote at hd
    obtain ⟨_, _, hd⟩ := bind_ok hd
    obtain ⟨_, _, hd⟩ := bind_ok hd
    obtain ⟨_, _, hd⟩ := bind_ok hd
    obtain ⟨_, _, hd⟩ := bind_ok hd
    obtain ⟨y, h1, hd⟩ := bind_ok hd
    obtain ⟨z, h2, hd⟩ := bind_ok hd
    cases hd; cases h
    exact ⟨hs, shows_ord (Or.inl rfl) this.3 this.1, fun _ => this.3⟩
  | stackTok isOver symbol t =>
    unfold Base.denote at hd
    obtain ⟨x, h1, hd⟩ := bind_ok hd
    cases hd
    obtain ⟨g1, g2⟩ := alone_node h l.style p (if nx = .ending then .default else nx)
    have hse : (Base.stackTok isOver symbol t).sees nx = if nx = .ending then .default else nx := by cases nx <;> rfl
    rw [hse]
    refine ⟨rfl, ⟨?_, g2⟩, fun _ => by cases isOver <;> rfl⟩
    rw [← g1]
    cases isOver
    · exact (alone_shown h _ _ _).symm
    · exact (alone_shown h _ _ _).symm
  | stackGroup isOver symbol f =>
    replace h : (if f.heavy then some Atom.ord else none) = some a := h
    split at h
    · rename_i hh
      cases h
      have := heavy_base (.stackGroup isOver symbol f) hh ho hd
      unfold Base.denote at hd
      obtain ⟨y, h1, hd⟩ := bind_ok hd
      obtain ⟨z, h2, hd⟩ := bind_ok hd
      cases hd
      exact ⟨rfl, shows_ord (Or.inl rfl) this.3 this.1, fun _ => this.3⟩
    · cases h
  | arrow rel over =>
    unfold Base.denote at hd
    obtain ⟨y, h1, hd⟩ := bind_ok hd
    cases hd; cases h
    exact ⟨rfl, ⟨rfl, Or.inl rfl⟩, fun _ => rfl⟩
  | arrowUnder rel under over =>
    unfold Base.denote at hd
    obtain ⟨y, h1, hd⟩ := bind_ok hd
    obtain ⟨z, h2, hd⟩ := bind_ok hd
    cases hd; cases h
    exact ⟨rfl, ⟨rfl, Or.inl rfl⟩, fun _ => rfl⟩
  | cramped st f =>
    replace h : (if f.heavy then some Atom.ord else none) = some a := h
    split at h
    · rename_i hh
      cases h
      have := heavy_base (.cramped st f) hh ho hd
      unfold Base.denote at hd
      obtain ⟨y, h1, hd⟩ := bind_ok hd
      cases hd
      exact ⟨rfl, shows_ord (Or.inl rfl) this.3 this.1, fun _ => this.3⟩
    · cases h
  | deco d x =>
    replace h : (if x.heavy then some Atom.ord else none) = some a := h
    split at h
    · rename_i hh
      cases h
      have := heavy_base (.deco d x) hh ho hd
      unfold Base.denote at hd
      obtain ⟨y, h1, hd⟩ := bind_ok hd
      cases hd
      exact ⟨(arg_kept _ h1).1, shows_ord (Or.inl rfl) this.3 this.1, fun _ => this.3⟩
    · cases h
  | leaf x =>
    unfold Base.denote at hd
    obtain ⟨y, h1, hd⟩ := bind_ok hd
    cases hd
    cases x with
    | big size sd t =>
      unfold Leaf.denote at h1
      obtain ⟨d, -, h1⟩ := bind_ok h1
      cases h1
      obtain ⟨g1, g2⟩ := bigNode_shows size sd l.style p nx d h
      exact ⟨rfl, g1, fun _ => g2⟩
    | textBox style text =>
      cases h; cases h1
      refine ⟨rfl, ?_, fun _ => ?_⟩
      · split <;> exact shows_ord (Or.inr ⟨rfl, rfl⟩) rfl rfl
      · split <;> rfl
    | font tf text =>
      cases h; cases h1
      have := inert_word tf ((fontWord tf text).getD [])
      exact ⟨rfl, shows_ord (Or.inr ⟨rfl, rfl⟩) this.3 this.1, fun _ => this.3⟩
    | fontTok tf t =>
      cases h; cases h1
      have := inert_word tf ((fontChar tf t).toList)
      exact ⟨rfl, shows_ord (Or.inr ⟨rfl, rfl⟩) this.3 this.1, fun _ => this.3⟩
    | _ => cases h
  | overlay o b =>
    cases b with
    | atom t =>
      unfold Base.denote at hd
      obtain ⟨x, h1, hd⟩ := bind_ok hd
      obtain ⟨y, h2, hd⟩ := bind_ok hd
      unfold Base.denote at h1
      rw [seen_calm hk] at h1
      cases h1
      cases hd
      obtain ⟨g1, g2⟩ := plain_node h l.style p nx
      have ha : plainAtom t.unwrapMath = some a := h
      have key : plainPads y = true ∧ core y = none ∧ core (atomNode l.style true p nx t.unwrapMath).2 = none ∧
          plainPads (atomNode l.style true p nx t.unwrapMath).2 = true ∨
          shownSpace a y = shownSpace a (atomNode l.style true p nx t.unwrapMath).2 ∧ plainPads y = true := by
        cases hi : inked t.unwrapMath with
        | false =>
          obtain ⟨_, _, _, _, _, e⟩ := plain_operator ha hi l.style true p nx
          rw [e] at h2 ⊢
          cases h2
          exact Or.inr ⟨rfl, rfl⟩
        | true =>
          generalize t.unwrapMath = u at hi ha h2
          unfold inked at hi
          cases u <;> first
            | (cases hi; done)
            | (cases h2; exact Or.inl ⟨rfl, rfl, rfl, rfl⟩)
            | cases h2
      rcases key with ⟨k1, k2, k3, k4⟩ | ⟨k1, k2⟩
      · refine ⟨rfl, ⟨?_, g2⟩, fun _ => k1⟩
        show _ = side l.style a p nx
        rw [← g1, shown_plain k1, shown_plain k4, k2, k3]
      · exact ⟨rfl, ⟨k1.trans g1, g2⟩, fun _ => k2⟩
    | _ => cases h
  | mathClass kind b =>
    replace h : (if kind ≠ .bin && b.single && (b.heavy || (b.symbol.any fun t => (plainAtom t).isSome)) then
      some (givenAtom kind) else none) = some a := h
    split at h
    · rename_i hh
      simp only [Bool.and_eq_true, Bool.or_eq_true, decide_eq_true_eq] at hh
      obtain ⟨⟨hkind, hs⟩, hh⟩ := hh
      cases h
      unfold Base.ok at ho
      unfold Base.denote at hd
      obtain ⟨x, h1, hd⟩ := bind_ok hd
      cases hd
      have hst : x.2.style = l.style := by
        cases b with
        | atom t => cases h1; rfl
        | group f =>
          unfold Base.denote at h1
          obtain ⟨y, h2, h1⟩ := bind_ok h1
          cases h1
          rfl
        | _ => cases hs
      obtain ⟨c1, c2, c3⟩ := classSpacing_side hkind l.style p nx
      dsimp only at hst ⊢
      rw [hst]
      cases hv : b.heavy with
      | true =>
        have hi := heavy_base b hv ho h1
        rw [inert_class _ _ hi]
        refine ⟨rfl, ⟨?_, c3⟩, fun ht => ?_⟩
        · show _ = side l.style (givenAtom kind) p nx
          rw [← c1]
          show (_ + (coreSpace _ (core x.1.2)).1, _ + (coreSpace _ (core x.1.2)).2) = _
          rw [hi.1]
          rfl
        · replace ht : (!b.heavy) = true := ht
          rw [hv] at ht
          cases ht
      | false =>
        have : ∃ op attrs size l r, x.1.2 = .operator op attrs size l r := by
          rcases hh with hh | hh
          · rw [hv] at hh; cases hh
          · unfold Base.symbol at hh
            split at hh
            · rename_i t
              obtain ⟨a, ha⟩ := Option.isSome_iff_exists.1 hh
              cases h1
              exact plain_operator ha hv _ _ _ _
            · rename_i t
              obtain ⟨a, ha⟩ := Option.isSome_iff_exists.1 hh
              unfold Base.denote at h1
              obtain ⟨y, h2, h1⟩ := bind_ok h1
              rw [atom_denote (rest := .nil) hk rfl rfl] at h2
              cases h2
              cases h1
              simp only [Base.heavy, Form.heavy, Bool.or_false] at hv
              exact plain_operator ha hv _ _ _ _
            · cases hh
        obtain ⟨op, attrs, size, l1, r1, e⟩ := this
        rw [e]
        exact ⟨rfl, ⟨c2, c3⟩, fun _ => rfl⟩
    · cases h
  | brace _ _ _ => cases h
  | braceLabel _ _ _ _ => cases h
  | prescript _ _ _ => cases h
  | fence _ _ _ => cases h
  | env _ _ _ _ => cases h

/-- One more part in front -/
theorem shown_cons {a : Atom} {as : List Atom} {n : Node} {ns : List Node} {st : Style} {p p' nx c : Class}
    (hp : Like p p') (hf : foresees a nx as.head? = true) (hs : shownSpace a n = side st a p nx)
    (hc : Like c (classAfter st a p nx))
    (ih : ∀ ⦃p'⦄, Like c p' → as.length = ns.length ∧ List.zipWith shownSpace as ns = sides st p' as) :
    (a :: as).length = (n :: ns).length ∧ List.zipWith shownSpace (a :: as) (n :: ns) = sides st p' (a :: as) := by
  obtain ⟨f1, f2⟩ := foresees_side (st := st) (p := p) hf
  rw [← leadAtom_eq] at f1 f2
  obtain ⟨s1, s2⟩ := side_like (st := st) (a := a) (nx := leadAtom as) hp
  rw [f2, s2] at hc
  obtain ⟨g1, g2⟩ := ih hc
  refine ⟨by simp only [List.length_cons, g1], ?_⟩
  rw [List.zipWith_cons_cons, hs, g2, f1, s1]
  rfl

/-- The spaces which are shown around the parts of a formula -/
theorem types_shown : (f : Form) → {br : Bool} → f.ok br = true → ∀ ⦃as : List Atom⦄, f.types = some as →
    ∀ ⦃l l' : Loc⦄ ⦃p p' : Class⦄ ⦃ns : List Node⦄, l.stacked = false → Like p p' → f.denote l p .ending = .ok (ns, l') →
    as.length = ns.length ∧ List.zipWith shownSpace as ns = sides l.style p' as
  | .nil => by
    intro ho as ht l l' p p' ns hk hp hd
    cases ht; cases hd
    exact ⟨rfl, rfl⟩
  | .item b s rest => by
    intro ho as ht l l' p p' ns hk hp hd
    unfold Form.ok at ho
    simp only [Bool.and_eq_true] at ho
    unfold Form.types at ht
    cases hb : b.atomType with
    | none => rw [hb] at ht; cases ht
    | some a =>
      cases hr : rest.types with
      | none => rw [hb, hr] at ht; cases ht
      | some as' =>
        rw [hb, hr] at ht
        dsimp only at ht
        split at ht
        · rename_i hf
          rw [Bool.and_eq_true] at hf
          cases ht
          unfold Form.denote at hd
          obtain ⟨r, h1, hd⟩ := bind_ok hd
          obtain ⟨rs, h2, hd⟩ := bind_ok hd
          obtain ⟨rr, h3, hd⟩ := bind_ok hd
          cases hd
          obtain ⟨g1, g2, g3⟩ := base_shows hb ho.1.1 (r := r.1) (l' := r.2) hk h1
          have g6 := (base_kept b (r := r.1) (l' := r.2) h1).2
          have g5 := scripts_kept s (b' := rs.1) (l' := rs.2) h2
          have g4 := g5.1
          rw [g1] at g4
          refine shown_cons hp hf.1 ?_ g2.class_ fun p' hp' => ?_
          · rcases Bool.or_eq_true _ _ ▸ hf.2 with ht | ht
            · rw [shown_scripts (g3 ht)]
              exact g2.space
            · cases s with
              | nil => cases h2; rw [withScripts_nil]; exact g2.space
              | _ => simp [Scripts.tokens] at ht
          · have := types_shown rest ho.2 hr (g5.2.trans (g6.trans hk)) hp' (l' := rr.2) (ns := rr.1) h3
            rw [g4] at this
            exact this
        · cases ht
  | .bigOp o s rest => by
    intro ho as ht l l' p p' ns hk hp hd
    unfold Form.ok at ho
    simp only [Bool.and_eq_true] at ho
    unfold Form.types at ht
    cases hr : rest.types with
    | none => rw [hr] at ht; cases ht
    | some as' =>
      rw [hr] at ht
      dsimp only at ht
      cases hf : foresees .op (lead (if o.op.cat = .C then s.tokens ++ rest.tokens else rest.tokens) .ending) as'.head? with
      | false => rw [hf] at ht; cases ht
      | true =>
        rw [hf] at ht
        cases ht
        unfold Form.denote at hd
        split at hd
        · rename_i hcat
          rw [if_pos hcat] at hf
          obtain ⟨rs, h2, hd⟩ := bind_ok hd
          obtain ⟨rr, h3, hd⟩ := bind_ok hd
          cases hd
          have g5 := scripts_kept s (b' := rs.1) (l' := rs.2) h2
          have g4 := g5.1
          refine shown_cons hp hf ?_ (Or.inl rfl) fun p' hp' => ?_
          · rw [shown_scripts rfl]
            rfl
          · have := types_shown rest ho.2 hr (g5.2.trans hk) hp' (l' := rr.2) (ns := rr.1) h3
            rw [g4] at this
            exact this
        · rename_i hcat
          rw [if_neg hcat] at hf
          obtain ⟨rs, h2, hd⟩ := bind_ok hd
          obtain ⟨rr, h3, hd⟩ := bind_ok hd
          cases hd
          have g5 := scripts_kept s (b' := rs.1) (l' := rs.2) h2
          have g4 := g5.1
          refine shown_cons hp hf ?_ (Or.inl rfl) fun p' hp' => ?_
          · rw [shown_opNode rfl, g4]
            rfl
          · have := types_shown rest ho.2 hr (g5.2.trans hk) hp' (l' := rr.2) (ns := rr.1) h3
            rw [g4] at this
            exact this
  | .func x lim s rest => by
    intro ho as ht l l' p p' ns hk hp hd
    unfold Form.ok at ho
    simp only [Bool.and_eq_true] at ho
    unfold Form.types at ht
    cases hr : rest.types with
    | none => rw [hr] at ht; cases ht
    | some as' =>
      rw [hr] at ht
      dsimp only at ht
      split at ht
      · rename_i hf
        cases ht
        unfold Form.denote at hd
        obtain ⟨rs, h2, hd⟩ := bind_ok hd
        obtain ⟨rr, h3, hd⟩ := bind_ok hd
        cases hd
        have g5 := scripts_kept s (b' := rs.1) (l' := rs.2) h2
        have g4 := g5.1
        refine shown_cons hp hf ?_ (Or.inl rfl) fun p' hp' => ?_
        · rw [shown_opNode rfl, g4]
          exact (force_side l.style p _).2.2.2.2.1
        · have := types_shown rest ho.2 hr (g5.2.trans hk) hp' (l' := rr.2) (ns := rr.1) h3
          rw [g4] at this
          exact this
      · cases ht
  | .call _ _ _ cont => by
    intro ho as ht l l' p p' ns hk hp hd
    unfold Form.ok at ho
    simp only [Bool.and_eq_true] at ho
    unfold Form.denote at hd
    obtain ⟨l1, h1, hd⟩ := bind_ok hd
    have hs := expandOne_kept h1
    have := types_shown cont ho.2 ht (hs.2.trans hk) hp hd
    rw [hs.1] at this
    exact this
  | .amp _ => by intro ho as ht; cases ht
  | .newLine _ _ => by intro ho as ht; cases ht
  | .noNumber _ => by intro ho as ht; cases ht
  | .tag _ _ _ => by intro ho as ht; cases ht
  | .label _ _ => by intro ho as ht; cases ht
  | .style _ _ => by intro ho as ht; cases ht
  | .color _ _ => by intro ho as ht; cases ht
  | .emptyCall _ _ _ _ => by intro ho as ht; cases ht

/-! ### The theorems -/

/-- The spaces of the converter in a formula whose parts have types, wherever it stands -/
theorem types_gaps {f : Form} {br : Bool} (ho : f.ok br = true) {as : List Atom} (ht : f.types = some as) {l l' : Loc}
    (hk : l.stacked = false) {ns : List Node} (hd : f.denote l .opening .ending = .ok (ns, l')) :
    ShownWith as ns (shownGaps l.style none as) := by
  obtain ⟨h2, h3⟩ := types_shown f ho ht hk (Or.inl rfl) hd
  refine ⟨h2, ?_, ?_, ?_⟩
  · rw [h3]
    cases as with
    | nil => intro p hp; cases hp
    | cons a as =>
      intro p hp
      unfold sides at hp
      cases hp
      rw [leadAtom_eq]
      exact (end_table l.style (mem_allStyles _) a (mem_allAtoms _) as.head? (mem_allNeighbours _)).1
  · rw [h3]
    exact sides_last l.style _ none
  · rw [h3]
    exact gaps_sides l.style _ none

/-- C37 for formulas with scripts, groups, fractions, roots, accents, fonts, text, `\mathrel` and so on: wherever the
converter sees the class of the next atom, the space between any two parts is the one of TeX's table for their final
types, and there is none at the ends, unless there are neighbours as described at `differs`. -/
theorem C37_formula_partial {c c2 : Converter} {f : Form} (hf : f.ok false = true) {src : Str}
    (hl : f.linked (knownMacros c.parserCfg.toParserConfig c.state))
    (hs : Spells c.parserCfg.toParserConfig c.state src f.tokens) {display : MathDisplay} {out : Out}
    (h : Gives c (.withGlobalState src display) (.one (.ok out)) c2) {as : List Atom} (ht : f.types = some as)
    (hr : regular display.style none as = true) :
    ∃ ns, out = emitDocument (c.emitterCfg.withLabels c2.state.labelMap) ns src display ∧
      ShownWith as ns (texSpaces display.style (finalAtoms none as)) := by
  obtain ⟨ns, l, hv, ho, -⟩ := formula_gives hf hl hs h
  refine ⟨ns, ho, ?_⟩
  rw [← regular_gaps _ _ _ hr]
  exact types_gaps hf ht rfl hv

/-- C37, the same in any other style, where the source begins with `\displaystyle`, `\scriptstyle` and so on. -/
theorem C37_formula_in_style_partial {c c2 : Converter} {f : Form} (hf : f.ok false = true) {src : Str} (st : Style)
    (hl : f.linked (knownMacros c.parserCfg.toParserConfig c.state))
    (hs : Spells c.parserCfg.toParserConfig c.state src (⟨.style st, false⟩ :: f.tokens)) {display : MathDisplay}
    {out : Out} (h : Gives c (.withGlobalState src display) (.one (.ok out)) c2) {as : List Atom}
    (ht : f.types = some as) (hr : regular st none as = true) :
    ∃ ns, out = emitDocument (c.emitterCfg.withLabels c2.state.labelMap) [.row ns { style := some st }] src display ∧
      ShownWith as ns (texSpaces st (finalAtoms none as)) := by
  obtain ⟨ns, l, hv, ho, -⟩ := formula_gives (f := .style st f) (by unfold Form.ok; rw [hf]; rfl) hl hs h
  unfold Form.value Form.denote at hv
  obtain ⟨r, h1, hv⟩ := bind_ok hv
  cases hv
  refine ⟨r.1, ho, ?_⟩
  rw [← regular_gaps _ _ _ hr]
  exact types_gaps (l := { (⟨display.style, {}, c.state.equationCount, c.state.labelMap, c.parserCfg.maxExpansions, false⟩ : Loc)
    with style := st }) hf ht rfl h1

/-- C37, the same anywhere in a formula: in a group, an argument, a script. -/
theorem C37_formula_anywhere_partial {f : Form} {br : Bool} (hf : f.ok br = true) {as : List Atom}
    (ht : f.types = some as) {l l' : Loc} (hk : l.stacked = false) (hr : regular l.style none as = true) {ns : List Node}
    (hd : f.denote l .opening .ending = .ok (ns, l')) :
    ShownWith as ns (texSpaces l.style (finalAtoms none as)) := by
  rw [← regular_gaps _ _ _ hr]
  exact types_gaps hf ht hk hd

/-! ### Examples -/

/-- `x^2+\frac{a}{b}=\sum_{i=1}^n a_i` -/
def spacedFormula : Form :=
  .item (.atom (ch 'x')) (.sup (.tok (.digit '2')) .nil) <|
  .item (.atom (ch '+')) .nil <|
  .item (.frac none false (.braces (.item (.atom (ch 'a')) .nil .nil)) (.braces (.item (.atom (ch 'b')) .nil .nil))) .nil <|
  .item (.atom (ch '=')) .nil <|
  .bigOp Sym.N_ARY_SUMMATION
    (.sub (.braces (.item (.atom (ch 'i')) .nil (.item (.atom (ch '=')) .nil (.item (.number '1' []) .nil .nil))))
      (.sup (.tok (ch 'n')) .nil)) <|
  .item (.atom (ch 'a')) (.sub (.tok (ch 'i')) .nil) .nil

example : isSource exampleConfig c!"x^2+\\frac{a}{b}=\\sum_{i=1}^n a_i" spacedFormula = true := by decide +kernel
example : spacedFormula.types = some [.ord, .bin, .ord, .rel, .op, .ord] ∧
    regular .display none [.ord, .bin, .ord, .rel, .op, .ord] = true ∧
    texSpaces .display (finalAtoms none [.ord, .bin, .ord, .rel, .op, .ord]) = [4, 4, 5, 5, 3] := by
  refine ⟨rfl, ?_⟩
  decide +kernel

/-- `\bigl(\hat a\mathrel{xy}\sqrt2\bigr)-{b}` -/
def spacedFormula2 : Form :=
  .item (.leaf (.big .scale1 (some .left) (ch '('))) .nil <|
  .item (.deco (.accent Sym.MODIFIER_LETTER_CIRCUMFLEX_ACCENT true .stretchyFalse) (.tok (ch 'a'))) .nil <|
  .item (.mathClass .rel (.group (.item (.atom (ch 'x')) .nil (.item (.atom (ch 'y')) .nil .nil)))) .nil <|
  .item (.sqrt (.tok (.digit '2'))) .nil <|
  .item (.leaf (.big .scale1 (some .right) (ch ')'))) .nil <|
  .item (.atom (ch '-')) .nil <|
  .item (.group (.item (.atom (ch 'b')) .nil .nil)) .nil .nil

example : isSource exampleConfig c!"\\bigl(\\hat a\\mathrel{xy}\\sqrt2\\bigr)-{b}" spacedFormula2 = true := by
  decide +kernel
example : spacedFormula2.types = some [.opening, .ord, .rel, .ord, .closing, .bin, .ord] ∧
    regular .text none [.opening, .ord, .rel, .ord, .closing, .bin, .ord] = true ∧
    texSpaces .text (finalAtoms none [.opening, .ord, .rel, .ord, .closing, .bin, .ord]) = [0, 5, 5, 0, 4, 4] := by
  refine ⟨rfl, ?_⟩
  decide +kernel

/-- `a\overset{!}=-b\xrightarrow f\genfrac{[}{]}{0pt}{}{n}{k}` -/
def spacedFormula3 : Form :=
  .item (.atom (ch 'a')) .nil <|
  .item (.stackTok true (.braces (.item (.atom (ch '!')) .nil .nil)) (ch '=')) .nil <|
  .item (.atom (ch '-')) .nil <|
  .item (.atom (ch 'b')) .nil <|
  .item (.arrow Sym.RIGHTWARDS_ARROW (.tok (ch 'f'))) .nil <|
  .item (.genfrac ⟨some (ch '['), some (ch ']'), [ch '0', ch 'p', ch 't'], none⟩
      (.braces (.item (.atom (ch 'n')) .nil .nil)) (.braces (.item (.atom (ch 'k')) .nil .nil))) .nil .nil

example : isSource exampleConfig c!"a\\overset{!}=-b\\xrightarrow f\\genfrac{[}{]}{0pt}{}{n}{k}" spacedFormula3 = true := by
  decide +kernel
example : spacedFormula3.types = some [.ord, .rel, .bin, .ord, .rel, .ord] ∧
    regular .text none [.ord, .rel, .bin, .ord, .rel, .ord] = true ∧
    texSpaces .text (finalAtoms none [.ord, .rel, .bin, .ord, .rel, .ord]) = [5, 5, 0, 5, 5] := by
  refine ⟨rfl, ?_⟩
  decide +kernel

end Verif

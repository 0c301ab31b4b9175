import Verif.Lemmas.Linked
import Verif.Spec.Spacing
import Verif.Lemmas.Keeps
import Verif.Props.Scripts
/-! Property C37: the space between the atoms of a formula. -/
namespace Verif
open Model Spec

/-- The spaces on both sides, as they are chosen by the parser -/
def side (st : Style) (a : Atom) (p nx : Class) : Nat × Nat :=
  let shown (sp : Option MathSpacing × Option MathSpacing) : Nat × Nat :=
    ((sp.1.map muWidth).getD (naturalSpace a).1, (sp.2.map muWidth).getD (naturalSpace a).2)
  match a with
  | .ord | .opening | .closing => (0, 0)
  | .bin => shown (binOpSpacing st true p nx false, binOpSpacing st true p nx false)
  | .rel => shown (relationSpacing st p nx false)
  | .punct => shown (punctuationSpacing st nx false)
  | .inner => shown (mathinnerSpacing st p nx false)
  | .op => shown (opSpacing st p nx false)

/-- The class which the parser assigns to what has been read -/
def classAfter (st : Style) (a : Atom) (p nx : Class) : Class :=
  match a with
  | .closing => .default
  | .bin => if binOpSpacing st true p nx false = some .zero then .default else .binaryOp
  | a => atomClass a

/-- The class of the first one -/
def leadAtom : List Atom → Class
  | [] => .ending
  | a :: _ => atomClass a

/-- The spaces on both sides of several atoms -/
def sides (st : Style) (p : Class) : List Atom → List (Nat × Nat)
  | [] => []
  | a :: as => side st a p (leadAtom as) :: sides st (classAfter st a p (leadAtom as)) as

/-- Something closed is like something ordinary, on the left. -/
def Like (p p' : Class) : Prop := p = p' ∨ (p = .closing ∧ p' = .default)

theorem side_like {st : Style} {a : Atom} {p p' nx : Class} (h : Like p p') :
    side st a p nx = side st a p' nx ∧ classAfter st a p nx = classAfter st a p' nx := by
  rcases h with rfl | ⟨rfl, rfl⟩
  · exact ⟨rfl, rfl⟩
  · cases st <;> cases a <;> cases nx <;> decide

theorem plain_some {t : Token} {a : Atom} (h : plainAtom t = some a) : isAtom t = true ∧ t.classU = some (atomClass a) := by
  unfold plainAtom at h
  cases t <;> simp only [Option.some.injEq, reduceCtorEq] at h <;> subst h <;> exact ⟨rfl, rfl⟩

theorem ordNode_side (o : OrdLike) : shownSpace .ord (ordNode none o) = (0, 0) := by
  have : ∀ (op : MathMLOperator) (attrs : OpAttrs) (b : Prop) [Decidable b],
      shownSpace .ord (.operator op attrs none (if b then some .zero else none) (if b then some .zero else none)) = (0, 0) := by
    intro op attrs b _
    split <;> rfl
  exact this _ _ _

/-- The forced spaces are those which are natural. -/
theorem force_side (st : Style) (p nx : Class) :
    ((((relationSpacing st p nx true).1.map muWidth).getD 5, ((relationSpacing st p nx true).2.map muWidth).getD 5) =
      side st .rel p nx) ∧
    ((((punctuationSpacing st nx true).1.map muWidth).getD 0, ((punctuationSpacing st nx true).2.map muWidth).getD 3) =
      side st .punct p nx) ∧
    ((((mathinnerSpacing st p nx true).1.map muWidth).getD 3, ((mathinnerSpacing st p nx true).2.map muWidth).getD 3) =
      side st .inner p nx) ∧
    ((((binOpSpacing st true p nx true).map muWidth).getD 4, ((binOpSpacing st true p nx true).map muWidth).getD 4) =
      side st .bin p nx) ∧
    ((((opSpacing st p nx true).1.map muWidth).getD 3, ((opSpacing st p nx true).2.map muWidth).getD 3) =
      side st .op p nx) ∧
    ((binOpSpacing st true p nx true = some .zero) = (binOpSpacing st true p nx false = some .zero)) := by
  revert st p nx
  have : ∀ (st : Style) (p nx : Class),
      ((((relationSpacing st p nx true).1.map muWidth).getD 5, ((relationSpacing st p nx true).2.map muWidth).getD 5) =
        side st .rel p nx) ∧
      ((((punctuationSpacing st nx true).1.map muWidth).getD 0, ((punctuationSpacing st nx true).2.map muWidth).getD 3) =
        side st .punct p nx) ∧
      ((((mathinnerSpacing st p nx true).1.map muWidth).getD 3, ((mathinnerSpacing st p nx true).2.map muWidth).getD 3) =
        side st .inner p nx) ∧
      ((((binOpSpacing st true p nx true).map muWidth).getD 4, ((binOpSpacing st true p nx true).map muWidth).getD 4) =
        side st .bin p nx) ∧
      ((((opSpacing st p nx true).1.map muWidth).getD 3, ((opSpacing st p nx true).2.map muWidth).getD 3) =
        side st .op p nx) ∧
      ((binOpSpacing st true p nx true = some .zero) ↔ (binOpSpacing st true p nx false = some .zero)) := by
    intro st p nx
    cases st <;> cases p <;> cases nx <;> decide
  intro st p nx
  obtain ⟨h1, h2, h3, h4, h5, h6⟩ := this st p nx
  exact ⟨h1, h2, h3, h4, h5, propext h6⟩

/-- The node and the class of a token which is an atom -/
theorem plain_node {t : Token} {a : Atom} (h : plainAtom t = some a) (st : Style) (p nx : Class) :
    shownSpace a (atomNode st true p nx t).2 = side st a p nx ∧
    Like (atomNode st true p nx t).1 (classAfter st a p nx) := by
  obtain ⟨f1, f2, f3, f4, f5, f6⟩ := force_side st p nx
  unfold plainAtom at h
  cases t <;> simp only [Option.some.injEq, reduceCtorEq] at h <;> subst h
  case ord o => exact ⟨ordNode_side o, Or.inl rfl⟩
  case forceRelation => exact ⟨f1, Or.inl rfl⟩
  case forcePunctuation => exact ⟨f2, Or.inl rfl⟩
  case forceMathInner => exact ⟨f3, Or.inl rfl⟩
  case forceBinaryOp =>
    refine ⟨f4, Or.inl ?_⟩
    unfold atomNode classAfter
    dsimp only
    simp only [f6]
  all_goals first
    | exact ⟨rfl, Or.inl rfl⟩
    | exact ⟨rfl, Or.inr ⟨rfl, rfl⟩⟩

theorem lead_formOf (ts : List Token) (h : separate ts = true) (nxt : Class) :
    lead (formOf ts).tokens nxt = match atomsOf ts with | [] => nxt | a :: _ => atomClass a := by
  cases ts with
  | nil => rfl
  | cons t ts =>
    unfold separate at h
    simp only [Bool.and_eq_true] at h
    obtain ⟨⟨h1, -⟩, -⟩ := h
    obtain ⟨a, ha⟩ := Option.isSome_iff_exists.1 h1
    unfold atomsOf
    rw [List.filterMap_cons, ha]
    dsimp only
    unfold formOf
    unfold atomOf at ha
    cases t
    case digit => cases ha; rfl
    case op => cases ha; rfl
    case pseudoOperator => cases ha; rfl
    case pseudoOperatorLimits => cases ha; rfl
    case' mathOrTextMode t' c => cases t'
    case mathOrTextMode.op => cases ha; rfl
    all_goals
      have hc := (plain_some ha).2
      simp only [Form.tokens, Base.tokens, List.cons_append, List.nil_append, lead, Token.cls, hc, Option.getD_some]

theorem ok_formOf (ts : List Token) (h : separate ts = true) : (formOf ts).ok false = true := by
  induction ts with
  | nil => rfl
  | cons t ts ih =>
    unfold separate at h
    simp only [Bool.and_eq_true] at h
    obtain ⟨⟨h1, h2⟩, h3⟩ := h
    obtain ⟨a, ha⟩ := Option.isSome_iff_exists.1 h1
    have hr := ih h3
    unfold formOf
    unfold atomOf at ha
    cases t
    case digit d =>
      simp only [Form.ok, Base.ok, Scripts.ok, Scripts.tokens, List.nil_append, hr, Bool.and_true]
      cases ts with
      | nil => rfl
      | cons t' ts =>
        dsimp only at h2
        have : ∃ tks, (formOf (t' :: ts)).tokens = ⟨t', false⟩ :: tks := by
          unfold formOf
          cases t'
          case mathOrTextMode t' c => cases t' <;> exact ⟨_, rfl⟩
          all_goals exact ⟨_, rfl⟩
        obtain ⟨tks, ht⟩ := this
        rw [ht]
        exact h2
    case op => simp [Form.ok, Scripts.ok, hr, BigOp.ok]
    case pseudoOperator => simp [Form.ok, Scripts.ok, hr, Func.ok]
    case pseudoOperatorLimits => simp [Form.ok, Scripts.ok, hr, Func.ok]
    case' mathOrTextMode t' c => cases t'
    case mathOrTextMode.op => simp [Form.ok, Scripts.ok, hr, BigOp.ok]
    all_goals
      simp only [Form.ok, Base.ok, Scripts.ok, hr, (plain_some ha).1, Bool.and_true, Bool.false_and, Bool.not_false]

/-- The tokens of the formula are the given ones. -/
theorem tokens_formOf (ts : List Token) : (formOf ts).tokens = ts.map fun t => ⟨t, false⟩ := by
  induction ts with
  | nil => rfl
  | cons t ts ih =>
    rw [List.map_cons, ← ih]
    cases t
    case' mathOrTextMode t' c => cases t'
    all_goals simp only [formOf, Form.tokens, BigOp.token, Base.tokens, Scripts.tokens, digitTokens, List.flatMap_nil, limitsTokens,
      Func.tokens, List.cons_append, List.nil_append, List.append_nil, if_true, if_false, Bool.false_eq_true]

theorem withScripts_nil (m : Node) : withScripts m {} = m := by
  unfold withScripts
  split <;> simp_all

theorem seen_calm {l : Loc} (h : l.stacked = false) (c : Class) : l.seen c = c := by
  unfold Loc.seen
  rw [h]
  rfl

theorem atom_denote {t : Token} {rest : Form} {l l' : Loc} (hk : l.stacked = false) {p nxt c : Class} {ns : List Node}
    (hl : lead rest.tokens nxt = c)
    (h : rest.denote l (atomNode l.style true p c t.unwrapMath).1 nxt = .ok (ns, l')) :
    (Form.item (.atom t) .nil rest).denote l p nxt = .ok ((atomNode l.style true p c t.unwrapMath).2 :: ns, l') := by
  simp only [Form.denote, Base.denote, Scripts.denote, Scripts.tokens, List.nil_append, bind, Except.bind, hl, h,
    withScripts_nil, seen_calm hk]

theorem denote_formOf (ts : List Token) (h : separate ts = true) : ∀ (l : Loc), l.stacked = false → ∀ (p p' : Class), Like p p' →
    ∃ ns, (formOf ts).denote l p .ending = .ok (ns, l) ∧ (atomsOf ts).length = ns.length ∧
      List.zipWith shownSpace (atomsOf ts) ns = sides l.style p' (atomsOf ts) := by
  induction ts with
  | nil => intro l _ p p' _; exact ⟨[], rfl, rfl, rfl⟩
  | cons t ts ih =>
    intro l hk p p' hp
    unfold separate at h
    simp only [Bool.and_eq_true] at h
    obtain ⟨⟨h1, h2⟩, h3⟩ := h
    obtain ⟨a, ha⟩ := Option.isSome_iff_exists.1 h1
    have hl : lead (formOf ts).tokens .ending = leadAtom (atomsOf ts) := by
      rw [lead_formOf ts h3]
      cases atomsOf ts <;> rfl
    have hat : atomsOf (t :: ts) = a :: atomsOf ts := by
      unfold atomsOf
      rw [List.filterMap_cons, ha]
    rw [hat]
    have key : ∀ (n : Node) (c : Class),
        (∀ ns, (formOf ts).denote l c .ending = .ok (ns, l) → (formOf (t :: ts)).denote l p .ending = .ok (n :: ns, l)) →
        shownSpace a n = side l.style a p (leadAtom (atomsOf ts)) →
        Like c (classAfter l.style a p (leadAtom (atomsOf ts))) →
        ∃ ns, (formOf (t :: ts)).denote l p .ending = .ok (ns, l) ∧ (a :: atomsOf ts).length = ns.length ∧
          List.zipWith shownSpace (a :: atomsOf ts) ns = sides l.style p' (a :: atomsOf ts) := by
      intro n c k1 k2 k3
      obtain ⟨s1, s2⟩ := side_like (st := l.style) (a := a) (nx := leadAtom (atomsOf ts)) hp
      rw [s2] at k3
      obtain ⟨ns, g1, g2, g3⟩ := ih h3 l hk c _ k3
      refine ⟨n :: ns, k1 ns g1, by simp only [List.length_cons, g2], ?_⟩
      rw [List.zipWith_cons_cons, k2, g3, s1]
      rfl
    unfold atomOf at ha
    obtain ⟨-, -, -, -, f5, -⟩ := force_side l.style p (leadAtom (atomsOf ts))
    cases t
    case digit d =>
      cases ha
      refine key (.number (d :: digitText [])) .default (fun ns hns => ?_) rfl (Or.inl rfl)
      simp only [formOf, Form.denote, Base.denote, Scripts.denote, Scripts.tokens, List.nil_append, bind, Except.bind, hns]
      rfl
    case op o =>
      cases ha
      refine key (.operator o.asOp .empty none (opSpacing l.style p (leadAtom (atomsOf ts)) false).1
        (opSpacing l.style p (leadAtom (atomsOf ts)) false).2) .operator (fun ns hns => ?_) rfl (Or.inl rfl)
      simp only [formOf, Form.denote, Scripts.denote, Scripts.tokens, List.nil_append, bind, Except.bind, hns, hl]
      split
      · rfl
      · unfold opNode
        split <;> rfl
    case pseudoOperator n =>
      cases ha
      refine key (.pseudoOp .empty (opSpacing l.style p (leadAtom (atomsOf ts)) true).1
        (opSpacing l.style p (leadAtom (atomsOf ts)) true).2 n) .operator (fun ns hns => ?_) f5 (Or.inl rfl)
      simp only [formOf, Form.denote, Scripts.denote, Scripts.tokens, List.nil_append, bind, Except.bind, hns, hl]
      rfl
    case pseudoOperatorLimits n =>
      cases ha
      refine key (.pseudoOp .empty (opSpacing l.style p (leadAtom (atomsOf ts)) true).1
        (opSpacing l.style p (leadAtom (atomsOf ts)) true).2 n) .operator (fun ns hns => ?_) f5 (Or.inl rfl)
      simp only [formOf, Form.denote, Scripts.denote, Scripts.tokens, List.nil_append, bind, Except.bind, hns, hl]
      rfl
    case' mathOrTextMode t' c => cases t'
    case mathOrTextMode.op o =>
      cases ha
      refine key (.operator o.asOp .empty none (opSpacing l.style p (leadAtom (atomsOf ts)) false).1
        (opSpacing l.style p (leadAtom (atomsOf ts)) false).2) .operator (fun ns hns => ?_) rfl (Or.inl rfl)
      simp only [formOf, Form.denote, Scripts.denote, Scripts.tokens, List.nil_append, bind, Except.bind, hns, hl]
      split
      · rfl
      · unfold opNode
        split <;> rfl
    all_goals
      obtain ⟨n1, n2⟩ := plain_node ha l.style p (leadAtom (atomsOf ts))
      refine key _ _ (fun ns hns => ?_) n1 n2
      exact atom_denote hk hl hns

/-! ### The spaces, and those of TeX -/

/-- The class on the left, after an atom whose final type is given -/
def leftClass (st : Style) : Option Atom → Class
  | none => .opening
  | some .closing => .default
  | some .bin => if small st then .default else .binaryOp
  | some a => atomClass a

/-- The space which is shown -/
def shownGap (st : Style) (a b b' : Atom) : Nat :=
  if differs st a b b' then
    if a = .bin then 3 else if b = .inner then 6 else 0
  else texSpace st a b'

/-- All types of atoms -/
def allAtoms : List Atom := [.ord, .op, .bin, .rel, .opening, .closing, .punct, .inner]
/-- A neighbour, or none -/
def allNeighbours : List (Option Atom) := none :: allAtoms.map some
/-- All styles -/
def allStyles : List Style := [.display, .text, .script, .scriptScript]

theorem mem_allAtoms (a : Atom) : a ∈ allAtoms := by cases a <;> decide
theorem mem_allNeighbours (a : Option Atom) : a ∈ allNeighbours := by
  cases a with
  | none => decide
  | some a => cases a <;> decide
theorem mem_allStyles (s : Style) : s ∈ allStyles := by cases s <;> decide

theorem class_step_table : ∀ st ∈ allStyles, ∀ prev ∈ allNeighbours, ∀ a ∈ allAtoms, ∀ next ∈ allNeighbours,
    classAfter st a (leftClass st prev) (rightClass next) = leftClass st (some (finalAtom prev a next)) := by
  decide +kernel

theorem gap_table : ∀ st ∈ allStyles, ∀ prev ∈ allNeighbours, ∀ a ∈ allAtoms, ∀ b ∈ allAtoms, ∀ next ∈ allNeighbours,
    (side st a (leftClass st prev) (rightClass (some b))).2 +
      (side st b (leftClass st (some (finalAtom prev a (some b)))) (rightClass next)).1 =
    shownGap st (finalAtom prev a (some b)) b (finalAtom (some (finalAtom prev a (some b))) b next) := by
  decide +kernel

theorem end_table : ∀ st ∈ allStyles, ∀ a ∈ allAtoms, ∀ n ∈ allNeighbours,
    (side st a (leftClass st none) (rightClass n)).1 = 0 ∧ (side st a (leftClass st n) (rightClass none)).2 = 0 := by
  decide +kernel

/-- The spaces which are shown between atoms -/
def shownGaps (st : Style) (prev : Option Atom) : List Atom → List Nat
  | a :: b :: rest =>
    let a' := finalAtom prev a (some b)
    shownGap st a' b (finalAtom (some a') b rest.head?) :: shownGaps st (some a') (b :: rest)
  | _ => []

theorem leadAtom_eq (as : List Atom) : leadAtom as = rightClass as.head? := by cases as <;> rfl

theorem gaps_sides (st : Style) (as : List Atom) : ∀ prev : Option Atom,
    gaps (sides st (leftClass st prev) as) = shownGaps st prev as := by
  induction as with
  | nil => intro _; rfl
  | cons a as ih =>
    intro prev
    cases as with
    | nil => rfl
    | cons b rest =>
      have h1 := class_step_table st (mem_allStyles _) prev (mem_allNeighbours _) a (mem_allAtoms _) (some b)
        (mem_allNeighbours _)
      have h2 := gap_table st (mem_allStyles _) prev (mem_allNeighbours _) a (mem_allAtoms _) b (mem_allAtoms _)
        rest.head? (mem_allNeighbours _)
      have h3 := ih (some (finalAtom prev a (some b)))
      unfold sides
      rw [leadAtom_eq]
      dsimp only [List.head?_cons]
      rw [h1]
      unfold sides at h3 ⊢
      rw [leadAtom_eq] at h3 ⊢
      unfold gaps shownGaps
      dsimp only
      rw [h2, h3]

theorem regular_gaps (st : Style) (as : List Atom) : ∀ prev : Option Atom, regular st prev as = true →
    shownGaps st prev as = texSpaces st (finalAtoms prev as) := by
  induction as with
  | nil => intro _ _; rfl
  | cons a as ih =>
    intro prev h
    unfold regular at h
    simp only [Bool.and_eq_true] at h
    have h3 := ih _ h.2
    cases as with
    | nil => rfl
    | cons b rest =>
      have h4 := h.2
      unfold regular at h4
      simp only [Bool.and_eq_true, Bool.not_eq_true'] at h4
      unfold shownGaps
      rw [show finalAtoms prev (a :: b :: rest) = finalAtom prev a (some b) ::
        finalAtoms (some (finalAtom prev a (some b))) (b :: rest) from rfl]
      dsimp only [List.head?_cons] at h3 h4
      dsimp only
      rw [h3]
      generalize hb : finalAtom (some (finalAtom prev a (some b))) b rest.head? = b' at h4
      have e : finalAtoms (some (finalAtom prev a (some b))) (b :: rest) = b' :: finalAtoms (some b') rest := by
        rw [← hb]; rfl
      rw [e]
      show _ = texSpace st _ b' :: texSpaces st (b' :: _)
      unfold shownGap
      rw [h4.1]
      simp only [Bool.false_eq_true, if_false]

theorem sides_last (st : Style) (as : List Atom) : ∀ prev : Option Atom,
    ∀ p ∈ (sides st (leftClass st prev) as).getLast?, p.2 = 0 := by
  induction as with
  | nil => intro prev p hp; cases hp
  | cons a as ih =>
    intro prev p hp
    unfold sides at hp
    rw [leadAtom_eq] at hp
    cases as with
    | nil =>
      cases hp
      exact (end_table st (mem_allStyles _) a (mem_allAtoms _) prev (mem_allNeighbours _)).2
    | cons b rest =>
      have h1 := class_step_table st (mem_allStyles _) prev (mem_allNeighbours _) a (mem_allAtoms _) (some b)
        (mem_allNeighbours _)
      dsimp only [List.head?_cons] at hp
      rw [h1] at hp
      refine ih (some (finalAtom prev a (some b))) p ?_
      unfold sides at hp ⊢
      rw [List.getLast?_cons_cons] at hp
      exact hp

/-- What is shown for atoms, with the spaces of the converter -/
theorem shown_spaces (ts : List Token) (h : separate ts = true) (l : Loc) (hk : l.stacked = false) :
    ∃ ns, (formOf ts).denote l .opening .ending = .ok (ns, l) ∧
      ShownWith (atomsOf ts) ns (shownGaps l.style none (atomsOf ts)) := by
  obtain ⟨ns, h1, h2, h3⟩ := denote_formOf ts h l hk .opening .opening (Or.inl rfl)
  refine ⟨ns, h1, h2, ?_, ?_, ?_⟩
  · rw [h3]
    cases atomsOf ts with
    | nil => intro p hp; cases hp
    | cons a as =>
      intro p hp
      unfold sides at hp
      cases hp
      rw [leadAtom_eq]
      exact (end_table l.style (mem_allStyles _) a (mem_allAtoms _) as.head? (mem_allNeighbours _)).1
  · rw [h3]
    exact sides_last l.style _ none
  · rw [h3]
    exact gaps_sides l.style _ none

/-! ### Sources -/

/-- The converter shows these nodes (and is the same afterwards). -/
def ShowsNodes (c : Converter) (src : Str) (display : MathDisplay) (ns : List Node) : Prop :=
  Gives c (.withGlobalState src display)
    (.one (.ok (emitSnippet c.emitterCfg c.state.labelMap src display ns))) c

theorem spelled_shown (c : Converter) {src : Str} (display : MathDisplay) {ts : List Token} (hts : separate ts = true)
    (hs : Spells c.parserCfg.toParserConfig c.state src (ts.map fun t => ⟨t, false⟩)) :
    ∃ ns, ShowsNodes c src display ns ∧
      ShownWith (atomsOf ts) ns (shownGaps display.style none (atomsOf ts)) := by
  rw [← tokens_formOf] at hs
  have hc := formula_converts c display (ok_formOf ts hts) (formOf_linked _ ts) hs
  obtain ⟨ns, h1, h2⟩ := shown_spaces ts hts ⟨display.style, {}, c.state.equationCount, c.state.labelMap, c.parserCfg.maxExpansions, false⟩ rfl
  unfold Form.value at hc
  rw [h1] at hc
  exact ⟨ns, hc, h2⟩

theorem spelled_shown_style (c : Converter) {src : Str} (display : MathDisplay) {ts : List Token} (st : Style)
    (hts : separate ts = true)
    (hs : Spells c.parserCfg.toParserConfig c.state src (⟨.style st, false⟩ :: ts.map fun t => ⟨t, false⟩)) :
    ∃ ns, ShowsNodes c src display [.row ns { style := some st }] ∧
      ShownWith (atomsOf ts) ns (shownGaps st none (atomsOf ts)) := by
  rw [← tokens_formOf] at hs
  have hc := formula_converts (f := .style st (formOf ts)) c display (by
    unfold Form.ok; rw [ok_formOf ts hts]; rfl) (by unfold Form.linked; exact formOf_linked _ ts) hs
  obtain ⟨ns, h1, h2⟩ := shown_spaces ts hts ⟨st, {}, c.state.equationCount, c.state.labelMap, c.parserCfg.maxExpansions, false⟩ rfl
  unfold Form.value Form.denote at hc
  simp only [h1, bind, Except.bind] at hc
  exact ⟨ns, hc, h2⟩

/-- C37. A source which consists of atoms without scripts: the space between any two of them is the one of TeX's
table for their final types, and there is none at the ends, unless there are neighbours as described at `differs`.
What is missing for the full property are these (where the claim is false: `C37_script_binary`, `C37_inner_inner`
and `C37_inner_binary`), and atoms which are not single tokens. -/
theorem C37_spacing_partial (c : Converter) {src : Str} (display : MathDisplay) {ts : List Token}
    (hts : separate ts = true)
    (hs : Spells c.parserCfg.toParserConfig c.state src (ts.map fun t => ⟨t, false⟩))
    (hr : regular display.style none (atomsOf ts) = true) :
    ∃ ns, ShowsNodes c src display ns ∧
      ShownWith (atomsOf ts) ns (texSpaces display.style (finalAtoms none (atomsOf ts))) := by
  rw [← regular_gaps _ _ _ hr]
  exact spelled_shown c display hts hs

/-- C37, the same in any other style, where the source begins with `\displaystyle`, `\scriptstyle` and so on. -/
theorem C37_spacing_in_style_partial (c : Converter) {src : Str} (display : MathDisplay) (st : Style)
    {ts : List Token} (hts : separate ts = true)
    (hs : Spells c.parserCfg.toParserConfig c.state src (⟨.style st, false⟩ :: ts.map fun t => ⟨t, false⟩))
    (hr : regular st none (atomsOf ts) = true) :
    ∃ ns, ShowsNodes c src display [.row ns { style := some st }] ∧
      ShownWith (atomsOf ts) ns (texSpaces st (finalAtoms none (atomsOf ts))) := by
  rw [← regular_gaps _ _ _ hr]
  exact spelled_shown_style c display st hts hs

/-- C37, anywhere in a formula, for example in a superscript, where the style is the one of that place -/
theorem C37_spacing_anywhere_partial {ts : List Token} (hts : separate ts = true) (l : Loc) (hk : l.stacked = false)
    (hr : regular l.style none (atomsOf ts) = true) :
    ∃ ns, (formOf ts).denote l .opening .ending = .ok (ns, l) ∧
      ShownWith (atomsOf ts) ns (texSpaces l.style (finalAtoms none (atomsOf ts))) := by
  rw [← regular_gaps _ _ _ hr]
  exact shown_spaces ts hts l hk

/-- In script styles, TeX puts no space between a binary operator and an operator like `\sum`, but a thin space is
shown. -/
theorem C37_script_binary {ts : List Token} (hts : separate ts = true)
    (ha : atomsOf ts = [.ord, .bin, .op, .ord]) (l : Loc) (hk : l.stacked = false)
    (hl : small l.style = true) :
    ∃ ns, (formOf ts).denote l .opening .ending = .ok (ns, l) ∧ ShownWith (atomsOf ts) ns [0, 3, 3] ∧
      texSpaces l.style (finalAtoms none (atomsOf ts)) = [0, 0, 3] := by
  obtain ⟨ns, h1, h2⟩ := shown_spaces ts hts l hk
  refine ⟨ns, h1, ?_, ?_⟩
  · rw [ha] at h2 ⊢
    cases hs : l.style <;> rw [hs] at hl h2 <;> first | exact absurd hl Bool.false_ne_true | exact h2
  · rw [ha]
    cases hs : l.style <;> rw [hs] at hl <;> first | exact absurd hl Bool.false_ne_true | rfl

/-- In other styles, TeX puts one thin space between two atoms of type inner, but two are shown. -/
theorem C37_inner_inner {ts : List Token} (hts : separate ts = true)
    (ha : atomsOf ts = [.inner, .inner]) (l : Loc) (hk : l.stacked = false)
    (hl : small l.style = false) :
    ∃ ns, (formOf ts).denote l .opening .ending = .ok (ns, l) ∧ ShownWith (atomsOf ts) ns [6] ∧
      texSpaces l.style (finalAtoms none (atomsOf ts)) = [3] := by
  obtain ⟨ns, h1, h2⟩ := shown_spaces ts hts l hk
  refine ⟨ns, h1, ?_, ?_⟩
  · rw [ha] at h2 ⊢
    cases hs : l.style <;> rw [hs] at hl h2 <;> first | exact absurd hl.symm Bool.false_ne_true | exact h2
  · rw [ha]
    cases hs : l.style <;> rw [hs] at hl <;> first | exact absurd hl.symm Bool.false_ne_true | rfl

/-- In other styles, TeX puts a thin space between an atom of type inner and a binary operator which has become an
ordinary atom because of what follows, but no space is shown. -/
theorem C37_inner_binary {ts : List Token} (hts : separate ts = true)
    (ha : atomsOf ts = [.inner, .bin]) (l : Loc) (hk : l.stacked = false)
    (hl : small l.style = false) :
    ∃ ns, (formOf ts).denote l .opening .ending = .ok (ns, l) ∧ ShownWith (atomsOf ts) ns [0] ∧
      texSpaces l.style (finalAtoms none (atomsOf ts)) = [3] := by
  obtain ⟨ns, h1, h2⟩ := shown_spaces ts hts l hk
  refine ⟨ns, h1, ?_, ?_⟩
  · rw [ha] at h2 ⊢
    cases hs : l.style <;> rw [hs] at hl h2 <;> first | exact absurd hl.symm Bool.false_ne_true | exact h2
  · rw [ha]
    cases hs : l.style <;> rw [hs] at hl <;> first | exact absurd hl.symm Bool.false_ne_true | rfl

/-! ### Examples -/

/-- `-x = f(a, 2 + \sin y)`, where the first sign is an ordinary atom -/
def spacingExample : List Token :=
  [ch '-', ch 'x', ch '=', ch 'f', ch '(', ch 'a', ch ',', .digit '2', ch '+', .pseudoOperator c!"sin", ch 'y', ch ')']

example : isSource exampleConfig c!"-x=f(a,2+\\sin y)" (formOf spacingExample) = true := by decide +kernel
example : separate spacingExample = true ∧ regular .text none (atomsOf spacingExample) = true ∧
    texSpaces .text (finalAtoms none (atomsOf spacingExample)) = [0, 5, 5, 0, 0, 0, 3, 4, 4, 3, 0] := by decide +kernel
/-- The same in a smaller style -/
example : isSource exampleConfig c!"\\scriptstyle-x=f" (.style .script (formOf (spacingExample.take 4))) = true ∧
    regular .script none (atomsOf (spacingExample.take 4)) = true := by decide +kernel
/-- `a + \sum b` -/
example : atomsOf [ch 'a', ch '+', .op Sym.N_ARY_SUMMATION, ch 'b'] = [.ord, .bin, .op, .ord] := by decide +kernel
/-- The dots which `\ldots` stands for; `\ldots\ldots` contains `.inner, .inner`. -/
example : atomsOf (Pre.DOTS ++ Pre.DOTS) = [.inner, .punct, .inner, .inner, .punct, .inner] := by decide +kernel

end Verif

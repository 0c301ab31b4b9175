import Verif.Spec.Shape
import Verif.Lemmas.Tame
/-! The elements of the meaning of a formula. -/
namespace Verif
open Model Spec

/-- An empty group -/
def isEmptyRow : Node → Bool
  | .row [] { color := none, style := none, mathShiftCompact := false } => true
  | _ => false

/-- Scripts only in front -/
def isPre : Node → Bool
  | .multiscripts _ _ [] => true
  | _ => false

/-- What can be struck through -/
def mark : Node → Option Shape
  | .operator op _ _ _ _ => some (.op op.sc)
  | .identifierChar c attr => some (.letter (attr = .forcedUpright) c)
  | .pseudoOp _ _ _ s => some (.funcName s)
  | .identifierStr s => some (.word s)
  | _ => none

/-- Nothing special -/
def plainNode (n : Node) : Bool := (mark n).isNone && !isEmptyRow n && !isPre n && !isSeparator n

def shapeMark : Shape → Option Shape
  | .op c => some (.op c)
  | .letter u c => some (.letter u c)
  | .funcName s => some (.funcName s)
  | .word s => some (.word s)
  | _ => none

def shapeOp : Shape → Bool
  | .op _ => true
  | _ => false

def shapeNothing : Shape → Bool
  | .nothing => true
  | _ => false

def plainShape : Shape → Bool
  | .leaf .. | .elem .. => true
  | _ => false

/-- The node is written as the shape says. -/
structure Has (cfg : EmitCfg) (n : Node) (s : Shape) : Prop where
  xml : (toXml cfg n).bare = s.xml
  mark : mark n = shapeMark s
  empty : isEmptyRow n = shapeNothing s
  pre : match s with
    | .pre a b c => ∃ x y z, n = .multiscripts x [(y, z)] [] ∧ (toXml cfg x).bare = a.xml ∧
        (toXml cfg y).bare = b.xml ∧ (toXml cfg z).bare = c.xml
    | _ => isPre n = false
  sep : isSeparator n = false

theorem Has.op {cfg : EmitCfg} {n : Node} {s : Shape} (h : Has cfg n s) : isOperator n = shapeOp s := by
  have hm := h.mark
  cases n <;> cases s <;> first | rfl | cases hm

theorem has_plain {cfg : EmitCfg} {n : Node} {s : Shape} (hn : plainNode n = true) (hs : plainShape s = true)
    (h : (toXml cfg n).bare = s.xml) : Has cfg n s := by
  simp only [plainNode, Bool.and_eq_true, Bool.not_eq_true'] at hn
  obtain ⟨⟨⟨h1, h2⟩, h3⟩, h4⟩ := hn
  have h1 := Option.isNone_iff_eq_none.1 h1
  cases s with
  | leaf | elem => exact ⟨h, h1, h2, h3, h4⟩
  | _ => cases hs

theorem bares_txt (s : Str) : Xml.bares (txt s) = txt s := by
  unfold txt
  split
  · rfl
  · simp [Xml.bares, Xml.bare]

theorem txt_nil : txt [] = [] := rfl

theorem bare_text (s : Str) : (Xml.text s).bare = .text s := by rw [Xml.bare]

theorem bare_cell (name : Str) (attrs : Attrs) (kids : List Xml) (h : isNumberCell name attrs = false) :
    (Xml.elem name attrs kids).bare = el name (Xml.bares kids) := by
  rw [Xml.bare, h]; rfl

theorem bare_elem (name : Str) (attrs : Attrs) (kids : List Xml) (h : name ≠ c!"mtd") :
    (Xml.elem name attrs kids).bare = el name (Xml.bares kids) :=
  bare_cell _ _ _ (by unfold isNumberCell; rw [beq_eq_false_iff_ne.2 h]; rfl)

theorem bare_el (name : Str) (kids : List Xml) : (el name kids).bare = el name (Xml.bares kids) :=
  bare_cell _ _ _ (by unfold isNumberCell; exact Bool.and_false _)

theorem bares_append (xs ys : List Xml) : Xml.bares (xs ++ ys) = Xml.bares xs ++ Xml.bares ys := by
  induction xs with
  | nil => rfl
  | cons x xs ih => simp [Xml.bares, ih]

theorem shapes_append (xs ys : List Shape) : Shape.xmls (xs ++ ys) = Shape.xmls xs ++ Shape.xmls ys := by
  induction xs with
  | nil => rfl
  | cons x xs ih => simp [Shape.xmls, ih]

theorem has_op {cfg : EmitCfg} {op : MathMLOperator} {attrs size l r} {c : SuperChar} (h : op.sc = c) :
    Has cfg (.operator op attrs size l r) (.op c) := by
  subst h
  exact ⟨by simp +decide only [toXml, bare_elem, bares_txt, Shape.xml], rfl, rfl, rfl, rfl⟩

theorem has_letter {cfg : EmitCfg} (c : SuperChar) (attr : LetterAttr) :
    Has cfg (.identifierChar c attr) (.letter (attr = .forcedUpright) c) := by
  refine ⟨?_, rfl, rfl, rfl, rfl⟩
  cases attr <;> cases hc : c.tryAsChar <;>
    simp +decide [toXml, hc, bare_el, bare_elem, Xml.bares, bares_txt, Shape.xml]

theorem has_func {cfg : EmitCfg} {attrs l r} (s : Str) : Has cfg (.pseudoOp attrs l r s) (.funcName s) :=
  ⟨by simp +decide only [toXml, bare_elem, bares_txt, Shape.xml], rfl, rfl, rfl, rfl⟩

theorem has_str {cfg : EmitCfg} (s : Str) : Has cfg (.identifierStr s) (.word s) :=
  ⟨by simp [toXml, bare_el, Xml.bares, bares_txt, Shape.xml], rfl, rfl, rfl, rfl⟩

theorem has_word {cfg : EmitCfg} {tf : MathVariant} {cs : List SuperChar} : Has cfg (wordNode tf cs) (wordShape tf cs) := by
  match cs with
  | [] => exact has_str _
  | [c] => cases tf <;> exact has_letter _ _
  | _ :: _ :: _ => exact has_str _

theorem has_struck {cfg : EmitCfg} {o : OverlayChar} {n n' : Node} {s : Shape} (h : Has cfg n s) (hs : struck o n = .ok n') :
    Has cfg n' (s.struck o) := by
  have hm := h.mark
  unfold struck at hs
  cases n <;> simp only [overlayNode] at hs <;> first | cases hs | skip
  case operator.refl =>
    cases s <;> cases hm
    exact has_op rfl
  case identifierChar.refl =>
    cases s <;> cases hm
    exact has_letter _ _
  case pseudoOp.refl =>
    cases s <;> cases hm
    exact has_func _
  case identifierStr.refl =>
    cases s <;> cases hm
    exact has_str _

theorem has_symbol {cfg : EmitCfg} {op attrs size l r} : Has cfg (.operator op attrs size l r) (symbolShape op) := has_op rfl

theorem has_nothing {cfg : EmitCfg} : Has cfg .emptyRow .nothing :=
  ⟨by simp +decide [Node.emptyRow, toXml, toXmls, bare_elem, Xml.bares, Shape.xml], rfl, rfl, rfl, rfl⟩

/-- Nodes without separators -/
inductive HasAll (cfg : EmitCfg) : List Node → List Shape → Prop
  | nil : HasAll cfg [] []
  | cons {n s ns ss} : Has cfg n s → HasAll cfg ns ss → HasAll cfg (n :: ns) (s :: ss)

/-- Nodes with separators -/
inductive HasPieces (cfg : EmitCfg) : List Node → List ShapePiece → Prop
  | nil : HasPieces cfg [] []
  | shape {n s ns ss} : Has cfg n s → HasPieces cfg ns ss → HasPieces cfg (n :: ns) (.shape s :: ss)
  | cell {ns ss} : HasPieces cfg ns ss → HasPieces cfg (.columnSeparator :: ns) (.nextCell :: ss)
  | row {ns ss i line} : HasPieces cfg ns ss → HasPieces cfg (.rowSeparator i line :: ns) (.nextRow :: ss)

/-- No separators -/
def onlyShapes : List ShapePiece → Bool
  | [] => true
  | .shape _ :: ps => onlyShapes ps
  | _ => false

theorem pieces_all {cfg : EmitCfg} {ns : List Node} {ps : List ShapePiece} (h : HasPieces cfg ns ps)
    (ho : onlyShapes ps = true) : HasAll cfg ns (shapesOf ps) := by
  induction h with
  | nil => exact .nil
  | shape h _ ih => exact .cons h (ih ho)
  | cell | row => cases ho

theorem all_append {cfg : EmitCfg} {ns ns' : List Node} {ss ss' : List Shape} (h : HasAll cfg ns ss)
    (h' : HasAll cfg ns' ss') : HasAll cfg (ns ++ ns') (ss ++ ss') := by
  induction h with
  | nil => exact h'
  | cons h _ ih => exact .cons h ih

theorem all_xmls {cfg : EmitCfg} {ns : List Node} {ss : List Shape} (h : HasAll cfg ns ss) :
    Xml.bares (toXmls cfg ns) = Shape.xmls ss := by
  induction h with
  | nil => simp [toXmls, Xml.bares, Shape.xmls]
  | cons h _ ih => simp only [toXmls, Xml.bares, Shape.xmls, h.xml, ih]

theorem all_flatten {cfg : EmitCfg} {k : Nat} {ns : List Node} {ss : List Shape} (h : HasAll cfg ns ss) :
    HasAll cfg (List.replicate k ns).flatten (List.replicate k ss).flatten := by
  induction k with
  | zero => exact .nil
  | succ k ih => simp only [List.replicate_succ, List.flatten_cons]; exact all_append h ih

theorem has_row {cfg : EmitCfg} {n : Node} {s : Shape} {ns : List Node} {ss : List Shape} {a : RowAttrs}
    (h : HasAll cfg (n :: ns) (s :: ss)) : Has cfg (.row (n :: ns) a) (.elem c!"mrow" (s :: ss)) :=
  has_plain rfl rfl (by rw [toXml, bare_elem _ _ _ (by decide), all_xmls h, Shape.xml])

theorem has_vec {cfg : EmitCfg} {ns : List Node} {ss : List Shape} (h : HasAll cfg ns ss) (reset : Bool) :
    Has cfg (nodeVecToNode ns reset) (.one ss) := by
  cases h with
  | nil => exact has_nothing
  | cons h h' =>
    cases h' with
    | nil =>
      rename_i n s
      simp only [nodeVecToNode, Shape.one]
      cases reset with
      | false => simpa using h
      | true =>
        simp only [if_true]
        cases n
        case operator op attrs size l r =>
          have hx := h.xml
          have ho := h.op
          have hm := h.mark
          cases s with
          | op t => cases hm; exact has_op rfl
          | _ => cases ho
        all_goals exact h
    | cons h1 h2 => exact has_row (.cons h (.cons h1 h2))

theorem has_unlessSingle {cfg : EmitCfg} {ns : List Node} {ss : List Shape} (h : HasAll cfg ns ss) :
    Has cfg (Rec.rowUnlessSingle ns) (.one ss) := by
  cases h with
  | nil => exact has_nothing
  | cons h h' =>
    cases h' with
    | nil => exact h
    | cons h1 h2 => exact has_row (.cons h (.cons h1 h2))

theorem has_atom {cfg : EmitCfg} (style : Style) (inSeq : Bool) (prev next : Class) (t : Token) :
    Has cfg (atomNode style inSeq prev next t).2 (atomShape t) := by
  unfold atomNode atomShape
  cases t
  case letter => exact has_letter _ _
  case uprightLetter => exact has_letter _ _
  case ord => exact has_symbol
  case opening => exact has_symbol
  case closing => exact has_symbol
  case squareBracketOpen => exact has_op (by decide)
  case squareBracketClose => exact has_op (by decide)
  case space l => exact has_plain rfl rfl (by simp +decide [toXml, bare_elem, Xml.bares, Shape.xml, txt_nil])
  case nonBreakingSpace =>
    exact has_plain rfl rfl (by simp +decide [toXml, bare_elem, Shape.xml, textStyleXml, bares_txt])
  all_goals first | exact has_symbol | exact has_nothing

theorem has_delim {cfg : EmitCfg} (d : Option StretchableOp) : Has cfg (delimOperator d) (delimShape d) := by
  cases d with
  | some d => exact has_symbol
  | none => exact has_op (by decide)

theorem has_fenced {cfg : EmitCfg} {ns : List Node} {ss : List Shape} (h : HasAll cfg ns ss)
    (o c : Option StretchableOp) (st : Option Style) :
    Has cfg (fenced ns o c st) (.elem c!"mrow" (delimShape o :: ss ++ [delimShape c])) := by
  unfold fenced
  exact has_row (.cons (has_delim o) (all_append h (.cons (has_delim c) .nil)))

/-- A script -/
def HasOpt (cfg : EmitCfg) : Option Node → Option Shape → Prop
  | some n, some x => Has cfg n x
  | none, none => True
  | _, _ => False

/-- Scripts -/
structure HasBounds (cfg : EmitCfg) (b : Bounds) (s : ScriptShapes) : Prop where
  sub : HasOpt cfg b.sub s.1
  sup : HasOpt cfg b.sup s.2

theorem hasBounds_empty {cfg : EmitCfg} : HasBounds cfg {} (none, none) := ⟨trivial, trivial⟩

theorem bounds_getD {cfg : EmitCfg} {n : Option Node} {s : Option Shape} (h : HasOpt cfg n s) : (toXml cfg (n.getD .emptyRow)).bare = (s.getD .nothing).xml := by
  cases n <;> cases s <;> first | exact False.elim h | exact has_nothing.xml | exact Has.xml h

theorem withScripts_plain {n : Node} {sub sup : Option Node} (h : isPre n = false) :
    withScripts n ⟨sub, sup⟩ = match sub, sup with
      | none, none => n
      | some a, none => .sub n a
      | none, some b => .sup n b
      | some a, some b => .subSup n a b := by
  unfold withScripts
  split
  · cases h
  · cases h
  · rename_i heq; cases heq; rfl
  · rename_i heq; cases heq; rfl
  · rename_i heq; cases heq; rfl
  · rename_i heq; cases heq; rfl

theorem shape_withScripts {s : Shape} {a b : Option Shape} (h : ∀ x y z, s ≠ .pre x y z) :
    s.withScripts (a, b) = match a, b with
      | none, none => s
      | some a, none => .elem c!"msub" [s, a]
      | none, some b => .elem c!"msup" [s, b]
      | some a, some b => .elem c!"msubsup" [s, a, b] := by
  cases s
  case pre => exact absurd rfl (h _ _ _)
  all_goals (cases a <;> cases b <;> rfl)

theorem has_scripts {cfg : EmitCfg} {n : Node} {s : Shape} {b : Bounds} {ss : ScriptShapes} (h : Has cfg n s)
    (hb : HasBounds cfg b ss) : Has cfg (withScripts n b) (s.withScripts ss) := by
  obtain ⟨sub, sup⟩ := b
  obtain ⟨x, y⟩ := ss
  obtain ⟨h1, h2⟩ := hb
  dsimp only at h1 h2
  by_cases hp : ∃ u v w, s = .pre u v w
  · obtain ⟨u, v, w, rfl⟩ := hp
    obtain ⟨p, q, r, rfl, e1, e2, e3⟩ := h.pre
    cases sub <;> cases x <;> first | exact False.elim h1 | skip
    all_goals (cases sup <;> cases y <;> first | exact False.elim h2 | skip)
    · exact h
    all_goals
      refine has_plain rfl rfl ?_
      have g1 := bounds_getD h1
      have g2 := bounds_getD h2
      simp only [Option.getD_some, Option.getD_none] at g1 g2
      simp [withScripts, Shape.withScripts, toXml, toXmlPairs, Bounds.toPair, bare_el, Xml.bares, Shape.xml, Shape.xmls, e1, e2, e3,
        g1, g2, txt_nil]
  · have hp' : ∀ u v w, s ≠ .pre u v w := fun u v w e => hp ⟨u, v, w, e⟩
    have hn : isPre n = false := by
      have := h.pre
      cases s
      case pre => exact absurd rfl (hp' _ _ _)
      all_goals exact this
    rw [withScripts_plain hn, shape_withScripts hp']
    cases sub <;> cases x <;> first | exact False.elim h1 | skip
    all_goals (cases sup <;> cases y <;> first | exact False.elim h2 | skip)
    · exact h
    · exact has_plain rfl rfl (by simp [toXml, bare_el, Xml.bares, Shape.xml, Shape.xmls, h.xml, Has.xml h2])
    · exact has_plain rfl rfl (by simp [toXml, bare_el, Xml.bares, Shape.xml, Shape.xmls, h.xml, Has.xml h1])
    · exact has_plain rfl rfl (by simp [toXml, bare_el, Xml.bares, Shape.xml, Shape.xmls, h.xml, Has.xml h1, Has.xml h2])

theorem has_limits {cfg : EmitCfg} {n : Node} {s : Shape} {b : Bounds} {ss : ScriptShapes} (h : Has cfg n s)
    (hb : HasBounds cfg b ss) : Has cfg (withLimits n b) (s.withLimits ss) := by
  obtain ⟨sub, sup⟩ := b
  obtain ⟨x, y⟩ := ss
  obtain ⟨h1, h2⟩ := hb
  dsimp only at h1 h2
  cases sub <;> cases x <;> first | exact False.elim h1 | skip
  all_goals (cases sup <;> cases y <;> first | exact False.elim h2 | skip)
  · exact h
  · exact has_plain rfl rfl (by simp [withLimits, Shape.withLimits, toXml, bare_el, Xml.bares, Shape.xml, Shape.xmls, h.xml, Has.xml h2])
  · exact has_plain rfl rfl (by simp [withLimits, Shape.withLimits, toXml, bare_el, Xml.bares, Shape.xml, Shape.xmls, h.xml, Has.xml h1])
  · exact has_plain rfl rfl (by simp [withLimits, Shape.withLimits, toXml, bare_el, Xml.bares, Shape.xml, Shape.xmls, h.xml, Has.xml h1, Has.xml h2])

theorem has_accent {cfg : EmitCfg} {n : Node} {s : Shape} (h : Has cfg n s) (isOver : Bool) (op : MathMLOperator)
    (attrs : OpAttrs) : Has cfg (if isOver then .overAccent op attrs n else .underAccent op attrs n) (s.accent isOver op) := by
  cases isOver <;> exact has_plain rfl rfl (by
    simp +decide [toXml, Shape.accent, symbolShape, bare_elem, Xml.bares, bares_txt, Shape.xml, Shape.xmls, h.xml])

theorem has_phantom {cfg : EmitCfg} {n : Node} {s : Shape} (h : Has cfg n s) : Has cfg (.phantom n) (.elem c!"mphantom" [s]) :=
  has_plain rfl rfl (by simp [toXml, bare_el, Xml.bares, Shape.xml, Shape.xmls, h.xml])

theorem has_padded {cfg : EmitCfg} {n : Node} {s : Shape} (h : Has cfg n s) (w e : Bool) (l r : Option MathSpacing) :
    Has cfg (.padded n w e l r none) (.elem c!"mpadded" [s]) :=
  has_plain rfl rfl (by simp +decide [toXml, paddedXml, bare_elem, Xml.bares, Shape.xml, Shape.xmls, h.xml])

theorem bares_marks (k : Notation) : Xml.bares (notationMarks k) = Shape.xmls ((notationMarks k).map fun _ => .leaf c!"mrow" []) := by
  unfold notationMarks
  simp only [List.map_append, bares_append, shapes_append]
  split <;> split <;> split <;> simp +decide [Xml.bares, bare_elem, Shape.xmls, Shape.xml, txt_nil]

theorem has_deco {cfg : EmitCfg} {n : Node} {s : Shape} (h : Has cfg n s) (d : Deco) : Has cfg (d.node n) (d.shape s) := by
  cases d with
  | accent o isOver attrs => exact has_accent h isOver _ _
  | enclose k =>
    refine has_plain rfl rfl ?_
    simp +decide only [Deco.node, Deco.shape, toXml, bare_elem, Xml.bares, bares_marks, Shape.xml, Shape.xmls, h.xml]
  | phantom kind =>
    cases kind
    · exact has_phantom h
    · exact has_padded (has_phantom h) _ _ _ _
    · exact has_padded (has_phantom h) _ _ _ _

theorem has_class {cfg : EmitCfg} {n : Node} {s : Shape} (h : Has cfg n s) (l r : Option MathSpacing) :
    Has cfg (mathClassNode n l r) s.inClass := by
  unfold mathClassNode
  split
  · have ho := h.op
    have hx := h.xml
    cases s
    case op t =>
      have hm := h.mark
      cases hm
      exact has_op rfl
    all_goals cases ho
  · have he := h.empty
    cases s
    case nothing => exact has_op (by decide)
    all_goals cases he
  · rename_i h1 h2
    have ho := h.op
    have he := h.empty
    cases s
    case op =>
      unfold isOperator at ho
      split at ho
      · exact absurd rfl (h1 _ _ _ _ _)
      · cases ho
    case nothing =>
      unfold isEmptyRow at he
      split at he
      · exact absurd rfl h2
      · cases he
    all_goals exact has_padded h _ _ _ _

theorem has_leaf {cfg : EmitCfg} {x : Leaf} {style : Style} {prev next : Class} {r : Class × Node}
    (hd : x.denote style prev next = .ok r) : Has cfg r.2 (x.shape cfg.labelMap) := by
  cases x with
  | big size side t =>
    simp only [Leaf.denote, someDelim] at hd
    simp only [Leaf.shape]
    cases hdel : t.unwrapMath.delimiter with
    | none => rw [hdel] at hd; cases hd
    | some d =>
      rw [hdel] at hd
      cases hd
      unfold bigNode
      dsimp only
      split <;> dsimp only <;> first | exact has_symbol | (split <;> exact has_symbol)
  | middle t =>
    simp only [Leaf.denote, someDelim] at hd
    simp only [Leaf.shape]
    cases hdel : t.unwrapMath.delimiter with
    | none => rw [hdel] at hd; cases hd
    | some d =>
      rw [hdel] at hd
      cases hd
      exact has_symbol
  | eqRef text =>
    simp only [Leaf.denote] at hd
    cases hd
    exact has_plain rfl rfl (by simp +decide [toXml, Leaf.shape, bare_el, bare_elem, Xml.bares, bare_text, Shape.xml, Shape.xmls, txt])
  | hspace kind text =>
    simp only [Leaf.denote] at hd
    split at hd
    · split at hd
      · cases hd
        exact has_plain rfl rfl (by simp +decide [toXml, Leaf.shape, bare_elem, Xml.bares, Shape.xml, txt_nil])
      · cases hd
    · cases hd
  | textBox style text =>
    simp only [Leaf.denote] at hd
    cases hd
    dsimp only [Leaf.shape]
    generalize (textBy textChar text).getD [] = s
    cases s with
    | nil => exact has_nothing
    | cons c s =>
      unfold textShape
      cases style with
      | none => exact has_plain rfl rfl (by simp +decide [toXml, textStyleXml, bare_elem, bares_txt, Shape.xml])
      | some style =>
        cases style <;> exact has_plain rfl rfl (by
          simp +decide [toXml, textStyleXml, bare_elem, bare_el, Xml.bares, bares_txt, Shape.xml, Shape.xmls])
  | font tf text =>
    simp only [Leaf.denote] at hd
    cases hd
    exact has_word
  | fontTok tf t =>
    simp only [Leaf.denote] at hd
    cases hd
    exact has_word

theorem has_primes {cfg : EmitCfg} (ts : List Token) : HasAll cfg (primesNodes ts) (primesShapes ts) := by
  unfold primesNodes primesShapes
  generalize (primeRuns ts).reverse = runs
  have hsp : Has cfg primeSpace (.leaf c!"mspace" []) :=
    has_plain rfl rfl (by simp +decide [primeSpace, toXml, bare_elem, Xml.bares, Shape.xml, txt_nil])
  have h1 : ∀ d n, HasAll cfg (primeNodes d n) (primeShapes d n) := by
    intro d n
    unfold primeNodes primeShapes
    dsimp only
    cases d.ops[n - 1]? with
    | some o => exact .cons has_symbol .nil
    | none => exact .cons has_symbol (all_flatten (.cons hsp (.cons has_symbol .nil)))
  induction runs with
  | nil => exact .nil
  | cons p ps ih => simp only [List.flatMap_cons]; exact all_append (h1 _ _) ih

/-! ### Tables -/

/-- The cells of rows -/
def bareRows (rows : List TRow) : List (List (List Xml)) := rows.map fun r => r.cells.map Xml.bares

theorem rowsOfPieces_ne (ps : List ShapePiece) : ∃ cell cells rows, rowsOfPieces ps = (cell :: cells) :: rows := by
  induction ps with
  | nil => exact ⟨_, _, _, rfl⟩
  | cons p ps ih =>
    obtain ⟨c, cs, rs, h⟩ := ih
    cases p <;> simp [rowsOfPieces, h]

theorem rows_pieces {cfg : EmitCfg} {ns : List Node} {ps : List ShapePiece} (h : HasPieces cfg ns ps) (last : Option RowLabelInfo) :
    ∀ line, bareRows (rowsOf last line (toItems cfg ns)) = (rowsOfPieces ps).map (·.map Shape.xmls) := by
  induction h with
  | nil => intro line; simp [toItems, rowsOf, bareRows, rowsOfPieces, Xml.bares, Shape.xmls]
  | @shape n s ns ss h _ ih =>
    intro line
    have hi : toItems cfg (n :: ns) = .node (toXml cfg n) :: toItems cfg ns := by
      have := h.sep
      cases n <;> first | rfl | cases this
    specialize ih line
    obtain ⟨c, cs, rs, hr⟩ := rowsOfPieces_ne ss
    rw [hi, rowsOf]
    simp only [rowsOfPieces, hr] at ih ⊢
    generalize rowsOf last line (toItems cfg ns) = rows at ih ⊢
    cases rows with
    | nil => simp [bareRows] at ih
    | cons r rows =>
      obtain ⟨ln, lb, cells⟩ := r
      cases cells with
      | nil => simp [bareRows] at ih
      | cons d ds =>
        simp only [bareRows, List.map_cons, List.cons.injEq] at ih
        simp only [onFirst, TRow.cons, bareRows, List.map_cons, Xml.bares, Shape.xmls, ih, h.xml]
  | @cell ns ss _ ih =>
    intro line
    specialize ih line
    obtain ⟨c, cs, rs, hr⟩ := rowsOfPieces_ne ss
    rw [toItems, rowsOf]
    simp only [rowsOfPieces, hr] at ih ⊢
    generalize rowsOf last line (toItems cfg ns) = rows at ih ⊢
    cases rows with
    | nil => simp [bareRows] at ih
    | cons r rows =>
      simp only [bareRows, List.map_cons, List.cons.injEq] at ih
      simp only [onFirst, TRow.consCell, bareRows, List.map_cons, Xml.bares, Shape.xmls, ih]
  | @row ns ss i l _ ih =>
    intro line
    specialize ih l
    rw [toItems, rowsOf]
    simp only [rowsOfPieces, bareRows, List.map_cons, List.map_nil, Xml.bares, Shape.xmls] at ih ⊢
    rw [ih]

/-- The lines of a layout -/
def layoutColumns : Layout → List ColumnSpecEntry
  | .spec s => s.columnSpec
  | _ => []

theorem bares_lineCells (lay : Layout) (line : Option LineType) (j : Nat) :
    Xml.bares (lineCells lay line j) = Shape.xmls ((column (layoutColumns lay) j).1.map fun _ => .elem c!"mtd" []) := by
  cases lay with
  | spec s =>
    simp only [lineCells, layoutColumns]
    induction (column s.columnSpec j).1 with
    | nil => rfl
    | cons l ls ih =>
      rw [List.map_cons, List.map_cons, Xml.bares, Shape.xmls, ih, bare_cell _ _ _ ?_]
      · rfl
      · unfold isNumberCell
        rw [List.any_cons, List.any_nil, Bool.or_false, Bool.and_eq_false_iff, Bool.and_eq_false_iff]
        refine .inr (.inr ?_)
        cases line <;> (try (rename_i x; cases x)) <;> cases l <;> rfl
  | _ => rfl

/-- The CSS of a cell is not a width. -/
theorem css_width (lay : Layout) (line : Option LineType) (i j : Nat) :
    c!"width".isPrefixOf (lineCss c!"top" line ++ cellCss lay i j) = false := by
  cases line with
  | some x => cases x <;> rfl
  | none =>
    show c!"width".isPrefixOf (cellCss lay i j) = false
    have hl : ∀ a : ColumnAlignment, ∀ s : Str, c!"width".isPrefixOf s = false → c!"width".isPrefixOf (alignCss a ++ s) = false := by
      intro a s hs
      cases a <;> first | rfl | exact hs
    unfold cellCss
    split
    · rfl
    · rfl
    · split <;> rfl
    · rw [List.append_assoc]
      refine hl _ _ ?_
      generalize (column _ j).2.2 = x
      split <;> (cases x with
        | none => rfl
        | some x => cases x <;> rfl)
    · split
      · rfl
      · split <;> rfl

theorem bare_mtd (lay : Layout) (line : Option LineType) (i j : Nat) (kids : List Xml) :
    (Xml.elem c!"mtd" (styleAttr (lineCss c!"top" line ++ cellCss lay i j)) kids).bare = el c!"mtd" (Xml.bares kids) := by
  refine bare_cell _ _ _ ?_
  unfold isNumberCell styleAttr
  split
  · rfl
  · rw [List.any_cons, List.any_nil, Bool.or_false, css_width, Bool.and_false, Bool.and_false]

theorem bares_cells (lay : Layout) (line : Option LineType) (i : Nat) : ∀ (cells : List (List Xml)) (ss : List (List Shape)) (j : Nat),
    cells.map Xml.bares = ss.map Shape.xmls →
    Xml.bares (cellsXml lay line i j cells) = Shape.xmls (cellShapes (layoutColumns lay) j ss)
  | [], [], j, _ => rfl
  | [], _ :: _, _, h => by cases h
  | _ :: _, [], _, h => by cases h
  | c :: cells, s :: ss, j, h => by
    simp only [List.map_cons, List.cons.injEq] at h
    simp +decide only [cellsXml, cellShapes, bares_append, shapes_append, bares_lineCells, Xml.bares, Shape.xmls, bare_mtd, Shape.xml,
      h.1, bares_cells lay line i cells ss (j + 1) h.2]

theorem bares_rows (pre : Str) (lay : Layout) : ∀ (rows : List TRow) (ss : List (List (List Shape))) (i : Nat),
    bareRows rows = ss.map (·.map Shape.xmls) →
    Xml.bares (rowsXml pre lay none i rows) =
      Shape.xmls (ss.map fun row => .elem c!"mtr" (cellShapes (layoutColumns lay) 0 row))
  | [], [], i, _ => rfl
  | [], _ :: _, _, h => by cases h
  | _ :: _, [], _, h => by cases h
  | r :: rows, s :: ss, i, h => by
    simp only [bareRows, List.map_cons, List.cons.injEq] at h
    simp only [rowsXml, List.map_cons, Xml.bares, Shape.xmls, bare_el, Shape.xml,
      bares_cells lay r.line i r.cells s 0 h.1, bares_rows pre lay rows ss (i + 1) h.2]

theorem bare_number (pre : Str) (n : NumberColums) (label : Option RowLabelInfo) : (numberCell pre n label).bare = el c!"mtd" [] := by
  cases label with
  | none => cases n <;> rfl
  | some l =>
    unfold numberCell
    dsimp only
    rw [Xml.bare]
    have : isNumberCell c!"mtd" ((c!"style", numberWidth n ++ c!";" ++ alignCss .right) ::
        optAttr c!"id" (l.linkTarget.map (equationId pre))) = true := by
      unfold isNumberCell
      rw [List.any_cons]
      cases n <;> rfl
    rw [this]
    rfl

/-- Numbered rows -/
theorem bares_numbered (pre : Str) (lay : Layout) (n : NumberColums) : ∀ (rows : List TRow) (ss : List (List (List Shape))) (i : Nat),
    bareRows rows = ss.map (·.map Shape.xmls) →
    Xml.bares (rowsXml pre lay (some n) i rows) =
      Shape.xmls (ss.map fun row => .elem c!"mtr" (.elem c!"mtd" [] :: (cellShapes (layoutColumns lay) 0 row ++ [.elem c!"mtd" []])))
  | [], [], i, _ => rfl
  | [], _ :: _, _, h => by cases h
  | _ :: _, [], _, h => by cases h
  | r :: rows, s :: ss, i, h => by
    simp only [bareRows, List.map_cons, List.cons.injEq] at h
    have h0 : (Xml.elem c!"mtd" [(c!"style", numberWidth n)] []).bare = el c!"mtd" [] := bare_number pre n none
    simp only [rowsXml, List.map_cons, Xml.bares, Shape.xmls, bare_el, Shape.xml, bares_append, shapes_append, bare_number, h0,
      bares_cells lay r.line i r.cells s 0 h.1, bares_numbered pre lay n rows ss (i + 1) h.2]

theorem has_equations {cfg : EmitCfg} {ns : List Node} {ps : List ShapePiece} (h : HasPieces cfg ns ps) (a : Alignment)
    (last : Option RowLabelInfo) : Has cfg (.equationArray a last ns) (numberedShape ps) := by
  refine has_plain rfl rfl ?_
  rw [toXml, bare_elem _ _ _ (by decide), bares_numbered _ _ _ _ _ _ (rows_pieces h last none)]
  rfl

theorem has_multline {cfg : EmitCfg} {ns : List Node} {ps : List ShapePiece} (h : HasPieces cfg ns ps) (rows : Nat)
    (last : Option RowLabelInfo) : Has cfg (.multLine rows last ns) (numberedShape ps) := by
  refine has_plain rfl rfl ?_
  rw [toXml, bare_elem _ _ _ (by decide), bares_numbered _ _ _ _ _ _ (rows_pieces h last none)]
  rfl

theorem has_table {cfg : EmitCfg} {ns : List Node} {ps : List ShapePiece} (h : HasPieces cfg ns ps) (a : Alignment)
    (st : Option Style) (line : Option LineType) : Has cfg (.table a st line ns) (tableShape [] ps) := by
  refine has_plain rfl rfl ?_
  rw [toXml, bare_elem _ _ _ (by decide), bares_rows _ _ _ _ _ (rows_pieces h none none)]
  rfl

theorem has_array {cfg : EmitCfg} {ns : List Node} {ps : List ShapePiece} (h : HasPieces cfg ns ps) (st : Option Style)
    (s : ArraySpec) : Has cfg (.array st s ns) (tableShape s.columnSpec ps) := by
  refine has_plain rfl rfl ?_
  rw [toXml, bare_elem _ _ _ (by decide), bares_rows _ _ _ _ _ (rows_pieces h none none)]
  rfl

theorem has_construct {cfg : EmitCfg} {e : Env} {o : EnvArgs} {spec : Option ArraySpec} {ns : List Node} {ps : List ShapePiece}
    {info : Option RowLabelInfo} {rows : Option Nat} {line : Option LineType} {n : Node} (h : HasPieces cfg ns ps)
    (hs : o.columns e = .ok spec)
    (hn : e.constructNode ns spec info rows line = some n) : Has cfg n (envShape e o ps) := by
  have hf : ∀ {a st line l r}, Has cfg (fenced [.table a st line ns] l r none)
      (.elem c!"mrow" [delimShape l, tableShape [] ps, delimShape r]) :=
    fun {a st line l r} => has_fenced (.cons (has_table h a st line) .nil) l r none
  unfold envShape givenColumns
  rw [hs]
  cases e <;> simp only [Env.constructNode, Env.constructNode.matrixNode, Option.map_eq_some_iff] at hn <;>
    simp only [envDelims]
  all_goals first
    | (cases hn; exact hf)
    | (cases hn; exact has_table h _ _ _)
    | (cases hn; exact has_equations h _ _)
    | (cases hn; exact has_multline h _ _)
    | (obtain ⟨s, rfl, rfl⟩ := hn; exact has_array h _ _)

/-! ### Formulas -/

theorem tame_onlyShapes (labels : Str → Option Str) : ∀ (f : Form), f.tame false = true → onlyShapes (f.pieces labels) = true
  | .nil, _ => rfl
  | .item b s rest, h => by
    simp only [Form.tame, Bool.and_eq_true] at h
    simp only [Form.pieces, onlyShapes, tame_onlyShapes labels rest h.2]
  | .bigOp o s rest, h => by
    simp only [Form.tame, Bool.and_eq_true] at h
    simp only [Form.pieces, onlyShapes, tame_onlyShapes labels rest h.2]
  | .func name lim s rest, h => by
    simp only [Form.tame, Bool.and_eq_true] at h
    simp only [Form.pieces, onlyShapes, tame_onlyShapes labels rest h.2]
  | .amp rest, h => by simp [Form.tame] at h
  | .newLine _ rest, h => by simp [Form.tame] at h
  | .noNumber rest, h => by
    simp only [Form.tame] at h
    simp only [Form.pieces, tame_onlyShapes labels rest h]
  | .tag _ _ rest, h => by
    simp only [Form.tame] at h
    simp only [Form.pieces, tame_onlyShapes labels rest h]
  | .label _ rest, h => by
    simp only [Form.tame] at h
    simp only [Form.pieces, tame_onlyShapes labels rest h]
  | .style _ rest, h | .color _ rest, h => by simp only [Form.pieces, onlyShapes]
  | .call _ _ _ cont, h => by
    simp only [Form.tame] at h
    simp only [Form.pieces, tame_onlyShapes labels cont h]
  | .emptyCall _ _ s rest, h => by
    simp only [Form.tame, Bool.and_eq_true] at h
    simp only [Form.pieces, onlyShapes, tame_onlyShapes labels rest h.2]

/-- Do line breaks start rows here? -/
abbrev Loc.rows (l : Loc) : Bool := l.env.meaningfulNewlines

theorem endRow_env {n : RowState} {isLast : Bool} {l : Loc} {r} (h : endRow n isLast l = .ok r) : r.2.2.env = l.env := by
  unfold endRow at h
  split at h
  · cases h
  · cases h; rfl

theorem lineBreak_rows {line : Option LineType} {l l' : Loc} {r : Class × Node} (h : lineBreak line l = .ok (r, l')) :
    Loc.rows l' = Loc.rows l ∧ (Loc.rows l = true → ∃ i, r.2 = .rowSeparator i line) := by
  unfold lineBreak at h
  split at h
  · rename_i hm
    cases h
    refine ⟨rfl, fun hr => ?_⟩
    rw [Loc.rows] at hr
    rw [hr] at hm
    cases hm
  · split at h
    · cases h; exact ⟨rfl, fun _ => ⟨_, rfl⟩⟩
    · split at h
      · cases h
      · obtain ⟨x, hx, h⟩ := except_bind_ok h
        cases h
        exact ⟨rfl, fun _ => ⟨_, rfl⟩⟩

theorem putTag_rows {p t l l'} (h : putTag p t l = .ok l') : Loc.rows l' = Loc.rows l := by
  unfold putTag at h
  split at h <;> cases h
  rfl

theorem putLabel_rows {t l l'} (h : putLabel t l = .ok l') : Loc.rows l' = Loc.rows l := by
  unfold putLabel at h
  split at h
  · split at h <;> cases h
    rfl
  · cases h

theorem expandOne_rows {l l'} (h : expandOne l = .ok l') : Loc.rows l' = Loc.rows l := by
  unfold expandOne at h
  split at h <;> cases h
  rfl

theorem addSub_has {cfg : EmitCfg} {n : Node} {s : Shape} {b b' : Bounds} {ss : ScriptShapes} (hn : Has cfg n s)
    (hb : HasBounds cfg b ss) (h : addSub n b = .ok b') : ss.1 = none ∧ HasBounds cfg b' (some s, ss.2) := by
  unfold addSub at h
  split at h
  · cases h
  · rename_i hs
    cases h
    refine ⟨?_, hn, hb.sup⟩
    have := hb.sub
    obtain ⟨x, y⟩ := ss
    cases x with
    | none => rfl
    | some x =>
      obtain ⟨sub, sup⟩ := b
      cases sub with
      | none => exact False.elim this
      | some z => simp at hs

theorem addSup_has {cfg : EmitCfg} {n : Node} {s : Shape} {b b' : Bounds} {ss : ScriptShapes} (hn : Has cfg n s)
    (hb : HasBounds cfg b ss) (h : addSup n b = .ok b') : ss.2 = none ∧ HasBounds cfg b' (ss.1, some s) := by
  unfold addSup at h
  split at h
  · cases h
  · rename_i hs
    cases h
    refine ⟨?_, hb.sub, hn⟩
    have := hb.sup
    obtain ⟨x, y⟩ := ss
    cases y with
    | none => rfl
    | some x =>
      obtain ⟨sub, sup⟩ := b
      cases sup with
      | none => exact False.elim this
      | some z => simp at hs

/-- Scripts which come later -/
def orScripts (a b : ScriptShapes) : ScriptShapes := (a.1.or b.1, a.2.or b.2)

theorem fenceDelim_token {loc : DelimiterModifier} {t : Token} {d : Option StretchableOp} (h : fenceDelim loc t = .ok d) :
    d = tokenDelim t := by
  unfold fenceDelim at h
  unfold tokenDelim
  split at h
  · cases h; rw [if_pos ‹_›]
  · rw [if_neg ‹_›]
    split at h <;> cases h
    exact ‹t.delimiter = _›.symm

theorem genDelim_token {t : Option Token} {d : Option StretchableOp} (h : genDelim t = .ok d) :
    d = t.bind (·.unwrapMath.delimiter) := by
  cases t with
  | none => cases h; rfl
  | some t =>
    unfold genDelim someDelim at h
    dsimp only at h
    show d = t.unwrapMath.delimiter
    cases hd : t.unwrapMath.delimiter with
    | none => rw [hd] at h; cases h
    | some d' => rw [hd] at h; cases h; rfl

theorem has_alone {cfg : EmitCfg} (style : Style) (prev next : Class) (t : Token) :
    Has cfg (aloneNode style prev next t.unwrapMath).2 (aloneShape t) := by
  unfold aloneNode aloneShape
  generalize t.unwrapMath = t
  cases t
  case digit => exact has_plain rfl rfl (by simp only [toXml, bare_el, bares_txt, Shape.xml])
  all_goals exact has_atom _ _ _ _ _

theorem has_stack {cfg : EmitCfg} {a n : Node} {s s' : Shape} (ha : Has cfg a s) (hn : Has cfg n s') (isOver : Bool) :
    Has cfg (stackNode isOver a n) (.elem (if isOver then c!"mover" else c!"munder") [s', s]) := by
  cases isOver <;> exact has_plain rfl rfl (by
    simp [stackNode, toXml, bare_el, Xml.bares, Shape.xml, Shape.xmls, ha.xml, hn.xml])

theorem has_arrow {cfg : EmitCfg} {rel : Rel} {sp : Option MathSpacing × Option MathSpacing} {under : Option Node}
    {over : Node} {u : Option Shape} {s : Shape} (hu : HasOpt cfg under u) (ho : Has cfg over s) :
    Has cfg (arrowNode rel sp under over) (arrowShape rel u s) := by
  have hs : ∀ l, Has cfg (.space l) (.leaf c!"mspace" []) := fun l =>
    has_plain rfl rfl (by simp +decide only [toXml, bare_elem, Xml.bares, Shape.xml, el, txt_nil])
  have hl : ∀ {n x}, Has cfg n x →
      Has cfg (arrowLabel n) (.elem c!"mrow" [.leaf c!"mspace" [], x, .leaf c!"mspace" []]) := fun h =>
    has_row (.cons (hs _) (.cons h (.cons (hs _) .nil)))
  have hop : ∀ a l r, Has cfg (.operator rel.asOp a none l r) (symbolShape rel.asOp) := fun _ _ _ => has_symbol
  have hab : ∀ isOver w {n x}, Has cfg n x → Has cfg (stackNode isOver (.space w) (arrowLabel n)) (labelShape isOver x) :=
    fun isOver w _ _ h => has_stack (hs _) (hl h) isOver
  have ha := hab true (LatexUnit.lengthWithUnit .em (35/10)) ho
  unfold arrowNode arrowShape
  refine has_row (.cons (hs _) (.cons ?_ (.cons (hs _) .nil)))
  cases under with
  | none =>
    cases u with
    | some _ => exact False.elim hu
    | none => exact has_stack ha (hop _ _ _) true
  | some n =>
    cases u with
    | none => exact False.elim hu
    | some x =>
      have hb := hab false (LatexUnit.lengthWithUnit .em (35/10)) (n := n) (x := x) hu
      exact has_plain rfl rfl (by
        rw [toXml, bare_el]
        simp only [Xml.bares, Shape.xml, Shape.xmls]
        rw [(hop _ _ _).xml]
        have ha : (toXml cfg (.over (.space (LatexUnit.lengthWithUnit .em (35/10))) (arrowLabel over))).bare = _ := ha.xml
        have hb : (toXml cfg (.under (.space (LatexUnit.lengthWithUnit .em (35/10))) (arrowLabel n))).bare = _ := hb.xml
        rw [ha, hb])

theorem orScripts_none (s : ScriptShapes) : orScripts (none, none) s = s := rfl

theorem orScripts_nil (s : ScriptShapes) : orScripts s (none, none) = s := by
  obtain ⟨a, b⟩ := s
  cases a <;> cases b <;> rfl

theorem orScripts_sub {ss t : ScriptShapes} {x : Shape} (h : ss.1 = none) :
    orScripts (some x, ss.2) t = orScripts ss (some x, t.2) := by
  obtain ⟨a, b⟩ := ss
  cases h
  rfl

theorem orScripts_sup {ss t : ScriptShapes} {x : Shape} (h : ss.2 = none) :
    orScripts (ss.1, some x) t = orScripts ss (t.1, some x) := by
  obtain ⟨a, b⟩ := ss
  cases h
  rfl

set_option maxHeartbeats 1000000 in
mutual
theorem shape_form (cfg : EmitCfg) : ∀ (f : Form) (sep : Bool), f.tame sep = true → f.unbroken = true →
    ∀ (l : Loc) (prev nxt : Class) (ns : List Node) (l' : Loc), (sep = true → Loc.rows l = true) →
    f.denote l prev nxt = .ok (ns, l') → HasPieces cfg ns (f.pieces cfg.labelMap) ∧ Loc.rows l' = Loc.rows l
  | .nil, sep, _, _, l, prev, nxt, ns, l', _, hd => by
    simp only [Form.denote] at hd
    cases hd
    exact ⟨.nil, rfl⟩
  | .item b s rest, sep, h, hn, l, prev, nxt, ns, l', hr, hd => by
    simp only [Form.tame, Bool.and_eq_true] at h
    simp only [Form.unbroken, Bool.and_eq_true] at hn
    simp only [Form.denote] at hd
    obtain ⟨⟨r1, l1⟩, hd1, hd⟩ := except_bind_ok hd
    obtain ⟨⟨r2, l2⟩, hd2, hd⟩ := except_bind_ok hd
    obtain ⟨⟨r3, l3⟩, hd3, hd⟩ := except_bind_ok hd
    cases hd
    obtain ⟨g1, e1⟩ := shape_base cfg b h.1.1 hn.1.1 _ _ _ _ _ hd1
    obtain ⟨g2, e2⟩ := shape_scripts cfg s h.1.2 hn.1.2 _ _ _ _ _ hasBounds_empty hd2
    obtain ⟨g3, e3⟩ := shape_form cfg rest sep h.2 hn.2 _ _ _ _ _ (by rw [e2, e1]; exact hr) hd3
    simp only [Form.pieces]
    exact ⟨.shape (has_scripts g1 g2) g3, by rw [e3, e2, e1]⟩
  | .bigOp o s rest, sep, h, hn, l, prev, nxt, ns, l', hr, hd => by
    simp only [Form.tame, Bool.and_eq_true] at h
    simp only [Form.unbroken, Bool.and_eq_true] at hn
    simp only [Form.denote] at hd
    simp only [Form.pieces]
    split at hd
    · rename_i hc
      obtain ⟨⟨r2, l2⟩, hd2, hd⟩ := except_bind_ok hd
      obtain ⟨⟨r3, l3⟩, hd3, hd⟩ := except_bind_ok hd
      cases hd
      obtain ⟨g2, e2⟩ := shape_scripts cfg s h.1 hn.1 _ _ _ _ _ hasBounds_empty hd2
      obtain ⟨g3, e3⟩ := shape_form cfg rest sep h.2 hn.2 _ _ _ _ _ (by rw [e2]; exact hr) hd3
      refine ⟨.shape ?_ g3, by rw [e3, e2]⟩
      rw [if_neg (by simp [hc])]
      exact has_scripts has_symbol g2
    · rename_i hc
      obtain ⟨⟨r2, l2⟩, hd2, hd⟩ := except_bind_ok hd
      obtain ⟨⟨r3, l3⟩, hd3, hd⟩ := except_bind_ok hd
      cases hd
      obtain ⟨g2, e2⟩ := shape_scripts cfg s h.1 hn.1 _ _ _ _ _ hasBounds_empty hd2
      obtain ⟨g3, e3⟩ := shape_form cfg rest sep h.2 hn.2 _ _ _ _ _ (by rw [e2]; exact hr) hd3
      refine ⟨.shape ?_ g3, by rw [e3, e2]⟩
      unfold opNode
      cases hj : limitsSet o.lim (o.op.cat = .J) with
      | true => rw [if_pos rfl, if_pos (by simpa using hc)]; exact has_limits has_symbol g2
      | false => rw [if_neg (by simp), if_neg (by simp)]; exact has_scripts has_symbol g2
  | .func name lim s rest, sep, h, hn, l, prev, nxt, ns, l', hr, hd => by
    simp only [Form.tame, Bool.and_eq_true] at h
    simp only [Form.unbroken, Bool.and_eq_true] at hn
    simp only [Form.denote] at hd
    simp only [Form.pieces]
    obtain ⟨⟨r2, l2⟩, hd2, hd⟩ := except_bind_ok hd
    obtain ⟨⟨r3, l3⟩, hd3, hd⟩ := except_bind_ok hd
    cases hd
    obtain ⟨g2, e2⟩ := shape_scripts cfg s h.1.2 hn.1 _ _ _ _ _ hasBounds_empty hd2
    obtain ⟨g3, e3⟩ := shape_form cfg rest sep h.2 hn.2 _ _ _ _ _ (by rw [e2]; exact hr) hd3
    refine ⟨.shape ?_ g3, by rw [e3, e2]⟩
    unfold opNode
    cases limitsSet name.lim lim
    · exact has_scripts (has_func _) g2
    · exact has_limits (has_func _) g2
  | .amp rest, sep, h, hn, l, prev, nxt, ns, l', hr, hd => by
    simp only [Form.tame, Bool.and_eq_true] at h
    simp only [Form.unbroken] at hn
    simp only [Form.denote] at hd
    simp only [Form.pieces]
    split at hd
    · obtain ⟨⟨r3, l3⟩, hd3, hd⟩ := except_bind_ok hd
      cases hd
      obtain ⟨g3, e3⟩ := shape_form cfg rest sep h.2 hn _ _ _ _ _ hr hd3
      exact ⟨.cell g3, e3⟩
    · cases hd
  | .newLine line rest, sep, h, hn, l, prev, nxt, ns, l', hr, hd => by
    simp only [Form.tame, Bool.and_eq_true] at h
    simp only [Form.unbroken] at hn
    simp only [Form.denote] at hd
    simp only [Form.pieces]
    obtain ⟨⟨r2, l2⟩, hd2, hd⟩ := except_bind_ok hd
    obtain ⟨⟨r3, l3⟩, hd3, hd⟩ := except_bind_ok hd
    cases hd
    obtain ⟨e2, g2⟩ := lineBreak_rows (nextRow_ok hd2)
    obtain ⟨i, g2⟩ := g2 (hr h.1)
    obtain ⟨g3, e3⟩ := shape_form cfg rest sep h.2 hn _ _ _ _ _ (by rw [e2]; exact hr) hd3
    rw [g2]
    exact ⟨.row g3, by rw [e3, e2]⟩
  | .call _ _ _ cont, sep, h, hn, l, prev, nxt, ns, l', hr, hd => by
    simp only [Form.tame] at h
    simp only [Form.unbroken] at hn
    simp only [Form.denote] at hd
    simp only [Form.pieces]
    obtain ⟨l1, hx, hd⟩ := except_bind_ok hd
    obtain ⟨g, e⟩ := shape_form cfg cont sep h hn _ _ _ _ _ (by rw [expandOne_rows hx]; exact hr) hd
    exact ⟨g, by rw [e, expandOne_rows hx]⟩
  | .emptyCall _ _ s rest, sep, h, hn, l, prev, nxt, ns, l', hr, hd => by
    simp only [Form.tame, Bool.and_eq_true] at h
    simp only [Form.unbroken, Bool.and_eq_true] at hn
    simp only [Form.denote] at hd
    simp only [Form.pieces]
    obtain ⟨l1, hx, hd⟩ := except_bind_ok hd
    obtain ⟨⟨r2, l2⟩, hd2, hd⟩ := except_bind_ok hd
    obtain ⟨⟨r3, l3⟩, hd3, hd⟩ := except_bind_ok hd
    cases hd
    obtain ⟨g2, e2⟩ := shape_scripts cfg s h.1 hn.1 _ _ _ _ _ hasBounds_empty hd2
    obtain ⟨g3, e3⟩ := shape_form cfg rest sep h.2 hn.2 _ _ _ _ _ (by rw [e2, expandOne_rows hx]; exact hr) hd3
    exact ⟨.shape (has_scripts has_nothing g2) g3, by rw [e3, e2, expandOne_rows hx]⟩
  | .noNumber rest, sep, h, hn, l, prev, nxt, ns, l', hr, hd => by
    simp only [Form.tame] at h
    simp only [Form.unbroken] at hn
    simp only [Form.denote] at hd
    simp only [Form.pieces]
    exact shape_form cfg rest sep h hn (suppressNumber l) _ _ _ _ hr hd
  | .tag paren text rest, sep, h, hn, l, prev, nxt, ns, l', hr, hd => by
    simp only [Form.tame] at h
    simp only [Form.unbroken] at hn
    simp only [Form.denote] at hd
    simp only [Form.pieces]
    obtain ⟨l1, hx, hd⟩ := except_bind_ok hd
    obtain ⟨g, e⟩ := shape_form cfg rest sep h hn _ _ _ _ _ (by rw [putTag_rows hx]; exact hr) hd
    exact ⟨g, by rw [e, putTag_rows hx]⟩
  | .label text rest, sep, h, hn, l, prev, nxt, ns, l', hr, hd => by
    simp only [Form.tame] at h
    simp only [Form.unbroken] at hn
    simp only [Form.denote] at hd
    simp only [Form.pieces]
    obtain ⟨l1, hx, hd⟩ := except_bind_ok hd
    obtain ⟨g, e⟩ := shape_form cfg rest sep h hn _ _ _ _ _ (by rw [putLabel_rows hx]; exact hr) hd
    exact ⟨g, by rw [e, putLabel_rows hx]⟩
  | .style st rest, sep, h, hn, l, prev, nxt, ns, l', hr, hd => by
    simp only [Form.tame] at h
    simp only [Form.unbroken] at hn
    simp only [Form.denote] at hd
    simp only [Form.pieces]
    obtain ⟨⟨r1, l1⟩, hd1, hd⟩ := except_bind_ok hd
    cases hd
    obtain ⟨g, e⟩ := shape_form cfg rest false h hn _ _ _ _ _ nofun hd1
    refine ⟨.shape ?_ .nil, e⟩
    have hx := all_xmls (pieces_all g (tame_onlyShapes _ _ h))
    refine has_plain ?_ rfl (by rw [toXml, bare_elem _ _ _ (by decide), hx, Shape.xml])
    cases r1 <;> rfl
  | .color name rest, sep, h, hn, l, prev, nxt, ns, l', hr, hd => by
    simp only [Form.tame] at h
    simp only [Form.unbroken] at hn
    simp only [Form.denote] at hd
    simp only [Form.pieces]
    obtain ⟨c, -, hd⟩ := except_bind_ok hd
    obtain ⟨⟨r1, l1⟩, hd1, hd⟩ := except_bind_ok hd
    cases hd
    obtain ⟨g, e⟩ := shape_form cfg rest false h hn _ _ _ _ _ nofun hd1
    refine ⟨.shape ?_ .nil, e⟩
    have hx := all_xmls (pieces_all g (tame_onlyShapes _ _ h))
    refine has_plain ?_ rfl (by rw [toXml, bare_elem _ _ _ (by decide), hx, Shape.xml])
    cases r1 <;> rfl

theorem shape_base (cfg : EmitCfg) : ∀ (b : Base), b.tame = true → b.unbroken = true →
    ∀ (l : Loc) (prev nxt : Class) (r : Class × Node) (l' : Loc),
    b.denote l prev nxt = .ok (r, l') → Has cfg r.2 (b.shape cfg.labelMap) ∧ Loc.rows l' = Loc.rows l
  | .atom t, _, _, l, prev, nxt, r, l', hd => by
    simp only [Base.denote] at hd
    cases hd
    simp only [Base.shape]
    exact ⟨has_atom .., trivial⟩
  | .number d more, _, _, l, prev, nxt, r, l', hd => by
    simp only [Base.denote] at hd
    cases hd
    simp only [Base.shape]
    exact ⟨has_plain rfl rfl (by simp only [toXml, bare_el, bares_txt, Shape.xml]), trivial⟩
  | .group f, h, hn, l, prev, nxt, r, l', hd => by
    simp only [Base.tame] at h
    simp only [Base.unbroken] at hn
    simp only [Base.denote] at hd
    simp only [Base.shape]
    obtain ⟨⟨r1, l1⟩, hd1, hd⟩ := except_bind_ok hd
    cases hd
    obtain ⟨g, e⟩ := shape_form cfg f false h hn _ _ _ _ _ nofun hd1
    exact ⟨has_vec (pieces_all g (tame_onlyShapes _ _ h)) _, e⟩
  | .frac attr isBinom num den, h, hn, l, prev, nxt, r, l', hd => by
    simp only [Base.tame, Bool.and_eq_true] at h
    simp only [Base.unbroken, Bool.and_eq_true] at hn
    simp only [Base.denote] at hd
    simp only [Base.shape]
    obtain ⟨⟨r1, l1⟩, hd1, hd⟩ := except_bind_ok hd
    obtain ⟨⟨r2, l2⟩, hd2, hd⟩ := except_bind_ok hd
    cases hd
    obtain ⟨g1, e1⟩ := shape_arg cfg num h.1 hn.1 _ _ _ _ hd1
    obtain ⟨g2, e2⟩ := shape_arg cfg den h.2 hn.2 _ _ _ _ hd2
    have hf : ∀ v u, Has cfg (.frac r1 r2 v u attr)
        (.elem c!"mfrac" [num.shape cfg.labelMap, den.shape cfg.labelMap]) := fun v u =>
      has_plain rfl rfl (by simp +decide only [toXml, bare_elem, Xml.bares, Shape.xml, Shape.xmls, g1.xml, g2.xml])
    refine ⟨?_, e2.trans e1⟩
    dsimp only
    cases isBinom
    · exact hf _ _
    · exact has_fenced (.cons (hf _ _) .nil) (some openParen) (some closeParen) none
  | .genfrac x num den, h, hn, l, prev, nxt, r, l', hd => by
    simp only [Base.tame, Bool.and_eq_true] at h
    simp only [Base.unbroken, Bool.and_eq_true] at hn
    simp only [Base.denote] at hd
    simp only [Base.shape]
    obtain ⟨o, ho, hd⟩ := except_bind_ok hd
    obtain ⟨c, hc, hd⟩ := except_bind_ok hd
    obtain ⟨lt, -, hd⟩ := except_bind_ok hd
    obtain ⟨style, -, hd⟩ := except_bind_ok hd
    obtain ⟨⟨r1, l1⟩, hd1, hd⟩ := except_bind_ok hd
    obtain ⟨⟨r2, l2⟩, hd2, hd⟩ := except_bind_ok hd
    cases hd
    obtain ⟨g1, e1⟩ := shape_arg cfg num h.1 hn.1 _ _ _ _ hd1
    obtain ⟨g2, e2⟩ := shape_arg cfg den h.2 hn.2 _ _ _ _ hd2
    have hf : ∀ v u, Has cfg (.frac r1 r2 v u none)
        (.elem c!"mfrac" [num.shape cfg.labelMap, den.shape cfg.labelMap]) := fun v u =>
      has_plain rfl rfl (by simp +decide only [toXml, bare_elem, Xml.bares, Shape.xml, Shape.xmls, g1.xml, g2.xml])
    unfold Shape.between
    rw [← genDelim_token ho, ← genDelim_token hc]
    exact ⟨has_fenced (.cons (hf _ _) .nil) _ _ _, e2.trans e1⟩
  | .stackTok isOver symbol t, h, hn, l, prev, nxt, r, l', hd => by
    simp only [Base.tame] at h
    simp only [Base.unbroken] at hn
    simp only [Base.denote] at hd
    simp only [Base.shape]
    obtain ⟨⟨r1, l1⟩, hd1, hd⟩ := except_bind_ok hd
    cases hd
    obtain ⟨g1, e1⟩ := shape_arg cfg symbol h hn _ _ _ _ hd1
    exact ⟨has_stack g1 (has_alone _ _ _ _) _, e1⟩
  | .stackGroup isOver symbol f, h, hn, l, prev, nxt, r, l', hd => by
    simp only [Base.tame, Bool.and_eq_true] at h
    simp only [Base.unbroken, Bool.and_eq_true] at hn
    simp only [Base.denote] at hd
    simp only [Base.shape]
    obtain ⟨⟨r1, l1⟩, hd1, hd⟩ := except_bind_ok hd
    obtain ⟨⟨r2, l2⟩, hd2, hd⟩ := except_bind_ok hd
    cases hd
    obtain ⟨g1, e1⟩ := shape_arg cfg symbol h.1 hn.1 _ _ _ _ hd1
    obtain ⟨g2, e2⟩ := shape_form cfg f false h.2 hn.2 _ _ _ _ _ nofun hd2
    exact ⟨has_stack g1 (has_vec (pieces_all g2 (tame_onlyShapes _ _ h.2)) _) _, e2.trans e1⟩
  | .arrow rel over, h, hn, l, prev, nxt, r, l', hd => by
    simp only [Base.tame] at h
    simp only [Base.unbroken] at hn
    simp only [Base.denote] at hd
    simp only [Base.shape]
    obtain ⟨⟨r1, l1⟩, hd1, hd⟩ := except_bind_ok hd
    cases hd
    obtain ⟨g1, e1⟩ := shape_arg cfg over h hn _ _ _ _ hd1
    exact ⟨has_arrow (under := none) (u := none) trivial g1, e1⟩
  | .arrowUnder rel under over, h, hn, l, prev, nxt, r, l', hd => by
    simp only [Base.tame, Bool.and_eq_true] at h
    simp only [Base.unbroken, Bool.and_eq_true] at hn
    simp only [Base.denote] at hd
    simp only [Base.shape]
    obtain ⟨⟨r1, l1⟩, hd1, hd⟩ := except_bind_ok hd
    obtain ⟨⟨r2, l2⟩, hd2, hd⟩ := except_bind_ok hd
    cases hd
    obtain ⟨g1, e1⟩ := shape_form cfg under false h.1 hn.1 _ _ _ _ _ nofun hd1
    obtain ⟨g2, e2⟩ := shape_arg cfg over h.2 hn.2 _ _ _ _ hd2
    have g1 := has_vec (pieces_all g1 (tame_onlyShapes _ _ h.1)) false
    exact ⟨has_arrow (under := some _) (u := some _) g1 g2, e2.trans e1⟩
  | .cramped st f, h, hn, l, prev, nxt, r, l', hd => by
    simp only [Base.tame] at h
    simp only [Base.unbroken] at hn
    simp only [Base.denote] at hd
    simp only [Base.shape]
    obtain ⟨⟨r1, l1⟩, hd1, hd⟩ := except_bind_ok hd
    cases hd
    obtain ⟨g, e⟩ := shape_form cfg f false h hn _ _ _ _ _ nofun hd1
    exact ⟨has_row (.cons (has_vec (pieces_all g (tame_onlyShapes _ _ h)) _) .nil), e⟩
  | .sqrt a, h, hn, l, prev, nxt, r, l', hd => by
    simp only [Base.tame] at h
    simp only [Base.unbroken] at hn
    simp only [Base.denote] at hd
    simp only [Base.shape]
    obtain ⟨⟨r1, l1⟩, hd1, hd⟩ := except_bind_ok hd
    cases hd
    obtain ⟨g, e⟩ := shape_arg cfg a h hn _ _ _ _ hd1
    exact ⟨has_plain rfl rfl (by simp only [toXml, bare_el, Xml.bares, Shape.xml, Shape.xmls, g.xml]), e⟩
  | .root degree a, h, hn, l, prev, nxt, r, l', hd => by
    simp only [Base.tame, Bool.and_eq_true] at h
    simp only [Base.unbroken, Bool.and_eq_true] at hn
    simp only [Base.denote] at hd
    simp only [Base.shape]
    obtain ⟨⟨r1, l1⟩, hd1, hd⟩ := except_bind_ok hd
    obtain ⟨⟨r2, l2⟩, hd2, hd⟩ := except_bind_ok hd
    cases hd
    obtain ⟨g1, e1⟩ := shape_form cfg degree false h.1 hn.1 _ _ _ _ _ nofun hd1
    obtain ⟨g2, e2⟩ := shape_arg cfg a h.2 hn.2 _ _ _ _ hd2
    have g1 := has_vec (pieces_all g1 (tame_onlyShapes _ _ h.1)) true
    exact ⟨has_plain rfl rfl (by simp only [toXml, bare_el, Xml.bares, Shape.xml, Shape.xmls, g1.xml, g2.xml]), e2.trans e1⟩
  | .deco d a, h, hn, l, prev, nxt, r, l', hd => by
    simp only [Base.tame] at h
    simp only [Base.unbroken] at hn
    simp only [Base.denote] at hd
    simp only [Base.shape]
    obtain ⟨⟨r1, l1⟩, hd1, hd⟩ := except_bind_ok hd
    cases hd
    obtain ⟨g, e⟩ := shape_arg cfg a h hn _ _ _ _ hd1
    exact ⟨has_deco g d, e⟩
  | .brace x isOver a, h, hn, l, prev, nxt, r, l', hd => by
    simp only [Base.tame] at h
    simp only [Base.unbroken] at hn
    simp only [Base.denote] at hd
    simp only [Base.shape]
    obtain ⟨⟨r1, l1⟩, hd1, hd⟩ := except_bind_ok hd
    cases hd
    obtain ⟨g, e⟩ := shape_arg cfg a h hn _ _ _ _ hd1
    exact ⟨has_accent g isOver _ _, e⟩
  | .braceLabel x isOver a b, h, hn, l, prev, nxt, r, l', hd => by
    simp only [Base.tame, Bool.and_eq_true] at h
    simp only [Base.unbroken, Bool.and_eq_true] at hn
    simp only [Base.denote] at hd
    simp only [Base.shape]
    obtain ⟨⟨r1, l1⟩, hd1, hd⟩ := except_bind_ok hd
    obtain ⟨⟨r2, l2⟩, hd2, hd⟩ := except_bind_ok hd
    cases hd
    obtain ⟨g1, e1⟩ := shape_arg cfg a h.1 hn.1 _ _ _ _ hd1
    obtain ⟨g2, e2⟩ := shape_arg cfg b h.2 hn.2 _ _ _ _ hd2
    have g1 : Has cfg (braceNode x isOver r1) _ := has_accent g1 isOver x.asOp .empty
    refine ⟨?_, e2.trans e1⟩
    cases isOver <;> exact has_plain rfl rfl (by
      simp [toXml, bare_el, Xml.bares, Shape.xml, Shape.xmls, g1.xml, g2.xml])
  | .prescript sup sub a, h, hn, l, prev, nxt, r, l', hd => by
    simp only [Base.tame, Bool.and_eq_true] at h
    simp only [Base.unbroken, Bool.and_eq_true] at hn
    simp only [Base.denote] at hd
    simp only [Base.shape]
    obtain ⟨⟨r1, l1⟩, hd1, hd⟩ := except_bind_ok hd
    obtain ⟨⟨r2, l2⟩, hd2, hd⟩ := except_bind_ok hd
    obtain ⟨⟨r3, l3⟩, hd3, hd⟩ := except_bind_ok hd
    cases hd
    obtain ⟨g1, e1⟩ := shape_arg cfg sup h.1.1 hn.1.1 _ _ _ _ hd1
    obtain ⟨g2, e2⟩ := shape_arg cfg sub h.1.2 hn.1.2 _ _ _ _ hd2
    obtain ⟨g3, e3⟩ := shape_arg cfg a h.2 hn.2 _ _ _ _ hd3
    refine ⟨⟨?_, rfl, rfl, ⟨_, _, _, rfl, g3.xml, g2.xml, g1.xml⟩, rfl⟩, (e3.trans e2).trans e1⟩
    simp [toXml, toXmlPairs, bare_el, Xml.bares, Shape.xml, g1.xml, g2.xml, g3.xml]
  | .leaf x, h, hn, l, prev, nxt, r, l', hd => by
    simp only [Base.denote] at hd
    simp only [Base.shape]
    obtain ⟨r1, hd1, hd⟩ := except_bind_ok hd
    cases hd
    exact ⟨has_leaf hd1, rfl⟩
  | .mathClass kind b, h, hn, l, prev, nxt, r, l', hd => by
    simp only [Base.tame, Bool.and_eq_true] at h
    simp only [Base.unbroken] at hn
    simp only [Base.denote] at hd
    simp only [Base.shape]
    obtain ⟨⟨r1, l1⟩, hd1, hd⟩ := except_bind_ok hd
    cases hd
    obtain ⟨g, e⟩ := shape_base cfg b h.1 hn _ _ _ _ _ hd1
    exact ⟨has_class g _ _, e⟩
  | .overlay o b, h, hn, l, prev, nxt, r, l', hd => by
    simp only [Base.tame] at h
    simp only [Base.unbroken] at hn
    simp only [Base.denote] at hd
    simp only [Base.shape]
    obtain ⟨⟨r1, l1⟩, hd1, hd⟩ := except_bind_ok hd
    obtain ⟨n, hs, hd⟩ := except_bind_ok hd
    cases hd
    obtain ⟨g, e⟩ := shape_base cfg b h hn _ _ _ _ _ hd1
    exact ⟨has_struck g hs, e⟩
  | .fence lt rt f, h, hn, l, prev, nxt, r, l', hd => by
    simp only [Base.tame] at h
    simp only [Base.unbroken] at hn
    simp only [Base.denote] at hd
    simp only [Base.shape]
    obtain ⟨o, ho, hd⟩ := except_bind_ok hd
    obtain ⟨⟨r1, l1⟩, hd1, hd⟩ := except_bind_ok hd
    obtain ⟨c, hc, hd⟩ := except_bind_ok hd
    cases hd
    obtain ⟨g, e⟩ := shape_form cfg f false h hn _ _ _ _ _ nofun hd1
    rw [← fenceDelim_token ho, ← fenceDelim_token hc]
    exact ⟨has_fenced (pieces_all g (tame_onlyShapes _ _ h)) _ _ _, e⟩
  | .env e e' o f, h, hn, l, prev, nxt, r, l', hd => by
    simp only [Base.tame] at h
    simp only [Base.unbroken, Bool.and_eq_true] at hn
    simp only [Base.denote] at hd
    simp only [Base.shape]
    obtain ⟨spec, hs, hd⟩ := except_bind_ok hd
    obtain ⟨⟨r1, l1⟩, hd1, hd⟩ := except_bind_ok hd
    have ht : f.tame (envRows e) = true := by
      cases he : envRows e with
      | true => exact h
      | false =>
        have := hn.1
        rw [he, Bool.false_or] at this
        exact this
    obtain ⟨g, -⟩ := shape_form cfg f (envRows e) ht hn.2 _ _ _ _ _ (fun he => by
      show (envState e).meaningfulNewlines = true
      exact he) hd1
    unfold endEnv at hd
    split at hd
    · cases hd
    · dsimp only at hd
      split at hd
      · split at hd
        · cases hd; exact ⟨has_construct g hs ‹_›, rfl⟩
        · cases hd
      · obtain ⟨⟨i, n', l4⟩, h4, hd⟩ := except_bind_ok hd
        split at hd
        · cases hd
          have he := endRow_env h4
          exact ⟨has_construct g hs ‹_›, congrArg EnvState.meaningfulNewlines he⟩
        · cases hd

theorem shape_arg (cfg : EmitCfg) : ∀ (a : Arg), a.tame = true → a.unbroken = true →
    ∀ (reset : Bool) (l : Loc) (r : Node) (l' : Loc),
    a.denote reset l = .ok (r, l') → Has cfg r (a.shape cfg.labelMap) ∧ Loc.rows l' = Loc.rows l
  | .tok t, _, _, reset, l, r, l', hd => by
    simp only [Arg.denote] at hd
    simp only [Arg.shape, aloneShape]
    split at hd
    · rename_i c ht
      cases hd
      rw [ht]
      exact ⟨has_plain rfl rfl (by simp only [toXml, bare_el, bares_txt, Shape.xml]), rfl⟩
    · rename_i ht
      cases hd
      refine ⟨?_, rfl⟩
      split
      · exact absurd ‹_› (ht _)
      · exact has_atom ..
  | .braces f, h, hn, reset, l, r, l', hd => by
    simp only [Arg.tame] at h
    simp only [Arg.unbroken] at hn
    simp only [Arg.denote] at hd
    simp only [Arg.shape]
    obtain ⟨⟨r1, l1⟩, hd1, hd⟩ := except_bind_ok hd
    cases hd
    obtain ⟨g, e⟩ := shape_form cfg f false h hn _ _ _ _ _ nofun hd1
    exact ⟨has_vec (pieces_all g (tame_onlyShapes _ _ h)) _, e⟩

theorem shape_scripts (cfg : EmitCfg) : ∀ (s : Scripts), s.tame = true → s.unbroken = true →
    ∀ (l : Loc) (b b' : Bounds) (l' : Loc) (ss : ScriptShapes),
    HasBounds cfg b ss → s.denote l b = .ok (b', l') →
      HasBounds cfg b' (orScripts ss (s.shapes cfg.labelMap)) ∧ Loc.rows l' = Loc.rows l
  | .nil, _, _, l, b, b', l', ss, hb, hd => by
    simp only [Scripts.denote] at hd
    cases hd
    simp only [Scripts.shapes, orScripts_nil]
    exact ⟨hb, trivial⟩
  | .sub a s, h, hn, l, b, b', l', ss, hb, hd => by
    simp only [Scripts.tame, Bool.and_eq_true] at h
    simp only [Scripts.unbroken, Bool.and_eq_true] at hn
    simp only [Scripts.denote] at hd
    simp only [Scripts.shapes]
    obtain ⟨⟨r1, l1⟩, hd1, hd⟩ := except_bind_ok hd
    obtain ⟨b2, hd2, hd⟩ := except_bind_ok hd
    obtain ⟨g1, e1⟩ := shape_arg cfg a h.1 hn.1 _ _ _ _ hd1
    obtain ⟨h0, hb2⟩ := addSub_has g1 hb hd2
    obtain ⟨g2, e2⟩ := shape_scripts cfg s h.2 hn.2 _ _ _ _ _ hb2 hd
    rw [orScripts_sub h0] at g2
    exact ⟨g2, e2.trans e1⟩
  | .sup a s, h, hn, l, b, b', l', ss, hb, hd => by
    simp only [Scripts.tame, Bool.and_eq_true] at h
    simp only [Scripts.unbroken, Bool.and_eq_true] at hn
    simp only [Scripts.denote] at hd
    simp only [Scripts.shapes]
    obtain ⟨⟨r1, l1⟩, hd1, hd⟩ := except_bind_ok hd
    obtain ⟨b2, hd2, hd⟩ := except_bind_ok hd
    obtain ⟨g1, e1⟩ := shape_arg cfg a h.1 hn.1 _ _ _ _ hd1
    obtain ⟨h0, hb2⟩ := addSup_has g1 hb hd2
    obtain ⟨g2, e2⟩ := shape_scripts cfg s h.2 hn.2 _ _ _ _ _ hb2 hd
    rw [orScripts_sup h0] at g2
    exact ⟨g2, e2.trans e1⟩
  | .primes t ts s, h, hn, l, b, b', l', ss, hb, hd => by
    simp only [Scripts.tame] at h
    simp only [Scripts.unbroken] at hn
    simp only [Scripts.denote] at hd
    simp only [Scripts.shapes]
    obtain ⟨b2, hd2, hd⟩ := except_bind_ok hd
    obtain ⟨h0, hb2⟩ := addSup_has (has_unlessSingle (has_primes _)) hb hd2
    obtain ⟨g2, e2⟩ := shape_scripts cfg s h hn _ _ _ _ _ hb2 hd
    rw [orScripts_sup h0] at g2
    exact ⟨g2, e2⟩
  | .primesSup t ts a s, h, hn, l, b, b', l', ss, hb, hd => by
    simp only [Scripts.tame, Bool.and_eq_true] at h
    simp only [Scripts.unbroken, Bool.and_eq_true] at hn
    simp only [Scripts.denote] at hd
    simp only [Scripts.shapes]
    obtain ⟨⟨r1, l1⟩, hd1, hd⟩ := except_bind_ok hd
    obtain ⟨b2, hd2, hd⟩ := except_bind_ok hd
    obtain ⟨g1, e1⟩ := shape_arg cfg a h.1 hn.1 _ _ _ _ hd1
    obtain ⟨h0, hb2⟩ := addSup_has (has_unlessSingle (all_append (has_primes _) (.cons g1 .nil))) hb hd2
    obtain ⟨g2, e2⟩ := shape_scripts cfg s h.2 hn.2 _ _ _ _ _ hb2 hd
    rw [orScripts_sup h0] at g2
    exact ⟨g2, e2.trans e1⟩
end

end Verif

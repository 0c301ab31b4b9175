import Verif.Model.Ast
import Verif.Model.Token
import Verif.Model.Symbols
import Verif.Model.CustomCmds
/-! Model of the delimiters of crates/math-core/src/character_class.rs, of
crates/math-core/src/environments.rs and of crates/math-core/src/color_defs.rs. -/
namespace Verif.Model

/-- character_class.rs:52-62 -/
inductive Stretchy | always | prePostfix | never | alwaysAsymmetric
  deriving DecidableEq, Repr

/-- character_class.rs:65-76 -/
inductive DelimiterSpacing | zero | infixRelation | relation | other
  deriving DecidableEq, Repr

/-- character_class.rs:84-88 -/
structure StretchableOp where
  op : MathMLOperator
  stretchy : Stretchy
  spacing : DelimiterSpacing
  deriving DecidableEq, Repr

/-- character_class.rs:97-120 `from_ord` -/
def StretchableOp.fromOrd (ord : OrdLike) : Option StretchableOp :=
  match ord.cat with
  | .F | .G | .FG => some ⟨ord.asOp, .always, .zero⟩
  | .FGandForceDefault => some ⟨ord.asOp, .prePostfix, .infixRelation⟩
  | .K => some ⟨ord.asOp, .never, .zero⟩
  | .KButUsedToBeB => some ⟨ord.asOp, .never, .other⟩
  | .D | .E | .DE | .I | .IK => none

/-- character_class.rs:124-133 `from_rel` -/
def StretchableOp.fromRel (rel : Rel) : Option StretchableOp :=
  match rel.cat with
  | .A => some ⟨rel.asOp, .alwaysAsymmetric, .relation⟩
  | .default | .DandForceDefault => none

/-- character_class.rs:137-151 `from_force_stretchy` -/
def StretchableOp.fromForceStretchy (op : MathMLOperator) (stretch : ForceStretchy) : Option StretchableOp :=
  match stretch with
  | .yes => some ⟨op, .never, .zero⟩
  | .pretend => some ⟨op, .always, .zero⟩
  | .no => none

/-- character_class.rs:163-198 `to_operator` -/
def delimOperator : Option StretchableOp → Node
  | some op =>
    let attrs := if op.stretchy = .never then OpAttrs.stretchyTrue else OpAttrs.empty
    let spacing := if op.spacing = .relation ∨ op.spacing = .other then some MathSpacing.zero else none
    .operator op.op attrs none spacing spacing
  | none => .operator Sym.INVISIBLE_SEPARATOR.asOp OpAttrs.empty none none none

/-- character_class.rs:156-209 `fenced` -/
def fenced (content : List Node) (opening closing : Option StretchableOp) (style : Option Style) : Node :=
  .row (delimOperator opening :: content ++ [delimOperator closing]) { style }

/-- environments.rs:66 -/
def openParen : StretchableOp := ⟨Sym.LEFT_PARENTHESIS.asOp, .always, .zero⟩
/-- environments.rs:67 -/
def closeParen : StretchableOp := ⟨Sym.RIGHT_PARENTHESIS.asOp, .always, .zero⟩
/-- environments.rs:68-69 -/
def openBracket : StretchableOp := ⟨Sym.LEFT_SQUARE_BRACKET.asOp, .always, .zero⟩
/-- environments.rs:70-71 -/
def closeBracket : StretchableOp := ⟨Sym.RIGHT_SQUARE_BRACKET.asOp, .always, .zero⟩
/-- environments.rs:72 -/
def openBrace : StretchableOp := ⟨Sym.LEFT_CURLY_BRACKET.asOp, .always, .zero⟩
/-- environments.rs:73-74 -/
def closeBrace : StretchableOp := ⟨Sym.RIGHT_CURLY_BRACKET.asOp, .always, .zero⟩
/-- environments.rs:279-280 -/
def lineDelim : StretchableOp := ⟨Sym.VERTICAL_LINE.asOp, .prePostfix, .infixRelation⟩
/-- environments.rs:284-285 -/
def doubleLineDelim : StretchableOp := ⟨Sym.DOUBLE_VERTICAL_LINE.asOp, .prePostfix, .infixRelation⟩

/-- The `unwrap()`s of environments.rs:66-74 and 279-285 succeed. -/
example : StretchableOp.fromOrd Sym.LEFT_PARENTHESIS = some openParen ∧
    StretchableOp.fromOrd Sym.RIGHT_PARENTHESIS = some closeParen ∧
    StretchableOp.fromOrd Sym.LEFT_SQUARE_BRACKET = some openBracket ∧
    StretchableOp.fromOrd Sym.RIGHT_SQUARE_BRACKET = some closeBracket ∧
    StretchableOp.fromOrd Sym.LEFT_CURLY_BRACKET = some openBrace ∧
    StretchableOp.fromOrd Sym.RIGHT_CURLY_BRACKET = some closeBrace ∧
    StretchableOp.fromOrd Sym.VERTICAL_LINE = some lineDelim ∧
    StretchableOp.fromOrd Sym.DOUBLE_VERTICAL_LINE = some doubleLineDelim := by decide

/-- environments.rs:329-335 -/
inductive NumberingMode | noneByDefault | allByDefault | onlyLast
  deriving DecidableEq, Repr

/-- environments.rs:338-344 -/
structure NumberedEnvState where
  mode : NumberingMode := .noneByDefault
  suppressNextNumber : Bool := false
  customNextTag : Option EquationTag := none
  label : Option Str := none
  numRows : Option Nat := none
  deriving DecidableEq, Repr

/-- environments.rs:315-326 -/
structure EnvState where
  allowColumns : Bool := false
  meaningfulNewlines : Bool := false
  allowHlines : Bool := false
  numbered : Option NumberedEnvState := none
  deriving DecidableEq, Repr

/-- The largest value of a `usize` (on a 64-bit machine) -/
def usizeMax : Nat := 2 ^ 64 - 1

/-- environments.rs:347-376 `next_equation_tag`: the result (`none` for `Err(())`), the new state
and the new counter. -/
def NumberedEnvState.nextEquationTag (n : NumberedEnvState) (counter : Nat) (isLast : Bool) :
    Option (Option EquationTag) × NumberedEnvState × Nat :=
  if n.mode = .onlyLast ∧ isLast = false then (some none, n, counter)
  else match n.customNextTag with
    | some tag => (some (some tag), { n with customNextTag := none }, counter)
    | none =>
      if n.suppressNextNumber = true ∨ n.mode = .noneByDefault then
        (some none, { n with suppressNextNumber := false }, counter)
      else if counter < usizeMax then
        (some (some ⟨Nat.toDigits 10 (counter + 1), true⟩), n, counter + 1)
      else (none, n, counter)

namespace Env

/-- environments.rs:89-99 -/
def allowsColumns : Env → Bool
  | .equation | .equationStar | .gather | .gatherStar | .gathered | .multLine => false
  | _ => true

/-- environments.rs:104-117 -/
def allowsHlines : Env → Bool
  | .array | .dArray | .subarray | .matrix | .pMatrix | .bMatrix | .Bmatrix | .vMatrix | .Vmatrix => true
  | _ => false

/-- environments.rs:120-147 -/
def getNumberedEnvState : Env → Option NumberedEnvState
  | .align | .equation | .gather => some { mode := .allByDefault }
  | .multLine => some { mode := .onlyLast, numRows := some 1 }
  | .alignStar | .equationStar | .gatherStar => some { mode := .noneByDefault }
  | _ => none

/-- environments.rs:149-156 -/
def newState (e : Env) : EnvState where
  allowColumns := e.allowsColumns
  meaningfulNewlines := match e with
    | .equation | .equationStar => false
    | _ => true
  allowHlines := e.allowsHlines
  numbered := e.getNumberedEnvState

/-- environments.rs:158-168 -/
def style : Env → Style
  | .dArray | .align | .alignStar | .aligned | .equation | .equationStar | .gather | .gatherStar
  | .gathered | .multLine | .dCases | .drCases => .display
  | .subarray => .script
  | _ => .text

/-- environments.rs:170-313 `construct_node`. `unwrap_unchecked` on a missing column specification
is undefined behaviour in the code; the model has `none` there. -/
def constructNode (e : Env) (content : List Node) (spec : Option ArraySpec) (last : Option RowLabelInfo)
    (numRows : Option Nat) (borderTop : Option LineType) : Option Node :=
  match e with
  | .align | .alignStar => some (.equationArray .alternating last content)
  | .aligned => some (.table .alternating (some .display) none content)
  | .equation | .equationStar | .gather | .gatherStar => some (.equationArray .centered last content)
  | .gathered => some (.table .centered (some .display) none content)
  | .matrix => some (.table .centered (some .text) borderTop content)
  | .multLine => some (.multLine (numRows.getD 1) last content)
  | .cases => some (fenced [.table .cases (some .text) none content] (some openBrace) none none)
  | .rCases => some (fenced [.table .cases (some .text) none content] none (some closeBrace) none)
  | .dCases => some (fenced [.table .cases (some .display) none content] (some openBrace) none none)
  | .drCases => some (fenced [.table .cases (some .display) none content] none (some closeBrace) none)
  | .array => spec.map fun s => .array (some .text) s content
  | .dArray => spec.map fun s => .array (some .display) s content
  | .subarray => spec.map fun s => .array (some .script) s content
  | .pMatrix => some (matrixNode openParen closeParen)
  | .bMatrix => some (matrixNode openBracket closeBracket)
  | .Bmatrix => some (matrixNode openBrace closeBrace)
  | .vMatrix => some (matrixNode lineDelim lineDelim)
  | .Vmatrix => some (matrixNode doubleLineDelim doubleLineDelim)
where
  /-- environments.rs:289-311 -/
  matrixNode (opening closing : StretchableOp) : Node :=
    fenced [.table .centered (some .text) borderTop content] (some opening) (some closing) none

end Env

/-- global_state.rs:7-16 -/
structure GlobalState where
  equationCount : Nat := 0
  labelMap : StrMap Str := []
  customCmds : CustomCmds := {}
  deriving Repr

/-- A colour, three bytes -/
abbrev Rgb := UInt8 × UInt8 × UInt8

/-- color_defs.rs:1-94 `COLORS` -/
def colors : List (Str × Rgb) :=
  [(c!"red", (255, 0, 0)),
   (c!"green", (3, 255, 0)),
   (c!"blue", (0, 0, 255)),
   (c!"cyan", (0, 185, 242)),
   (c!"magenta", (251, 49, 153)),
   (c!"yellow", (255, 235, 61)),
   (c!"black", (0, 0, 0)),
   (c!"gray", (128, 128, 128)),
   (c!"white", (255, 255, 255)),
   (c!"darkgray", (64, 64, 64)),
   (c!"lightgray", (191, 191, 191)),
   (c!"brown", (191, 128, 63)),
   (c!"lime", (191, 255, 4)),
   (c!"olive", (159, 140, 24)),
   (c!"orange", (255, 128, 1)),
   (c!"pink", (255, 191, 191)),
   (c!"purple", (191, 1, 64)),
   (c!"teal", (0, 128, 128)),
   (c!"violet", (128, 0, 128)),
   (c!"Apricot", (255, 184, 130)),
   (c!"Aquamarine", (28, 191, 193)),
   (c!"Bittersweet", (208, 76, 23)),
   (c!"Black", (44, 46, 53)),
   (c!"Blue", (16, 38, 148)),
   (c!"BlueGreen", (20, 188, 188)),
   (c!"BlueViolet", (45, 52, 151)),
   (c!"BrickRed", (196, 49, 25)),
   (c!"Brown", (119, 34, 6)),
   (c!"BurntOrange", (255, 142, 39)),
   (c!"CadetBlue", (99, 114, 157)),
   (c!"CarnationPink", (252, 129, 188)),
   (c!"Cerulean", (0, 173, 231)),
   (c!"CornflowerBlue", (72, 187, 232)),
   (c!"Cyan", (0, 185, 242)),
   (c!"Dandelion", (255, 185, 76)),
   (c!"DarkOrchid", (158, 80, 143)),
   (c!"Emerald", (0, 177, 160)),
   (c!"ForestGreen", (18, 159, 87)),
   (c!"Fuchsia", (131, 55, 148)),
   (c!"Goldenrod", (255, 219, 87)),
   (c!"Gray", (155, 156, 159)),
   (c!"Green", (0, 171, 79)),
   (c!"GreenYellow", (225, 229, 123)),
   (c!"JungleGreen", (0, 177, 157)),
   (c!"Lavender", (253, 160, 204)),
   (c!"LimeGreen", (136, 201, 70)),
   (c!"Magenta", (251, 49, 153)),
   (c!"Mahogany", (180, 50, 30)),
   (c!"Maroon", (186, 49, 50)),
   (c!"Melon", (255, 157, 123)),
   (c!"MidnightBlue", (0, 104, 150)),
   (c!"Mulberry", (168, 62, 158)),
   (c!"NavyBlue", (8, 111, 189)),
   (c!"OliveGreen", (63, 126, 49)),
   (c!"Orange", (255, 124, 55)),
   (c!"OrangeRed", (255, 46, 88)),
   (c!"Orchid", (172, 114, 185)),
   (c!"Peach", (255, 147, 88)),
   (c!"Periwinkle", (106, 122, 191)),
   (c!"PineGreen", (5, 141, 116)),
   (c!"Plum", (135, 41, 150)),
   (c!"ProcessBlue", (0, 187, 242)),
   (c!"Purple", (143, 69, 163)),
   (c!"RawSienna", (158, 60, 14)),
   (c!"Red", (255, 46, 23)),
   (c!"RedOrange", (255, 92, 49)),
   (c!"RedViolet", (168, 44, 114)),
   (c!"Rhodamine", (252, 88, 170)),
   (c!"RoyalBlue", (0, 115, 192)),
   (c!"RoyalPurple", (72, 57, 158)),
   (c!"RubineRed", (253, 48, 136)),
   (c!"Salmon", (255, 144, 138)),
   (c!"SeaGreen", (71, 196, 160)),
   (c!"Sepia", (93, 22, 1)),
   (c!"SkyBlue", (80, 207, 226)),
   (c!"SpringGreen", (196, 220, 110)),
   (c!"Tan", (225, 157, 117)),
   (c!"TealBlue", (17, 184, 184)),
   (c!"Thistle", (222, 132, 191)),
   (c!"Turquoise", (16, 190, 210)),
   (c!"Violet", (61, 60, 159)),
   (c!"VioletRed", (252, 90, 171)),
   (c!"White", (255, 255, 255)),
   (c!"WildStrawberry", (255, 55, 105)),
   (c!"Yellow", (255, 235, 61)),
   (c!"YellowGreen", (146, 208, 116)),
   (c!"YellowOrange", (255, 159, 43))]

/-- color_defs.rs:96-98 -/
def getColor (name : Str) : Option Rgb := colors.lookup name

end Verif.Model

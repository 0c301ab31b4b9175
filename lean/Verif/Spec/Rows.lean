import Verif.Spec.Grammar
import Verif.Spec.Numbering
import Verif.Spec.Emittable
/-! Tables: the rows and cells of the source, and how the rows are numbered. -/
namespace Verif.Spec
open Model

/-! ### Rows and cells of the source -/

/-- What is said in a row about its number -/
structure RowEvents where
  /-- the last `\tag` -/
  tag : Option EquationTag := none
  /-- is there a `\nonumber`? -/
  noNumber : Bool := false
  /-- the `\label` -/
  label : Option Str := none

/-- A row of the source: what is between `&`s, what is said about the number, and the line above the row -/
structure SrcRow where
  cells : List Form
  events : RowEvents
  line : Option LineType := none

/-- The rows of a formula: the first cell of the first row, the other cells and the events of the first row, and the
other rows -/
structure Split where
  cell : Form
  cells : List Form := []
  events : RowEvents := {}
  rows : List SrcRow := []

/-- The first row -/
def Split.row (s : Split) : SrcRow := ⟨s.cell :: s.cells, s.events, none⟩

/-- All rows -/
def Split.all (s : Split) : List SrcRow := s.row :: s.rows

/-- Take a formula apart at `&` and `\\`. -/
def Form.split : Form → Split
  | .nil => { cell := .nil }
  | .item b s rest => { rest.split with cell := .item b s rest.split.cell }
  | .bigOp o s rest => { rest.split with cell := .bigOp o s rest.split.cell }
  | .func x lim s rest => { rest.split with cell := .func x lim s rest.split.cell }
  | .amp rest => { rest.split with cell := .nil, cells := rest.split.cell :: rest.split.cells }
  | .newLine line rest => { cell := .nil, rows := { rest.split.row with line } :: rest.split.rows }
  | .noNumber rest => { rest.split with events := { rest.split.events with noNumber := true } }
  | .tag paren text rest =>
    { rest.split with events :=
      { rest.split.events with tag := rest.split.events.tag.or (some ⟨(plainText text).getD [], paren⟩) } }
  | .label text rest =>
    { rest.split with events := { rest.split.events with label := some ((plainText text).getD []) } }
  | .style s rest => { cell := .style s rest }
  | .color name rest => { cell := .color name rest }
  | .call t args k cont => { cell := .call t args k cont }
  | .emptyCall t args s rest => { cell := .emptyCall t args s rest }

/-! ### Numbers -/

/-- The tag of a row: the one which was given, none if there should be none, or the next number -/
def rowTag (mode : NumberingMode) (ev : RowEvents) (count : Nat) : Option EquationTag :=
  match ev.tag with
  | some t => some t
  | none => if ev.noNumber ∨ mode = .noneByDefault then none else some (autoTag (count + 1))

/-- Is the tag the next number? -/
def isAutomatic (mode : NumberingMode) (ev : RowEvents) : Bool :=
  ev.tag.isNone && !ev.noNumber && mode ≠ .noneByDefault

/-- The number of one row: what is shown, and the counter and the labels afterwards. The label, if there is one, stands
for the tag of this row. -/
def rowNumber (mode : NumberingMode) (c : Counters) (ev : RowEvents) : Option RowLabelInfo × Counters :=
  let tag := rowTag mode ev c.count
  (tag.map fun t => ⟨t, ev.label⟩,
    { count := if isAutomatic mode ev then c.count + 1 else c.count
      labels := match tag, ev.label with
        | some t, some l => c.labels.insert l t.text
        | _, _ => c.labels })

/-- In `multline`, what is said about the number holds for the last row. -/
def RowEvents.passOn (ev next : RowEvents) : RowEvents :=
  { tag := next.tag.or ev.tag, noNumber := ev.noNumber || next.noNumber, label := next.label }

/-- The numbers of the rows of an environment: what is shown beside them, and the counter and the labels afterwards.
`none` means that the environment has no numbers at all. -/
def numberRows (mode : Option NumberingMode) (c : Counters) : RowEvents → List RowEvents →
    List (Option RowLabelInfo) × Counters
  | ev, [] =>
    match mode with
    | none => ([none], c)
    | some m => ([(rowNumber m c ev).1], (rowNumber m c ev).2)
  | ev, ev' :: evs =>
    match mode with
    | none => let r := numberRows mode c ev' evs; (none :: r.1, r.2)
    | some .onlyLast => let r := numberRows mode c (ev.passOn ev') evs; (none :: r.1, r.2)
    | some m =>
      let r1 := rowNumber m c ev
      let r := numberRows mode r1.2 ev' evs
      (r1.1 :: r.1, r.2)

/-! ### What is shown -/

/-- A row of a table: what is in its cells, what is beside it, and the line above it -/
structure ShownRow where
  cells : List (List Node)
  info : Option RowLabelInfo
  line : Option LineType := none

/-- Cells, with separators between them -/
def joinCells' : List (List Node) → List Node
  | [] => []
  | [c] => c
  | c :: cs => c ++ .columnSeparator :: joinCells' cs

/-- Rows, with separators between them -/
def joinShown : List ShownRow → List Node
  | [] => []
  | [r] => joinCells' r.cells
  | r :: r' :: rs => joinCells' r.cells ++ .rowSeparator r.info r'.line :: joinShown (r' :: rs)

/-- The nodes are the meaning of what is in the cells, in style `st`, whatever is around the cells. The first cell comes
after something of class `prev`; at the end of a cell there is the end of the cell or a group which belongs to `\tag`
or `\label`. -/
def CellsMean (st : Style) : Class → List Form → List (List Node) → Prop
  | _, [], [] => True
  | prev, f :: fs, c :: cs =>
    (∃ nxt, (nxt = .ending ∨ nxt = .opening) ∧ ∀ l : Loc, l.calm st → f.denote l prev nxt = .ok (c, l)) ∧
      CellsMean st .closing fs cs
  | _, _, _ => False

/-- The same for rows, which have the same lines above them -/
def RowsMean (st : Style) : Class → List SrcRow → List ShownRow → Prop
  | _, [], [] => True
  | prev, r :: rs, s :: ss => (CellsMean st prev r.cells s.cells ∧ r.line = s.line) ∧ RowsMean st .opening rs ss
  | _, _, _ => False

/-! ### Conditions -/

mutual
/-- In the formula there are no separators (except directly in it, if `sep`, and directly in environments), no
environments with numbers and nothing else which has to do with numbers. (Macros are left out.) -/
def Form.quiet (sep : Bool) : Form → Bool
  | .nil => true
  | .item b s rest => b.quiet && s.quiet && rest.quiet sep
  | .bigOp _ s rest | .func _ _ s rest => s.quiet && rest.quiet sep
  | .amp rest | .newLine _ rest => sep && rest.quiet sep
  | .noNumber _ | .tag _ _ _ | .label _ _ => false
  | .style _ rest | .color _ rest => rest.quiet false
  | .call _ _ _ _ | .emptyCall _ _ _ _ => false
/-- The same for bases -/
def Base.quiet : Base → Bool
  | .atom _ | .number _ _ | .leaf _ => true
  | .group f | .cramped _ f => f.quiet false
  | .frac _ _ a b | .genfrac _ a b | .braceLabel _ _ a b => a.quiet && b.quiet
  | .prescript a b c => a.quiet && b.quiet && c.quiet
  | .sqrt a | .deco _ a | .brace _ _ a | .stackTok _ a _ | .arrow _ a => a.quiet
  | .mathClass _ b | .overlay _ b => b.quiet
  | .root f a | .arrowUnder _ f a => f.quiet false && a.quiet
  | .stackGroup _ a f => a.quiet && f.quiet false
  | .fence _ _ f => f.quiet false
  | .env e _ _ f => (envNumbering e).isNone && f.quiet true
/-- The same for arguments -/
def Arg.quiet : Arg → Bool
  | .tok _ => true
  | .braces f => f.quiet false
/-- The same for scripts -/
def Scripts.quiet : Scripts → Bool
  | .nil => true
  | .sub a s | .sup a s => a.quiet && s.quiet
  | .primes _ _ s => s.quiet
  | .primesSup _ _ a s => a.quiet && s.quiet
end

mutual
/-- The content of an environment whose rows are simple: in the cells there is nothing which has to do with numbers
or rows. `\tag`, `\nonumber` and `\label` are at the start of a cell or at its end. (`mid` says that something was
in the cell before.) -/
def Form.simpleRows (mid : Bool) : Form → Bool
  | .nil => true
  | .item b s rest => b.quiet && s.quiet && rest.simpleRows true
  | .bigOp _ s rest | .func _ _ s rest => s.quiet && rest.simpleRows true
  | .amp rest | .newLine _ rest => rest.simpleRows false
  | .noNumber rest | .tag _ _ rest | .label _ rest => if mid then rest.endsCell else rest.simpleRows false
  | .style _ rest | .color _ rest => rest.quiet false
  | .call _ _ _ _ | .emptyCall _ _ _ _ => false
/-- What follows belongs to the end of a cell. -/
def Form.endsCell : Form → Bool
  | .nil => true
  | .amp rest | .newLine _ rest => rest.simpleRows false
  | .noNumber rest | .tag _ _ rest | .label _ rest => rest.endsCell
  | _ => false
end

/-- No row is both tagged and not to be numbered. (See `C20_suppressed_next_row`.) -/
def RowEvents.consistent (ev : RowEvents) : Bool := !(ev.tag.isSome && ev.noNumber)

/-- `\\` is the end of a row: not in `equation`. -/
def Env.hasRows (e : Env) : Bool := envRows e

/-! ### Environments and pages -/

/-- How the rows of an environment are numbered, if they are -/
def Env.mode (e : Env) : Option NumberingMode := envNumbering e

/-- What is allowed in an environment here -/
def simpleEnv (e : Env) (f : Form) : Bool :=
  f.simpleRows false && (Env.hasRows e || f.split.rows.isEmpty) &&
    (decide (Env.mode e = some .onlyLast) || f.split.all.all (·.events.consistent))

/-- The numbers of the rows of an environment, and the counter and the labels afterwards -/
def envNumbers (e : Env) (f : Form) (c : Counters) : List (Option RowLabelInfo) × Counters :=
  numberRows (Env.mode e) c f.split.events (f.split.rows.map (·.events))

/-- The node of an environment with these columns, this line at the top and these rows -/
def envNode (e : Env) (spec : Option ArraySpec) (line : Option LineType) (rows : List ShownRow) : Option Node :=
  e.constructNode (joinShown rows) spec (rows.getLast?.bind (·.info)) (some rows.length) line

/-- The node is what is shown for an environment: its rows and cells are those of the source, with the numbers which
are due and the lines between them. -/
def EnvShows (e : Env) (o : EnvArgs) (f : Form) (c : Counters) (n : Node) : Prop :=
  ∃ spec rows, o.columns e = .ok spec ∧ envNode e spec o.line rows = some n ∧ RowsMean (envStyle e) .opening f.split.all rows ∧
    rows.map (·.info) = (envNumbers e f c).1

/-- Environments (without scripts), and formulas which have nothing to do with numbers -/
def Form.page : Form → Bool
  | .nil => true
  | .item b s rest =>
    (match b, s with
      | .env e e' _ f, .nil => decide (e = e') && simpleEnv e f
      | b, s => b.quiet && s.quiet) && rest.page
  | .bigOp _ s rest | .func _ _ s rest => s.quiet && rest.page
  | .style _ rest | .color _ rest => rest.quiet false
  | _ => false

/-- The nodes show the environments of a page, one after the other, and the counters go from `c` to `c'`. -/
def PageShows : Form → Counters → List Node → Counters → Prop
  | .nil, c, [], c' => c = c'
  | .item b s rest, c, n :: ns, c' =>
    match b, s with
    | .env e _ o f, .nil => EnvShows e o f c n ∧ PageShows rest (envNumbers e f c).2 ns c'
    | _, _ => tagsIn [n] = [] ∧ PageShows rest c ns c'
  | .bigOp _ _ rest, c, n :: ns, c' | .func _ _ _ rest, c, n :: ns, c' => tagsIn [n] = [] ∧ PageShows rest c ns c'
  | .style _ _, c, [n], c' | .color _ _, c, [n], c' => tagsIn [n] = [] ∧ c = c'
  | _, _, _, _ => False

/-! ### What is written -/

/-- A row as it is written -/
def ShownRow.written (cfg : EmitCfg) (r : ShownRow) : TRow := ⟨r.line, r.info, r.cells.map (toXmls cfg)⟩

/-- The element for an environment with these columns, this line at the top and these rows -/
def envXml (cfg : EmitCfg) (e : Env) (spec : Option ArraySpec) (line : Option LineType) (rows : List TRow) :
    Option Xml :=
  let table (a : Alignment) (s : Style) : Xml :=
    .elem c!"mtable" (styleAttr (lineCss c!"top" (if e.allowsHlines then line else none)) ++ styleAttrs (some s))
      (rowsXml cfg.idPrefix (.columns a) none 0 rows)
  let numbered (a : Alignment) : Xml :=
    .elem c!"mtable" numberedAttrs (rowsXml cfg.idPrefix (.columns a) (some .wide) 0 rows)
  let fence (l : Option StretchableOp) (x : Xml) (r : Option StretchableOp) : Xml :=
    el c!"mrow" [toXml cfg (delimOperator l), x, toXml cfg (delimOperator r)]
  let array (s : Style) : Option Xml := spec.map fun spec =>
    .elem c!"mtable" (styleAttr (lineCss c!"left" spec.borderLeft ++ lineCss c!"top" line) ++ styleAttrs (some s))
      (rowsXml cfg.idPrefix (.spec spec) none 0 rows)
  match e with
  | .align | .alignStar => some (numbered .alternating)
  | .equation | .equationStar | .gather | .gatherStar => some (numbered .centered)
  | .multLine =>
    some (.elem c!"mtable" numberedAttrs (rowsXml cfg.idPrefix (.multline rows.length) (some .narrow) 0 rows))
  | .aligned => some (table .alternating .display)
  | .gathered => some (table .centered .display)
  | .matrix => some (table .centered .text)
  | .cases => some (fence (some openBrace) (table .cases .text) none)
  | .rCases => some (fence none (table .cases .text) (some closeBrace))
  | .dCases => some (fence (some openBrace) (table .cases .display) none)
  | .drCases => some (fence none (table .cases .display) (some closeBrace))
  | .pMatrix => some (fence (some openParen) (table .centered .text) (some closeParen))
  | .bMatrix => some (fence (some openBracket) (table .centered .text) (some closeBracket))
  | .Bmatrix => some (fence (some openBrace) (table .centered .text) (some closeBrace))
  | .vMatrix => some (fence (some lineDelim) (table .centered .text) (some lineDelim))
  | .Vmatrix => some (fence (some doubleLineDelim) (table .centered .text) (some doubleLineDelim))
  | .array => array .text
  | .dArray => array .display
  | .subarray => array .script

/-- The element is what is written for an environment: its rows and cells are those of the source, with the numbers which
are due and the lines between them. -/
def EnvWritten (cfg : EmitCfg) (e : Env) (o : EnvArgs) (f : Form) (c : Counters) (x : Xml) : Prop :=
  ∃ (spec : Option ArraySpec) (rows : List ShownRow), o.columns e = .ok spec ∧
    envXml cfg e spec o.line (rows.map (ShownRow.written cfg)) = some x ∧
    RowsMean (envStyle e) .opening f.split.all rows ∧ rows.map (·.info) = (envNumbers e f c).1

/-- The elements are those of the environments of a page, one after the other (and those of other formulas between them),
and the counters go from `c` to `c'`. -/
def PageWritten (cfg : EmitCfg) : Form → Counters → List Xml → Counters → Prop
  | .nil, c, [], c' => c = c'
  | .item b s rest, c, x :: xs, c' =>
    match b, s with
    | .env e _ o f, .nil => EnvWritten cfg e o f c x ∧ PageWritten cfg rest (envNumbers e f c).2 xs c'
    | _, _ => PageWritten cfg rest c xs c'
  | .bigOp _ _ rest, c, _ :: xs, c' | .func _ _ _ rest, c, _ :: xs, c' => PageWritten cfg rest c xs c'
  | .style _ _, c, [_], c' | .color _ _, c, [_], c' => c = c'
  | _, _, _, _ => False

end Verif.Spec

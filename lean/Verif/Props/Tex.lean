import Verif.Lemmas.TexMain
import Verif.Lemmas.TexPrint
import Verif.Lemmas.TexDisplay
import Verif.Props.Shape
import Verif.Props.Pages
import Verif.Props.Findings
/-! Property C53: formulas of LaTeX are shown with the elements of MathML for them. -/
namespace Verif
open Model Spec

mutual
theorem shape_displays : (s : Shape) → Displays s.xml s.tree
  | .op c => .mo
  | .letter upright c => by
    unfold Shape.xml Shape.tree
    split
    · exact .upright
    · exact .mi
  | .funcName s => .mo
  | .word s => .upright
  | .nothing => .node .nil
  | .pre base sub sup => .node (.cons (shape_displays base) (.cons (.leaf (s := [])) (.cons (shape_displays sub)
      (.cons (shape_displays sup) .nil))))
  | .leaf name s => .leaf
  | .elem name kids => .node (shapes_display kids)
theorem shapes_display : (ss : List Shape) → DisplaysAll (Shape.xmls ss) (Shape.trees ss)
  | [] => .nil
  | s :: ss => .cons (shape_displays s) (shapes_display ss)
end

/-- C53. Take a formula of LaTeX which is built from symbols (typed or written by commands), numbers, functions, groups,
fractions, binomials, roots, accents, braces with labels, stacked symbols, arrows with labels, phantoms, strokes,
delimiters (also in the middle), spaces, fonts, words, text, negated relations, styles, colours, matrices and arrays, with scripts, limits and
primes, to any depth, and write it down with whitespace as one likes. If the user has not redefined its commands, then the converter accepts it and keeps its state, and the output is a document which shows the formula: every part with its
element of MathML, its parts in the right order, and all the symbols as in LaTeX. (Missing: the parts of LaTeX which are not
in this list, the odd commands, and the attributes.) -/
theorem C53_latex_partial (config : MathCoreConfig) (hp : PlainSettings config) (c c1 : Converter)
    (hc : Converter.new config = .ok c) (calls : List Call) (hr : Reaches c calls c1) (tex : Tex)
    (ht : tex.proper false false = true) (src : Str) (hw : Prints tex.lexemes src)
    (ho : ∀ name, Lexeme.command name ∈ tex.lexemes → ¬ definedName c1.parserCfg.toParserConfig c1.state name)
    (display : MathDisplay) :
    ∃ out x, Gives c1 (.withGlobalState src display) (.one (.ok out)) c1 ∧ readXml out.s = some [x] ∧
      DisplaysFormula config.annotation x.bare tex.trees src := by
  obtain ⟨f, hf⟩ := tex_form false false tex ht .nil stops_nil fun _ => rfl
  have hf := hf.closed
  have hs : Spells c1.parserCfg.toParserConfig c1.state src f.tokens := by
    rw [hf.tokens]
    refine prints_spells hw fun l hl => ?_
    have h := hf.fixed l hl
    cases l with
    | char c => trivial
    | next c => trivial
    | blank => trivial
    | command name => exact ⟨ho name hl, h⟩
    | opens name => exact h
    | closes name => exact h
  have hg := formula_converts c1 display hf.ok (hf.linked _) hs
  obtain ⟨ns, hn⟩ := hf.steady ⟨display.style, {}, c1.state.equationCount, c1.state.labelMap, c1.parserCfg.maxExpansions, false⟩
    .opening .ending
  unfold Form.value at hg
  rw [hn] at hg
  obtain ⟨x, hx, hb⟩ := C45_shape_partial config hp c c1 c1 hc calls hr f hf.ok (hf.linked _) (hf.tame false) hf.unbroken src hs
    display _ hg
  refine ⟨_, x, hg, hx, ?_⟩
  rw [hb]
  obtain ⟨e1, e2⟩ := hf.shapes (outputSettings config c1.state.labelMap).emitter.labelMap
  unfold DisplaysFormula shapeDocument
  split
  · refine ⟨_, rfl, ?_⟩
    have := shape_displays (Shape.one (shapesOf (f.pieces (outputSettings config c1.state.labelMap).emitter.labelMap)))
    rw [(one_tree _ e2).1, e1] at this
    exact this
  · refine ⟨_, rfl, ?_⟩
    have := shapes_display (shapesOf (f.pieces (outputSettings config c1.state.labelMap).emitter.labelMap))
    rw [e1] at this
    exact this

/-! ### Displays -/

/-- What the cell beside a line contains -/
def Spec.besideLine (tag : Option (Str × Str)) : List Xml := (tag.map fun t => el c!"mtext" (txt t.2)).toList

/-- C53 for displays. Take `equation`, `gather`, `align` or `multline`, or `equation*`, `gather*` or `align*`, with lines and cells
whose contents are formulas as above, with `\tag`, `\tag*`, `\nonumber`, `\notag` and `\label` where they belong, and write it down with
whitespace as one likes. If the user has not redefined its commands, and the numbers are not used up, then the converter accepts it; the
output is a document which shows the table, with an empty cell at each side of each row; the last cell of each row contains the tag of
the line as in LaTeX, and only that: the next number, or what was given by `\tag`; and afterwards the number of equations and the labels
are those of LaTeX. (Missing: tags with other characters, more than one of these commands on a line, labels of lines without
numbers, and text around the display.) -/
theorem C53_display_partial (config : MathCoreConfig) (hp : PlainSettings config) (c c1 : Converter)
    (hc : Converter.new config = .ok c) (calls : List Call) (hr : Reaches c calls c1) (d : Display) (hd : d.proper = true)
    (src : Str) (hw : Prints d.lexemes src)
    (ho : ∀ name, Lexeme.command name ∈ d.lexemes → ¬ definedName c1.parserCfg.toParserConfig c1.state name)
    (hlines : d.lines.length < 65535) (hcount : c1.state.equationCount + d.lines.length < 2 ^ 64 - 1) (display : MathDisplay) :
    ∃ out x table c2, Gives c1 (.withGlobalState src display) (.one (.ok out)) c2 ∧ readXml out.s = some [x] ∧
      DisplaysFormula config.annotation x.bare [d.tree] src ∧
      x = documentWith (outputSettings config c2.state.labelMap) [table] src display ∧
      (tableCells table).map List.getLast? = (d.tags c1.state.equationCount).map (fun t => some (besideLine t)) ∧
      c2.state.equationCount = countAfter d.row.numbered c1.state.equationCount d.line d.lines ∧
      c2.state.labelMap = (d.labels c1.state.equationCount).foldl (fun m l => m.insert l.1 l.2) c1.state.labelMap := by
  obtain ⟨e, f, hf⟩ := display_form d hd
  have hs : Spells c1.parserCfg.toParserConfig c1.state src (Form.item (.env e e {} f) .nil .nil).tokens := by
    rw [hf.tokens]
    refine prints_spells hw fun l hl => ?_
    have h := hf.fixed l hl
    cases l with
    | char c => trivial
    | next c => trivial
    | blank => trivial
    | command name => exact ⟨ho name hl, h⟩
    | opens name => exact h
    | closes name => exact h
  have hg := formula_converts c1 display hf.ok (hf.linked _) hs
  obtain ⟨ns, l', hn⟩ := hf.runs ⟨display.style, {}, c1.state.equationCount, c1.state.labelMap, c1.parserCfg.maxExpansions, false⟩
    .opening .ending hlines hcount
  unfold Form.value at hg
  rw [hn] at hg
  obtain ⟨x, hx, hb⟩ := C45_shape_partial config hp c c1 _ hc calls hr _ hf.ok (hf.linked _) hf.tame hf.unbroken src hs display _ hg
  obtain ⟨xs, hxs, hpg⟩ := C20_page_partial config hp c c1 _ hc calls hr _ hf.ok hf.tame hf.page src hs display _ hg
  have hd' := hd
  unfold Display.proper at hd'
  rw [Bool.and_eq_true] at hd'
  match xs, hpg with
  | [table], hpg =>
    obtain ⟨hew, hcs⟩ : EnvWritten _ e {} f (Converter.counters c1) table ∧ (envNumbers e f (Converter.counters c1)).2 = _ := hpg
    have hnum : envNumbers e f (Converter.counters c1) = numberRows (some (modeOf d.row.numbered)) (Converter.counters c1)
        (lineEvents d.line) (d.lines.map lineEvents) := by
      unfold envNumbers Env.mode
      rw [hf.numbering, hf.events.1, hf.events.2]
    obtain ⟨n1, n2⟩ := numbers_form d.row d.line d.lines hd'.2 (Converter.counters c1)
    rw [← hnum] at n1 n2
    have h2 := hcs.symm.trans n2
    refine ⟨_, x, table, _, hg, hx, ?_, ?_, ?_, congrArg Counters.count h2, congrArg Counters.labels h2⟩
    · rw [hb]
      obtain ⟨e1, e2⟩ := hf.shapes (outputSettings config l'.labels).emitter.labelMap
      unfold DisplaysFormula shapeDocument
      split
      · refine ⟨_, rfl, ?_⟩
        have := shape_displays (Shape.one (shapesOf ((Form.item (.env e e {} f) .nil .nil).pieces (outputSettings config l'.labels).emitter.labelMap)))
        rw [(one_tree _ e2).1, e1] at this
        exact this
      · refine ⟨_, rfl, ?_⟩
        have := shapes_display (shapesOf ((Form.item (.env e e {} f) .nil .nil).pieces (outputSettings config l'.labels).emitter.labelMap))
        rw [e1] at this
        exact this
    · rw [hx] at hxs
      cases hxs
      rfl
    · have hok : ({} : EnvArgs).ok e = true := by
        have := hf.ok
        simp only [Form.ok, Base.ok, Bool.and_eq_true] at this
        exact this.1.1.1
      obtain ⟨spec, rows, h0, h1, h2, h3⟩ := hew
      have ht : envTable e table = table := by
        have := hf.numbering
        unfold envTable
        cases e <;> first | rfl | cases this
      have := C25_environment _ e {} spec hok h0 _ _ table h1
      rw [ht] at this
      rw [this]
      unfold Display.tags
      rw [show c1.state.equationCount = (Converter.counters c1).count from rfl, ← n1, ← h3]
      simp only [List.map_map]
      refine List.map_congr_left fun r _ => ?_
      simp only [Function.comp]
      unfold allCells Env.mode
      rw [hf.numbering]
      show (([] :: (_ ++ [besideRow r.info])).getLast?) = _
      rw [← List.cons_append, List.getLast?_append]
      cases r.info <;> rfl
  | [], hpg => exact hpg.elim
  | _ :: _ :: _, hpg => exact hpg.2.elim

/-- There is a source for every display. -/
theorem C53_display_written (d : Display) (h : d.proper = true) : ∃ src, Prints d.lexemes src := ⟨_, prints_all (display_print d h)⟩

/-! ### Where this does not hold -/

/-- Scripts of `\det` are put below it in LaTeX, as those of `\max`. Here they are at the side. -/
theorem C53_det (n : Nat) :
    textOf plainConfig c!"\\det_a b" .inline (n + 60) =
      some c!"<math><msub><mo lspace=\"0\" rspace=\"0.1667em\">det</mo><mi>a</mi></msub><mi>b</mi></math>" ∧
    textOf plainConfig c!"\\max_a b" .inline (n + 60) =
      some c!"<math><munder><mo movablelimits=\"true\" lspace=\"0\" rspace=\"0.1667em\">max</mo><mi>a</mi></munder><mi>b</mi></math>" :=
  ⟨by kernel_rfl, by kernel_rfl⟩

/-- `\colon` is punctuation in LaTeX, and `\bigcirc` a binary operator. Here they are ordinary symbols. -/
theorem C53_colon (n : Nat) :
    textOf plainConfig c!"a\\colon b\\bigcirc c" .inline (n + 60) =
      some c!"<math><mi>a</mi><mi>:</mi><mi>b</mi><mi>◯</mi><mi>c</mi></math>" := by kernel_rfl

/-- `\left<` is an angle bracket in LaTeX. Here it is rejected. -/
theorem C53_left_less : Rejects plainConfig c!"\\left<a\\right>" .inline (.expectedDelimiter .left) :=
  rejects_of 40 fun n => by kernel_rfl

/-- What is in square brackets after `\\` is the space between the rows in LaTeX. Here it is part of the next row. -/
theorem C53_row_space (n : Nat) :
    textOf plainConfig c!"\\begin{matrix}a\\\\[b]\\end{matrix}" .inline (n + 80) =
      some c!"<math><mtable displaystyle=\"false\" scriptlevel=\"0\"><mtr><mtd><mi>a</mi></mtd></mtr><mtr><mtd><mo stretchy=\"false\">[</mo><mi>b</mi><mo stretchy=\"false\">]</mo></mtd></mtr></mtable></math>" := by
  kernel_rfl

/-- A command for a font is in force up to the end of the cell in LaTeX. Here it is also in the cells which follow. -/
theorem C53_font_next_cell (n : Nat) :
    textOf plainConfig c!"\\begin{matrix}\\bf a&b\\\\c\\end{matrix}" .inline (n + 80) =
      some c!"<math><mtable displaystyle=\"false\" scriptlevel=\"0\"><mtr><mtd><mi>𝐚</mi></mtd><mtd><mi>𝐛</mi></mtd></mtr><mtr><mtd><mi>𝐜</mi></mtd></mtr></mtable></math>" := by
  kernel_rfl

/-- The numerator of `\over` is everything in front of it in LaTeX. Here it begins after `\displaystyle` or `\color`. -/
theorem C53_style_over (n : Nat) :
    textOf plainConfig c!"a\\displaystyle b\\over c" .inline (n + 80) =
      some c!"<math><mi>a</mi><mrow displaystyle=\"true\" scriptlevel=\"0\"><mfrac><mi>b</mi><mi>c</mi></mfrac></mrow></math>" ∧
    textOf plainConfig c!"a\\color{red}b\\over c" .inline (n + 80) =
      some c!"<math><mi>a</mi><mrow style=\"color:#FF0000;\"><mfrac><mi>b</mi><mi>c</mi></mfrac></mrow></math>" :=
  ⟨by kernel_rfl, by kernel_rfl⟩

/-- A style in the degree of a root is accepted by LaTeX. Here the bracket which ends the degree is not seen. -/
theorem C53_root_style : Rejects plainConfig c!"\\sqrt[\\displaystyle a]{b}" .inline (.unclosedGroup .squareBracketClose) :=
  rejects_of 60 fun n => by kernel_rfl

/-- Wrong digits of a colour are an error in LaTeX. Here they mean 0. -/
theorem C53_color_digits (n : Nat) :
    textOf plainConfig c!"\\color[HTML]{GG00FF}a" .inline (n + 80) =
      some c!"<math><mrow style=\"color:#0000FF;\"><mi>a</mi></mrow></math>" := by kernel_rfl

/-- A wrong number for the style of a fraction is reported as the end of the source. -/
theorem C53_genfrac_style : Rejects plainConfig c!"\\genfrac(]{0pt}{7}{a}{b}" .inline .expectedArgumentGotEOI :=
  rejects_of 60 fun n => by kernel_rfl

/-! ### What depends on the style -/

/-- `\mathchoice` takes the part for the style in which it stands: one in display style, the next one in text style, in scripts and
in scripts of scripts. -/
theorem C53_mathchoice (n : Nat) :
    textOf plainConfig c!"\\mathchoice{a}{b}{c}{d}" .block (n + 120) = some c!"<math display=\"block\"><mi>a</mi></math>" ∧
    textOf plainConfig c!"\\mathchoice{a}{b}{c}{d}_{\\mathchoice{a}{b}{c}{d}_{\\mathchoice{a}{b}{c}{d}}}" .inline (n + 160) =
      some c!"<math><msub><mi>b</mi><msub><mi>c</mi><mi>d</mi></msub></msub></math>" := ⟨by kernel_rfl, by kernel_rfl⟩

/-- A configuration in which lengths are written as multiples of a mu (of which an em has 18) -/
def muConfig : MathCoreConfig := { plainConfig with fmt := fun r => Nat.toDigits 10 (r * 18).floor.toNat }

/-- The space before `\mod` is 18mu in display style and 12mu elsewhere, as in amsmath, and before `\pod` and `\pmod` it is 18mu and
8mu. -/
theorem C53_mod (n : Nat) :
    textOf muConfig c!"a\\mod n" .block (n + 120) =
      some c!"<math display=\"block\"><mi>a</mi><mspace width=\"18em\"/><mrow><mspace/><mi>mod</mi></mrow><mspace width=\"6em\"/><mi>n</mi></math>" ∧
    textOf muConfig c!"a\\mod n" .inline (n + 120) =
      some c!"<math><mi>a</mi><mspace width=\"12em\"/><mrow><mspace/><mi>mod</mi></mrow><mspace width=\"6em\"/><mi>n</mi></math>" ∧
    textOf muConfig c!"a\\pod n" .block (n + 120) =
      some c!"<math display=\"block\"><mi>a</mi><mspace width=\"18em\"/><mo stretchy=\"false\">(</mo><mi>n</mi><mo stretchy=\"false\">)</mo></math>" ∧
    textOf muConfig c!"x_{a\\pod n}" .inline (n + 120) =
      some c!"<math><msub><mi>x</mi><mrow><mi>a</mi><mspace width=\"8em\"/><mo stretchy=\"false\">(</mo><mi>n</mi><mo stretchy=\"false\">)</mo></mrow></msub></math>" ∧
    textOf muConfig c!"a\\pmod n" .inline (n + 120) =
      some c!"<math><mi>a</mi><mspace width=\"8em\"/><mo stretchy=\"false\">(</mo><mrow><mspace/><mi>mod</mi></mrow><mspace width=\"6em\"/><mi>n</mi><mo stretchy=\"false\">)</mo></math>" :=
  ⟨by kernel_rfl, by kernel_rfl, by kernel_rfl, by kernel_rfl, by kernel_rfl⟩

/-- The limits of an operator with `\sideset` are above and below it in display style, and at its side in text style. -/
theorem C53_sideset (n : Nat) :
    textOf plainConfig c!"\\sideset{_a^b}{_c^d}\\sum_i^n x" .block (n + 120) =
      some c!"<math display=\"block\"><munderover><mmultiscripts><mo movablelimits=\"false\" lspace=\"0\">∑</mo><mi>c</mi><mi>d</mi><mprescripts/><mi>a</mi><mi>b</mi></mmultiscripts><mi>i</mi><mi>n</mi></munderover><mi>x</mi></math>" ∧
    textOf plainConfig c!"\\sideset{_a^b}{_c^d}\\sum_i^n x" .inline (n + 120) =
      some c!"<math><msubsup><mmultiscripts><mo movablelimits=\"false\" lspace=\"0\">∑</mo><mi>c</mi><mi>d</mi><mprescripts/><mi>a</mi><mi>b</mi></mmultiscripts><mi>i</mi><mi>n</mi></msubsup><mi>x</mi></math>" :=
  ⟨by kernel_rfl, by kernel_rfl⟩

/-! ### Every formula can be written -/

/-- There is a source for every formula: the theorem above is about all of them. -/
theorem C53_written (tex : Tex) (h : tex.proper false false = true) : ∃ src, Prints tex.lexemes src :=
  ⟨_, prints_all (noted := false) (tex_print false false tex h)⟩

/-! ### The hypotheses are met -/

/-- A symbol or letter without scripts -/
def letters (s : Str) (rest : Tex) : Tex := s.foldr (fun c t => .item (.char c) .none t) rest

/-- `x_{1,2} = \frac{-b \pm \sqrt{b^2-4ac}}{2a}` and `\left( \begin{matrix} \alpha & 1.5 \\ \lim_{n\to\infty} & \mathbb{R} \end{matrix} \right]` -/
def texExample : Tex :=
  .item (.char 'x') (.sub (.braces (.item (.number c!"1" []) .none (letters c!"," (.item (.number c!"2" []) .none .nil))))) <|
  letters c!"=" <|
  .item (.fraction false c!"frac"
    (.braces (letters c!"-b" (.item (.named ⟨c!"pm", 0xb1, .bin⟩) .none (.item (.root (.braces
      (.item (.char 'b') (.sup (.char '2')) (letters c!"-" (.item (.number c!"4" []) .none (letters c!"ac" .nil)))))) .none .nil))))
    (.braces (.item (.number c!"2" []) .none (letters c!"a" .nil)))) .none <|
  .item (.fence ⟨.char '(', 0x28⟩ ⟨.char ']', 0x5d⟩ (.item (.table ⟨c!"matrix", none, none, true⟩
    (.amp (.item (.named ⟨c!"alpha", 0x3b1, .ord⟩) (.primes 0) .nil)
    (.newRow (.item (.number c!"1" c!"5") .none .nil)
    (.amp (.item (.function ⟨c!"lim", c!"lim", true⟩) (.sub (.braces (letters c!"n" (.item (.named ⟨c!"to", 0x2192, .rel⟩) .none
      (.item (.named ⟨c!"infty", 0x221e, .ord⟩) .none .nil))))) .nil)
    (.last (.item (.font ⟨c!"mathbb", 0x1d538, none⟩ 'R') .none .nil)))))) .none .nil)) .none .nil

example : String.ofList (printLexemes texExample.lexemes) = "x_{1,2}=\\frac {-b\\pm \\sqrt {b^2-4ac}}{2a}\\left (\\begin{matrix}\\alpha '&1.5\\\\ \\lim _{n\\to \\infty }&\\mathbb {R}\\end{matrix}\\right ]" := by
  decide +kernel

theorem texExample_proper : texExample.proper false false = true := by decide +kernel

example : Prints texExample.lexemes (printLexemes texExample.lexemes) := prints_all (noted := false) (tex_print false false _ texExample_proper)

/-- `\widehat{f}''_i \xrightarrow[n]{x} \bigl( \phantom{y} '^2 \cancel x` -/
def texExample2 : Tex :=
  .item (.accent ⟨c!"widehat", 0x302, true⟩ (.braces (letters c!"f" .nil))) (.primesSub 1 (.char 'i')) <|
  .item (.arrowBoth ⟨c!"xrightarrow", 0x2192⟩ (letters c!"n" .nil) (.braces (letters c!"x" .nil))) .none <|
  .item (.sized c!"bigl" ⟨.char '(', 0x28⟩) .none <|
  .item (.phantom c!"phantom" (.braces (letters c!"y" .nil))) (.primesSup 0 (.char '2')) <|
  .item (.stroke (c!"cancel", 1) (.char 'x')) .none .nil

example : String.ofList (printLexemes texExample2.lexemes) = "\\widehat {f}''_i\\xrightarrow [n]{x}\\bigl (\\phantom {y}'^2\\cancel x" := by
  decide +kernel

example : texExample2.proper false false = true := by decide +kernel

/-- `\displaystyle \sum\limits_i \left\{ x \middle| \mathrm{ab} \not= y \text{ if so} \right\} \operatorname*{ext}_z \max\nolimits` -/
def texExample3 : Tex :=
  .style c!"displaystyle" <|
  .item (.symbolLimits ⟨c!"sum", 0x2211, .op⟩ true) (.sub (.char 'i')) <|
  .item (.fenceMiddle ⟨.command c!"{", 0x7b⟩ ⟨.char '|', 0x7c⟩ ⟨.command c!"}", 0x7d⟩ (letters c!"x" .nil)
    (.item (.word ⟨c!"mathrm", 0x41, none⟩ c!"ab") .none <| .item (.negated ⟨.char '=', 0x2260⟩) .none <|
      letters c!"y" <| .item (.text ⟨c!"text", none⟩ c!" if so") .none .nil)) .none <|
  .item (.operatorLimits c!"ext") (.sub (.char 'z')) <|
  .item (.functionLimits ⟨c!"max", c!"max", true⟩ false) .none .nil

example : String.ofList (printLexemes texExample3.lexemes) = "\\displaystyle \\sum \\limits _i\\left \\{ x\\middle |\\mathrm {ab}\\not =y\\text{ if so}\\right \\} \\operatorname* {ext}_z\\max \\nolimits " := by
  decide +kernel

example : texExample3.proper false false = true := by decide +kernel

/-- `\begin{array}{r|cl} a & b \\ c \end{array}` -/
def texExample4 : Tex :=
  .item (.array c!"array" c!"r|cl" (.amp (letters c!"a" .nil) <| .newRow (letters c!"b" .nil) <| .last (letters c!"c" .nil))) .none .nil

example : String.ofList (printLexemes texExample4.lexemes) = "\\begin{array}{r|cl}a&b\\\\ c\\end{array}" := by
  decide +kernel

example : texExample4.proper false false = true := by decide +kernel

/-- `\begin{align} x &= y \label{eq:1} \\ z \tag*{A} \\ \label{b} & \frac12 \end{align}` -/
def displayExample : Display where
  row := ⟨c!"align", true, true, .every⟩
  line := ⟨letters c!"x" .nil, [letters c!"=y" .nil], .automatic, some c!"eq:1", false⟩
  lines := [⟨letters c!"z" .nil, [], .tagged true c!"A", none, false⟩, ⟨letters c!"u" .nil, [], .without c!"notag", none, false⟩,
    ⟨.nil, [.item (.fraction false c!"frac" (.char '1') (.char '2')) .none .nil], .automatic, some c!"b", true⟩]

example : String.ofList (printLexemes displayExample.lexemes) = "\\begin{align}x&=y\\label {eq:1}\\\\ z\\tag* {A}\\\\ u\\notag \\\\ \\label {b}&\\frac 12\\end{align}" := by
  decide +kernel

example : displayExample.proper = true := by decide +kernel

example : displayExample.tags 4 = [some (c!"5", c!"(5)"), some (c!"A", c!"A"), none, some (c!"6", c!"(6)")] ∧
    countAfter .every 4 displayExample.line displayExample.lines = 6 ∧
    displayExample.labels 4 = [(c!"eq:1", c!"5"), (c!"b", c!"6")] := by
  decide +kernel

/-- No commands have been defined. -/
example (name : Str) : ¬ definedName {} {} name := by
  rintro (h | h) <;> cases h

end Verif

import Verif.Lemmas.Shape
import Verif.Props.Pages
/-! Property C45: every construct becomes its MathML element. -/
namespace Verif
open Model Spec

/-! ### Specification -/

namespace Spec

/-- The document with this content, apart from attributes -/
def shapeDocument (annotation : Bool) (content : List Shape) (latex : Str) : Xml :=
  el c!"math"
    (if annotation then [el c!"semantics" [(Shape.one content).xml, el c!"annotation" (txt latex)]]
     else Shape.xmls content)

/-- What a formula shows, if labels stand for `labels` -/
def Form.shapes (labels : Str → Option Str) (f : Form) : List Shape := shapesOf (f.pieces labels)

end Spec

theorem bare_document {flags : EmitterConfig} {ast : List Node} {ss : List Shape} (h : HasAll flags.emitter ast ss)
    (latex : Str) (display : MathDisplay) :
    (documentXml flags ast latex display).bare = shapeDocument flags.annotation ss latex := by
  unfold documentXml shapeDocument
  rw [bare_elem _ _ _ (by decide)]
  cases flags.annotation with
  | false => simp only [Bool.false_eq_true, if_false, all_xmls h]
  | true => simp +decide only [if_true, Xml.bares, bare_el, bare_elem, bares_txt, (has_vec h false).xml]

/-! ### C45 -/

/-- C45. After any history: if a source consists of the tokens of a formula (in which the separators are where they
belong, there is no `\\` in `equation`, and no name of an operator contains markup), then the elements of the output are those
of the formula, apart from their attributes and the numbers of equations: each construct has its element, with the elements of its parts in it, in
their order. The style, the neighbours, the way of displaying and the history have no influence; only references depend
on the labels. (Missing: other sources.) -/
theorem C45_shape_partial (config : MathCoreConfig) (hp : PlainSettings config) (c c1 c2 : Converter)
    (hc : Converter.new config = .ok c) (calls : List Call) (hr : Reaches c calls c1) (f : Form) (hf : f.ok false = true)
    (hl : f.linked (knownMacros c1.parserCfg.toParserConfig c1.state)) (ht : f.tame false = true)
    (hn : f.unbroken = true) (src : Str) (hs : Spells c1.parserCfg.toParserConfig c1.state src f.tokens)
    (display : MathDisplay) (out : Out) (h : Gives c1 (.withGlobalState src display) (.one (.ok out)) c2) :
    ∃ x, readXml out.s = some [x] ∧ x.bare = shapeDocument config.annotation
      (f.shapes (outputSettings config c2.state.labelMap).emitter.labelMap) src := by
  obtain ⟨ast, l, hv, hx⟩ := C22_formula_partial config hp c c1 c2 hc calls hr f hf hl ht src hs display out h
  refine ⟨_, hx, ?_⟩
  have hg := (shape_form (outputSettings config c2.state.labelMap).emitter f false ht hn _ _ _ _ _ nofun hv).1
  exact bare_document (pieces_all hg (tame_onlyShapes _ _ ht)) _ _

/-- C45, two conversions. The same formula has the same elements in inline and display mode, in converters with
different macros, options and histories, even if it is written differently, as long as labels stand for the same. -/
theorem C45_everywhere_partial (config config' : MathCoreConfig) (hp : PlainSettings config) (hp' : PlainSettings config')
    (c c1 c2 c' c1' c2' : Converter) (hc : Converter.new config = .ok c) (hc' : Converter.new config' = .ok c')
    (calls calls' : List Call) (hr : Reaches c calls c1) (hr' : Reaches c' calls' c1') (f : Form)
    (hf : f.ok false = true) (hl : f.linked (knownMacros c1.parserCfg.toParserConfig c1.state))
    (hl' : f.linked (knownMacros c1'.parserCfg.toParserConfig c1'.state)) (ht : f.tame false = true)
    (hn : f.unbroken = true) (src src' : Str) (hs : Spells c1.parserCfg.toParserConfig c1.state src f.tokens)
    (hs' : Spells c1'.parserCfg.toParserConfig c1'.state src' f.tokens) (display display' : MathDisplay) (out out' : Out)
    (h : Gives c1 (.withGlobalState src display) (.one (.ok out)) c2)
    (h' : Gives c1' (.withGlobalState src' display') (.one (.ok out')) c2')
    (ha : config.annotation = false) (ha' : config'.annotation = false)
    (hm : (outputSettings config c2.state.labelMap).emitter.labelMap =
      (outputSettings config' c2'.state.labelMap).emitter.labelMap) :
    ∃ x x', readXml out.s = some [x] ∧ readXml out'.s = some [x'] ∧ x.bare = x'.bare := by
  obtain ⟨x, h1, h2⟩ := C45_shape_partial config hp c c1 c2 hc calls hr f hf hl ht hn src hs display out h
  obtain ⟨x', h1', h2'⟩ := C45_shape_partial config' hp' c' c1' c2' hc' calls' hr' f hf hl' ht hn src' hs' display' out' h'
  refine ⟨x, x', h1, h1', ?_⟩
  rw [h2, h2', ha, ha', hm]
  rfl

/-! ### Non-vacuity -/

example : commandsExample.unbroken = true ∧ arrayExample.unbroken = true := by decide

/-- `x^2_1+\frac{a}{b}` -/
def shapeExample : Form :=
  .item (.atom (ch 'x')) (.sup (.tok (ch '2')) (.sub (.tok (ch '1')) .nil)) (.item (.atom (ch '+')) .nil
    (.item (.frac none false (.braces (.item (.atom (ch 'a')) .nil .nil)) (.braces (.item (.atom (ch 'b')) .nil .nil))) .nil .nil))

example : isSource exampleConfig c!"x^2_1+\\frac{a}{b}" shapeExample = true := by decide +kernel

example : shapeExample.tame false = true ∧ shapeExample.unbroken = true := by decide

example : Shape.xmls (shapeExample.shapes fun _ => none) =
    [el c!"msubsup" [el c!"mi" [.text c!"x"], el c!"mn" [.text c!"1"], el c!"mn" [.text c!"2"]],
      el c!"mo" [.text c!"+"],
      el c!"mfrac" [el c!"mi" [.text c!"a"], el c!"mi" [.text c!"b"]]] := by rfl

/-- The second line between the columns has a cell of its own. -/
example : Shape.xmls (arrayExample.shapes fun _ => none) =
    [el c!"mtable" [
      el c!"mtr" [el c!"mtd" [el c!"mi" [.text c!"a"]], el c!"mtd" [], el c!"mtd" [el c!"mi" [.text c!"b"]]],
      el c!"mtr" [el c!"mtd" [el c!"mi" [.text c!"c"]], el c!"mtd" [], el c!"mtd" [el c!"mi" [.text c!"d"]]]]] := by rfl

/-- `\begin{align}a&b\\c&d\end{align}` -/
def alignExample : Form :=
  .item (.env .align .align {} (.item (.atom (ch 'a')) .nil (.amp (.item (.atom (ch 'b')) .nil (.newLine none
    (.item (.atom (ch 'c')) .nil (.amp (.item (.atom (ch 'd')) .nil .nil)))))))) .nil .nil

example : isSource exampleConfig c!"\\begin{align}a&b\\\\ c&d\\end{align}" alignExample = true := by decide +kernel

example : alignExample.tame false = true ∧ alignExample.unbroken = true := by decide

/-- The numbers are not among the elements, but the cells for them are. -/
example : Shape.xmls (alignExample.shapes fun _ => none) =
    [el c!"mtable" [
      el c!"mtr" [el c!"mtd" [], el c!"mtd" [el c!"mi" [.text c!"a"]], el c!"mtd" [el c!"mi" [.text c!"b"]], el c!"mtd" []],
      el c!"mtr" [el c!"mtd" [], el c!"mtd" [el c!"mi" [.text c!"c"]], el c!"mtd" [el c!"mi" [.text c!"d"]], el c!"mtd" []]]] := by rfl

/-- `\sum\nolimits_1 \operatorname{ab}\limits^2 \not= \not x \textbf{a b} \color{red} y` -/
def markedExample : Form :=
  .bigOp ⟨Sym.N_ARY_SUMMATION, some .never, none⟩ (.sub (.tok (ch '1')) .nil)
    (.func ⟨.spelled [ch 'a', ch 'b'], some .always⟩ false (.sup (.tok (ch '2')) .nil)
    (.item (.overlay .solidus (.atom (ch '='))) .nil
    (.item (.overlay .solidus (.atom (ch 'x'))) .nil
    (.item (.leaf (.textBox (some .bold) [ch 'a', .whitespace, ch 'b'])) .nil
    (.color [ch 'r', ch 'e', ch 'd'] (.item (.atom (ch 'y')) .nil .nil))))))

example : isSource exampleConfig
    c!"\\sum\\nolimits_1 \\operatorname{ab}\\limits^2 \\not= \\not x \\textbf{a b} \\color{red} y" markedExample = true := by
  decide +kernel

example : markedExample.tame false = true ∧ markedExample.unbroken = true := by decide

/-- There is a character for the first relation with a stroke, but not for the letter. -/
example : Shape.xmls (markedExample.shapes fun _ => none) =
    [el c!"msub" [el c!"mo" [.text c!"∑"], el c!"mn" [.text c!"1"]],
      el c!"mover" [el c!"mo" [.text c!"ab"], el c!"mn" [.text c!"2"]],
      el c!"mo" [.text c!"≠"],
      el c!"mrow" [el c!"mspace" [], el c!"mi" [.text ['x', Char.ofNat 0x338]]],
      el c!"mtext" [el c!"b" [.text ['a', Char.ofNat 0xA0, 'b']]],
      el c!"mrow" [el c!"mi" [.text c!"y"]]] := by rfl

/-- `\mathbb R \mathbf{ab1}^2 \mathrm{d}x` -/
def fontExample : Form :=
  .item (.leaf (.fontTok (.transform .doubleStruck) (ch 'R'))) .nil
    (.item (.leaf (.font (.transform .bold) [ch 'a', ch 'b', ch '1'])) (.sup (.tok (ch '2')) .nil)
    (.item (.leaf (.font .normal [ch 'd'])) .nil
    (.item (.atom (ch 'x')) .nil .nil)))

example : isSource exampleConfig c!"\\mathbb R \\mathbf{ab1}^2 \\mathrm{d}x" fontExample = true := by decide +kernel

example : fontExample.tame false = true ∧ fontExample.unbroken = true := by decide

/-- A word is one identifier, and a single upright letter is kept from being in italics. -/
example : Shape.xmls (fontExample.shapes fun _ => none) =
    [el c!"mi" [.text c!"ℝ"],
      el c!"msup" [el c!"mrow" [el c!"mspace" [], el c!"mi" [.text c!"𝐚𝐛𝟏"]], el c!"mn" [.text c!"2"]],
      el c!"mrow" [el c!"mspace" [], el c!"mi" [.text c!"d"]],
      el c!"mi" [.text c!"x"]] := by rfl

end Verif

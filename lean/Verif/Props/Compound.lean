import Verif.Props.Tex
import Verif.Lemmas.Compound
/-! Property C55: commands which stand for several symbols. -/
namespace Verif
open Model Spec

/-- C55. Put `\ldots`, `\iff`, `\implies`, `\colonequals` and so on, and `\bra{…}`, `\ket{…}`, `\braket{…}`, `\Bra{…}` and `\Ket{…}`, between formulas of LaTeX, as many as
the limit for expansions allows, and write it down with whitespace as one likes. After any history, if the user has not redefined the commands, the
converter accepts it and keeps its state, and the output is a document which shows the formulas, and between them the symbols for which the commands
stand, around their arguments. (Missing: such commands in the parts of formulas, and scripts of such commands.) -/
theorem C55_compound_partial (config : MathCoreConfig) (hp : PlainSettings config) (c c1 : Converter)
    (hc : Converter.new config = .ok c) (calls : List Call) (hr : Reaches c calls c1) (chain : Chain)
    (ht : chain.proper = true) (hn : chain.links ≤ c1.parserCfg.maxExpansions) (src : Str) (hw : Prints chain.lexemes src)
    (ho : ∀ name, Lexeme.command name ∈ chain.lexemes → ¬ definedName c1.parserCfg.toParserConfig c1.state name)
    (display : MathDisplay) :
    ∃ out x, Gives c1 (.withGlobalState src display) (.one (.ok out)) c1 ∧ readXml out.s = some [x] ∧
      DisplaysFormula config.annotation x.bare chain.trees src := by
  obtain ⟨f, hf⟩ := chain_form chain ht
  have hs : Spells c1.parserCfg.toParserConfig c1.state src f.tokens := by
    rw [hf.tokens]
    refine prints_spells hw fun l hl => ?_
    have h := hf.fixed l hl
    cases l with
    | char c => trivial
    | next c => trivial
    | blank => trivial
    | command name => exact ⟨ho name hl, h⟩
    | opens name => exact h
    | closes name => exact h
  have hg := formula_converts c1 display hf.ok (hf.linked _ _) hs
  obtain ⟨ns, hns⟩ := hf.steady ⟨display.style, {}, c1.state.equationCount, c1.state.labelMap, c1.parserCfg.maxExpansions, false⟩
    .opening .ending hn
  unfold Form.value at hg
  rw [hns] at hg
  obtain ⟨x, hx, hb⟩ := C45_shape_partial config hp c c1 c1 hc calls hr f hf.ok (hf.linked _ _) hf.tame hf.unbroken src hs
    display _ hg
  refine ⟨_, x, hg, hx, ?_⟩
  rw [hb]
  obtain ⟨ss, e0, e1, e2⟩ := hf.pieces (outputSettings config c1.state.labelMap).emitter.labelMap
  have e3 : f.shapes (outputSettings config c1.state.labelMap).emitter.labelMap = ss := by
    unfold Form.shapes
    rw [e0]
    have := shapes_pieces ss []
    rw [List.append_nil] at this
    rw [this]
    exact List.append_nil _
  rw [e3]
  unfold DisplaysFormula shapeDocument
  split
  · refine ⟨_, rfl, ?_⟩
    have := shape_displays (Shape.one ss)
    rw [(one_tree _ e2).1, e1] at this
    exact this
  · refine ⟨_, rfl, ?_⟩
    have := shapes_display ss
    rw [e1] at this
    exact this

theorem compound_print : compoundRows.all (fun r => printable (.command r.name)) = true := by decide +kernel

theorem wrap_print : wrapRows.all (fun r => printable (.command r.name)) = true := by decide +kernel

theorem fenceRow_print : fenceRows.all (fun r => printable (.command r.name)) = true := by decide +kernel

theorem chain_print : ∀ (x : Chain), x.proper = true → Solid false x.lexemes
  | .last t, h => tex_print false false t h
  | .link t row rest, h => by
    simp only [Chain.proper, Bool.and_eq_true, decide_eq_true_eq] at h
    exact solid_append (tex_print false true t h.1.1) (.cons (List.all_eq_true.1 compound_print row h.1.2) (chain_print rest h.2))
  | .wrap t row a rest, h => by
    simp only [Chain.proper, Bool.and_eq_true, decide_eq_true_eq] at h
    obtain ⟨⟨⟨⟨⟨h1, h2⟩, h3⟩, h4⟩, -⟩, -⟩ := h
    exact solid_append (tex_print false true t h1) (.cons (List.all_eq_true.1 wrap_print row h2) (.cons (by decide)
      (solid_append (tex_print false true a h4) (.cons (by decide) (chain_print rest h3)))))
  | .fenced t row a rest, h => by
    simp only [Chain.proper, Bool.and_eq_true, decide_eq_true_eq] at h
    obtain ⟨⟨⟨⟨⟨h1, h2⟩, h3⟩, h4⟩, -⟩, -⟩ := h
    exact solid_append (tex_print false true t h1) (.cons (List.all_eq_true.1 fenceRow_print row h2) (.cons (by decide)
      (solid_append (tex_print false false a h4) (.cons (by decide) (chain_print rest h3)))))

/-- There is a source for every such formula. -/
theorem C55_written (chain : Chain) (h : chain.proper = true) : ∃ src, Prints chain.lexemes src :=
  ⟨_, prints_all (chain_print chain h)⟩

/-! ### What depends on settings -/

/-- Without substitutions -/
def neverConfig : MathCoreConfig := { plainConfig with unicodeSubstitution := .never }

/-- The commands with characters of their own are these characters, or with the other setting several symbols. -/
theorem C55_substitution (n : Nat) :
    textOf plainConfig c!"a\\coloneqq b\\dblcolon\\Coloneqq\\eqqcolon\\dashcolon\\cdots" .inline (n + 160) =
      some c!"<math><mi>a</mi><mo>≔</mo><mi>b</mi><mo rspace=\"0\">∷</mo><mo lspace=\"0\" rspace=\"0\">⩴</mo><mo lspace=\"0\" rspace=\"0\">≕</mo><mo lspace=\"0\">∹</mo><mo lspace=\"0\" rspace=\"0\">⋯</mo></math>" ∧
    textOf neverConfig c!"a\\coloneqq b\\dblcolon\\Coloneqq\\eqqcolon\\dashcolon\\cdots" .inline (n + 160) =
      some c!"<math><mi>a</mi><mo lspace=\"0.2778em\" rspace=\"0\">∶</mo><mo lspace=\"0\">=</mo><mi>b</mi><mo lspace=\"0.2778em\" rspace=\"0\">∶</mo><mo lspace=\"0\" rspace=\"0\">∶</mo><mo lspace=\"0\" rspace=\"0\">∶</mo><mo lspace=\"0\" rspace=\"0\">∶</mo><mo lspace=\"0\" rspace=\"0\">=</mo><mo lspace=\"0\" rspace=\"0\">=</mo><mo lspace=\"0\" rspace=\"0\">∶</mo><mo lspace=\"0\" rspace=\"0\">−</mo><mo lspace=\"0\" rspace=\"0.2778em\">∶</mo><mo lspace=\"0\">·</mo><mo lspace=\"0\" rspace=\"0.1667em\">·</mo><mo lspace=\"0\" rspace=\"0\">·</mo></math>" :=
  ⟨by kernel_rfl, by kernel_rfl⟩

/-- A converter which expands only one command -/
def onceConfig : MathCoreConfig := { plainConfig with maxExpansions := 1 }

/-- One more command than the limit is rejected. -/
theorem C55_limit : Rejects onceConfig c!"a\\iff b\\implies c" .inline .tooManyExpansions := rejects_of 60 fun n => by kernel_rfl

/-- As an argument such a command is only its first symbol: `\frac\ldots 2` shows a dot over a dot, and then the third dot and the 2. The
same happens to a macro of the user. (In LaTeX an argument is the whole command.) -/
theorem C55_argument (n : Nat) :
    textOf plainConfig c!"\\frac\\ldots 2" .inline (n + 160) =
      some c!"<math><mfrac><mo lspace=\"0\" rspace=\"0\">.</mo><mo lspace=\"0\" rspace=\"0\">.</mo></mfrac><mo>.</mo><mn>2</mn></math>" ∧
    textOf plainConfig c!"\\def\\m{ab}\\frac\\m 2" .inline (n + 160) =
      some c!"<math><mfrac><mi>a</mi><mi>b</mi></mfrac><mn>2</mn></math>" :=
  ⟨by kernel_rfl, by kernel_rfl⟩

/-- `\dots` shows centered dots in front of a binary operator or a relation, and dots on the line otherwise, also when there is an empty
group between. -/
theorem C55_dots (n : Nat) :
    textOf plainConfig c!"a\\dots+\\dots" .inline (n + 160) =
      some c!"<math><mi>a</mi><mo>·</mo><mo lspace=\"0\" rspace=\"0.1667em\">·</mo><mo lspace=\"0\" rspace=\"0\">·</mo><mo>+</mo><mo lspace=\"0\">.</mo><mo lspace=\"0\" rspace=\"0.1667em\">.</mo><mo lspace=\"0\" rspace=\"0\">.</mo></math>" ∧
    textOf plainConfig c!"a\\dots{}+b" .inline (n + 160) =
      some c!"<math><mi>a</mi><mo>.</mo><mo lspace=\"0\" rspace=\"0.1667em\">.</mo><mo lspace=\"0\">.</mo><mrow></mrow><mo>+</mo><mi>b</mi></math>" :=
  ⟨by kernel_rfl, by kernel_rfl⟩

/-! ### The hypotheses are met -/

/-- `x \ldots \colonequals \braket{u_{v}} \Ket{\frac 3w} y^2 \iff \frac{1}{2}` -/
def chainExample : Chain :=
  .link (letters c!"x" .nil) ⟨c!"ldots", [some 0x2E, some 0x2E, some 0x2E]⟩ <|
  .link .nil ⟨c!"colonequals", [some 0x2236, some 0x3D]⟩ <|
  .wrap .nil ⟨c!"braket", 0x27E8, 0x27E9⟩ (.item (.char 'u') (.sub (.braces (letters c!"v" .nil))) .nil) <|
  .fenced .nil ⟨c!"Ket", ⟨.command c!"lvert", 0x7C⟩, ⟨.command c!"rangle", 0x27E9⟩⟩ (.item (.fraction false c!"frac" (.char '3') (.char 'w')) .none .nil) <|
  .link (.item (.char 'y') (.sup (.char '2')) .nil) ⟨c!"iff", [none, some 0x27FA, none]⟩ <|
  .last (.item (.fraction false c!"frac" (.char '1') (.char '2')) .none .nil)

example : chainExample.proper = true ∧ chainExample.links = 5 := by decide +kernel

example : String.ofList (printLexemes chainExample.lexemes) = "x\\ldots \\colonequals \\braket {u_{v}}\\Ket {\\frac 3w}y^2\\iff \\frac 12" := by decide +kernel

end Verif

import Verif.Lemmas.Swapped
import Verif.Props.Shape
import Verif.Props.Spacing
import Verif.Props.Findings
/-! Properties C51 and C52: symbols which are written as characters, and the commands for them. -/
namespace Verif
open Model Spec

/-! ### C51 -/

theorem stand_head {t : Token} {x : Symbol} {ts : List Token} (h : stands t x = true) :
    (∀ labels, ((formOf (t :: ts)).shapes labels).map Shape.char = some x.char :: ((formOf ts).shapes labels).map Shape.char) ∧
    ((formOf ts).tame false = true → (formOf (t :: ts)).tame false = true) ∧
    ((formOf ts).unbroken = true → (formOf (t :: ts)).unbroken = true) := by
  have hg := stands_glyph h
  have hb : ∀ (o : Op) (ch : Option Char), o.asOp.sc.tryAsChar = some x.char →
      (∀ labels, ((Form.bigOp ⟨o, none, ch⟩ .nil (formOf ts)).shapes labels).map Shape.char =
        some x.char :: ((formOf ts).shapes labels).map Shape.char) ∧
      ((formOf ts).tame false = true → (Form.bigOp ⟨o, none, ch⟩ .nil (formOf ts)).tame false = true) ∧
      ((formOf ts).unbroken = true → (Form.bigOp ⟨o, none, ch⟩ .nil (formOf ts)).unbroken = true) := by
    intro o ch ho
    refine ⟨fun labels => ?_, fun ht => ?_, fun ht => ?_⟩
    · show Shape.char (if _ then _ else _) :: _ = _
      split
      · exact congrArg (· :: _) ho
      · exact congrArg (· :: _) ho
    · show (true && (formOf ts).tame false) = true
      rw [ht]; rfl
    · show (true && (formOf ts).unbroken) = true
      rw [ht]; rfl
  have ha : (atomShape t.unwrapMath).char = some x.char →
      (∀ labels, ((Form.item (.atom t) .nil (formOf ts)).shapes labels).map Shape.char =
        some x.char :: ((formOf ts).shapes labels).map Shape.char) ∧
      ((formOf ts).tame false = true → (Form.item (.atom t) .nil (formOf ts)).tame false = true) ∧
      ((formOf ts).unbroken = true → (Form.item (.atom t) .nil (formOf ts)).unbroken = true) := by
    intro ho
    refine ⟨fun labels => ?_, fun ht => ?_, fun ht => ?_⟩
    · show Shape.char ((atomShape t.unwrapMath).withScripts (none, none)) :: _ = _
      rw [show (atomShape t.unwrapMath).withScripts (none, none) = atomShape t.unwrapMath from by
        cases atomShape t.unwrapMath <;> rfl]
      exact congrArg (· :: _) ho
    · show (true && (formOf ts).tame false) = true
      rw [ht]; rfl
    · show (true && (formOf ts).unbroken) = true
      rw [ht]; rfl
  cases t
  case digit d =>
    cases hg
    refine ⟨fun labels => rfl, fun ht => ?_, fun ht => ?_⟩
    · show (true && (formOf ts).tame false) = true
      rw [ht]; rfl
    · show (true && (formOf ts).unbroken) = true
      rw [ht]; rfl
  case op o => exact hb o none hg
  case mathOrTextMode t' c =>
    cases t'
    case op o => exact hb o (some c) hg
    all_goals exact ha hg
  case pseudoOperator => cases hg
  case pseudoOperatorLimits => cases hg
  all_goals exact ha hg

theorem stand_form {ts : List Token} {xs : List Symbol} (h : Stand ts xs) :
    separate ts = true ∧ atomsOf ts = xs.map (·.type) ∧
    (∀ labels, ((formOf ts).shapes labels).map Shape.char = xs.map fun x => some x.char) ∧
    (formOf ts).tame false = true ∧ (formOf ts).unbroken = true := by
  induction h with
  | nil => exact ⟨rfl, rfl, fun _ => rfl, rfl, rfl⟩
  | @cons t x ts xs h1 h2 h3 h ih =>
    obtain ⟨i1, i2, i3, i4, i5⟩ := ih
    obtain ⟨k1, k2, k3⟩ := stand_head (ts := ts) h1
    refine ⟨?_, ?_, fun labels => ?_, k2 i4, k3 i5⟩
    · unfold separate
      rw [stands_atom h1, i1]
      simp only [Option.isSome_some, Bool.true_and, Bool.and_true]
      split
      · rename_i d t' ts'
        rw [h3 _ rfl _ rfl]
        rfl
      · rfl
    · unfold atomsOf
      rw [List.filterMap_cons, stands_atom h1]
      exact congrArg _ i2
    · rw [k1, i3]
      rfl

/-- C51. After any history: if a source consists of symbols, written as characters (any characters of Unicode, apart from
syntax, primes, accents and the odd ones) or by the commands of unicode-math (apart from the odd ones and those which the
user has defined), then it is converted, and the elements of the output show exactly the characters which unicode-math
shows, in their order. (Missing: the odd ones, where this fails or the type is another one.) -/
theorem C51_shown_partial (config : MathCoreConfig) (hp : PlainSettings config) (c c1 : Converter)
    (hc : Converter.new config = .ok c) (calls : List Call) (hr : Reaches c calls c1) (src : Str) (xs : List Symbol)
    (hw : Writes (definedName c1.parserCfg.toParserConfig c1.state) src xs) (display : MathDisplay) :
    ∃ out x shapes, Gives c1 (.withGlobalState src display) (.one (.ok out)) c1 ∧ readXml out.s = some [x] ∧
      x.bare = shapeDocument config.annotation shapes src ∧ shapes.map Shape.char = xs.map fun x => some x.char := by
  obtain ⟨ts, hts, hs⟩ := writes_spells hw
  obtain ⟨h1, -, h3, h4, h5⟩ := stand_form hts
  obtain ⟨ns, hg, -⟩ := spelled_shown c1 display h1 hs
  rw [← tokens_formOf] at hs
  obtain ⟨x, hx, hb⟩ := C45_shape_partial config hp c c1 c1 hc calls hr (formOf ts) (ok_formOf ts h1) (formOf_linked _ ts) h4
    h5 src hs display _ hg
  exact ⟨_, x, _, hg, hx, hb, h3 _⟩

/-- C51, the spaces. Between these symbols there are the spaces of TeX's table for the types which unicode-math gives to
them, where the converter follows the table (see C37). -/
theorem C51_spaces_partial (c : Converter) (src : Str) (xs : List Symbol)
    (hw : Writes (definedName c.parserCfg.toParserConfig c.state) src xs) (display : MathDisplay)
    (hr : regular display.style none (xs.map (·.type)) = true) :
    ∃ ns, ShowsNodes c src display ns ∧
      ShownWith (xs.map (·.type)) ns (texSpaces display.style (finalAtoms none (xs.map (·.type)))) := by
  obtain ⟨ts, hts, hs⟩ := writes_spells hw
  obtain ⟨h1, h2, -⟩ := stand_form hts
  rw [← h2] at hr ⊢
  exact C37_spacing_partial c display h1 hs hr

/-- C51. Every character outside of the syntax which is not an odd one is shown. -/
theorem C51_any_character_partial (config : MathCoreConfig) (hp : PlainSettings config) (c c1 : Converter)
    (hc : Converter.new config = .ok c) (calls : List Call) (hr : Reaches c calls c1) (ch : Char) (hch : isSymbol ch = true)
    (display : MathDisplay) :
    ∃ out x shape, Gives c1 (.withGlobalState [ch] display) (.one (.ok out)) c1 ∧ readXml out.s = some [x] ∧
      x.bare = shapeDocument config.annotation [shape] [ch] ∧ shape.char = some (shownFor ch) := by
  obtain ⟨out, x, shapes, h1, h2, h3, h4⟩ := C51_shown_partial config hp c c1 hc calls hr [ch] [typedSymbol ch]
    (.char hch (fun _ => nofun) .nil) display
  match shapes, h4, h3 with
  | [s], h4, h3 =>
    refine ⟨out, x, s, h1, h2, h3, ?_⟩
    have h5 : s.char = some (typedSymbol ch).char := by simpa using h4
    exact h5
  | _ :: _ :: _, h4, _ => simp at h4

/-! ### C52 -/

/-- C52. Two sources which stand for formulas that differ only in how symbols are written (by a command or as a character),
at any place and depth: the outcome is the same, with the same tree, the same labels and the same state afterwards, or it
fails for the same reason. -/
theorem C52_alike (c : Converter) {src src' : Str} {f f' : Form} (h : f.Alike f') (display : MathDisplay)
    (hf : f.ok false = true) (hf' : f'.ok false = true) (hl : f.linked (knownMacros c.parserCfg.toParserConfig c.state))
    (hl' : f'.linked (knownMacros c.parserCfg.toParserConfig c.state))
    (hs : Spells c.parserCfg.toParserConfig c.state src f.tokens)
    (hs' : Spells c.parserCfg.toParserConfig c.state src' f'.tokens) :
    (∃ nodes labels c',
      Gives c (.withGlobalState src display) (.one (.ok (emitSnippet c.emitterCfg labels src display nodes))) c' ∧
      Gives c (.withGlobalState src' display) (.one (.ok (emitSnippet c.emitterCfg labels src' display nodes))) c') ∨
    (∃ e e' c1 c2, e.kind = e'.kind ∧ Gives c (.withGlobalState src display) (.one (.err e)) c1 ∧
      Gives c (.withGlobalState src' display) (.one (.err e')) c2) := by
  have h1 := formula_converts c display hf hl hs
  have h2 := formula_converts c display hf' hl' hs'
  have hv : f.value c.parserCfg.maxExpansions c.state display = f'.value c.parserCfg.maxExpansions c.state display := by
    unfold Form.value
    rw [form_alike h]
  rw [← hv] at h2
  cases hx : f.value c.parserCfg.maxExpansions c.state display with
  | ok r =>
    rw [hx] at h1 h2
    exact .inl ⟨r.1, r.2.labels, _, h1, h2⟩
  | error k =>
    rw [hx] at h1 h2
    obtain ⟨e, c1, g1, g2⟩ := h1
    obtain ⟨e', c2, g3, g4⟩ := h2
    exact .inr ⟨e, e', c1, c2, g1.trans g3.symm, g2, g4⟩

/-- C52, for sources. Take a source which consists of symbols, and write every symbol as the character which is shown for
it (where it is not one of the odd commands): the tree is the same. -/
theorem C52_swapped_partial (c : Converter) {src src' : Str}
    (h : Swapped c.parserCfg.toParserConfig (definedName c.parserCfg.toParserConfig c.state) src src') (display : MathDisplay) :
    ∃ ns, ShowsNodes c src display ns ∧ ShowsNodes c src' display ns := by
  obtain ⟨ts, h1, h2, hs⟩ := swapped_spells h
  obtain ⟨ts', h1', h2', hs'⟩ := swapped_spells (swapped_typed h)
  have e : (formOf ts).denote = (formOf ts').denote := (form_alike (swaps_alike h1)).trans (form_alike (swaps_alike h1')).symm
  obtain ⟨k1, -⟩ := stand_form h2
  obtain ⟨k1', -⟩ := stand_form h2'
  rw [← tokens_formOf] at hs hs'
  have g := formula_converts c display (ok_formOf ts k1) (formOf_linked _ ts) hs
  have g' := formula_converts c display (ok_formOf ts' k1') (formOf_linked _ ts') hs'
  obtain ⟨ns, n1, -⟩ := shown_spaces ts k1 ⟨display.style, {}, c.state.equationCount, c.state.labelMap, c.parserCfg.maxExpansions, false⟩ rfl
  unfold Form.value at g g'
  rw [← e, n1] at g'
  rw [n1] at g
  exact ⟨ns, g, g'⟩

/-! ### Where this does not hold -/

/-- A middle dot is a binary operator in unicode-math (and in a section of binary operators in the code), but as a character
it gets the spaces of punctuation. -/
theorem C51_middle_dot (n : Nat) :
    textOf plainConfig c!"a·b" .inline (n + 60) =
      some c!"<math><mi>a</mi><mo lspace=\"0\" rspace=\"0.1667em\">·</mo><mi>b</mi></math>" ∧
    textOf plainConfig c!"a⋅b" .inline (n + 60) =
      some c!"<math><mi>a</mi><mo lspace=\"0.2222em\" rspace=\"0.2222em\">⋅</mo><mi>b</mi></math>" :=
  ⟨by kernel_rfl, by kernel_rfl⟩

/-- A triangle which is a binary operator in unicode-math is an ordinary symbol here. -/
theorem C51_triangle (n : Nat) :
    textOf plainConfig c!"a▵b" .inline (n + 60) = some c!"<math><mi>a</mi><mi>▵</mi><mi>b</mi></math>" := by kernel_rfl

/-- `\models` and `\Join` do not show the symbols they have in unicode-math, but others. -/
theorem C51_other_symbol (n : Nat) :
    textOf plainConfig c!"a\\models b\\Join c" .inline (n + 60) =
      some c!"<math><mi>a</mi><mo>⊨</mo><mi>b</mi><mo>⋈</mo><mi>c</mi></math>" := by kernel_rfl

/-- `\therefore` is a relation, but its character an ordinary symbol. -/
theorem C52_therefore (n : Nat) :
    textOf plainConfig c!"a\\therefore b" .inline (n + 60) =
      some c!"<math><mi>a</mi><mo lspace=\"0.2778em\" rspace=\"0.2778em\">∴</mo><mi>b</mi></math>" ∧
    textOf plainConfig c!"a∴b" .inline (n + 60) = some c!"<math><mi>a</mi><mi>∴</mi><mi>b</mi></math>" :=
  ⟨by kernel_rfl, by kernel_rfl⟩

/-- `\Gamma` is upright, the letter is not. (This is the same in LaTeX.) -/
theorem C52_gamma (n : Nat) :
    textOf plainConfig c!"\\Gamma" .inline (n + 60) =
      some c!"<math><mrow><mspace/><mi mathvariant=\"normal\">Γ</mi></mrow></math>" ∧
    textOf plainConfig c!"Γ" .inline (n + 60) = some c!"<math><mi>Γ</mi></math>" :=
  ⟨by kernel_rfl, by kernel_rfl⟩

/-! ### The hypotheses are met -/

/-- A source with characters and a command, and its symbols -/
theorem writes_example {own : Str → Prop} (h : ¬ own c!"rightarrow") :
    Writes own c!"-x ≤\\rightarrow y+2∑(α"
      [⟨'−', .bin⟩, ⟨'x', .ord⟩, ⟨'≤', .rel⟩, ⟨'→', .rel⟩, ⟨'y', .ord⟩, ⟨'+', .bin⟩, ⟨'2', .ord⟩, ⟨'∑', .op⟩, ⟨'(', .opening⟩,
       ⟨'α', .ord⟩] := by
  refine .char (c := '-') (by decide) (by decide) ?_
  refine .char (c := 'x') (by decide) (by decide) ?_
  refine .space (by decide) ?_
  refine .char (c := '≤') (by decide) (by decide) ?_
  refine .command (row := ⟨c!"rightarrow", 0x2192, .rel⟩) (s := c!" y+2∑(α") (by decide +kernel) (by decide) h (by decide) ?_
  refine .space (by decide) ?_
  refine .char (c := 'y') (by decide) (by decide) ?_
  refine .char (c := '+') (by decide) (by decide) ?_
  refine .char (c := '2') (by decide) (by decide) ?_
  refine .char (c := '∑') (by decide) (by decide) ?_
  refine .char (c := '(') (by decide) (by decide) ?_
  exact .char (c := 'α') (by decide) (by decide) .nil

/-- There is no macro of this name. -/
example : ¬ definedName {} {} c!"rightarrow" := by
  rintro (h | h) <;> cases h

/-- TeX's table gives these spaces. -/
example : regular .text none [.bin, .ord, .rel, .rel, .ord, .bin, .ord, .op, .opening, .ord] = true ∧
    texSpaces .text (finalAtoms none [.bin, .ord, .rel, .rel, .ord, .bin, .ord, .op, .opening, .ord]) =
      [0, 5, 0, 5, 4, 4, 3, 0, 0] := by decide +kernel

/-- A source with a command, and the one with the character -/
theorem swapped_example {cfg : ParserConfig} {own : Str → Prop} (h : ¬ own c!"rightarrow") :
    Swapped cfg own c!"x \\rightarrow y" c!"x→y" := by
  refine .char (c := 'x') (by decide) (by decide) ?_
  refine .space (by decide) ?_
  refine .command (name := c!"rightarrow") (s := c!" y") (by decide) (by decide) ?_ (by decide) (by decide) h (by decide) ?_
  · have key : ∀ u v, (resolveBuiltinCmd u v c!"rightarrow").bind
        (fun t => if (atomOf t).isSome then glyph t else none) = some '→' := by
      intro u v
      cases u <;> cases v <;> decide +kernel
    have k := key cfg.allowUnreliableRendering cfg.unicodeSubstitution
    unfold commandChar ParserConfig.builtin
    cases h : resolveBuiltinCmd cfg.allowUnreliableRendering cfg.unicodeSubstitution c!"rightarrow" with
    | none => rw [h] at k; cases k
    | some t => rw [h] at k; exact k
  · exact .space (by decide) (.char (c := 'y') (by decide) (by decide) .nil)

end Verif

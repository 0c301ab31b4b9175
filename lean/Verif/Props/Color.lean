import Verif.Props.Tex
/-! Property C54: colours. -/
namespace Verif
open Model Spec

/-- The form of a coloured formula -/
theorem color_converts {c1 : Converter} {model : Option Str} {text : Str} (hm : (model.all fun m => m.all isAsciiAlpha) = true)
    (htext : text.all isTagChar = true) {tex : Tex} (ht : tex.proper false false = true) {src : Str}
    (hw : Prints (colorLexemes model text ++ tex.lexemes) src)
    (ho : ∀ name, Lexeme.command name ∈ colorLexemes model text ++ tex.lexemes →
      ¬ definedName c1.parserCfg.toParserConfig c1.state name) :
    ∃ r, Extends tex.lexemes tex.trees false .nil r ∧ (Form.color (colourArgs model text) r).ok false = true ∧
      Spells c1.parserCfg.toParserConfig c1.state src (Form.color (colourArgs model text) r).tokens := by
  obtain ⟨r, hr⟩ := tex_form false false tex ht .nil stops_nil fun _ => rfl
  refine ⟨r, hr, ?_, ?_⟩
  · show (!false && (colourArgs model text).ok && r.ok false) = true
    rw [args_ok hm htext, hr.closed.ok]
    rfl
  · have e : (Form.color (colourArgs model text) r).tokens = tks (colorLexemes model text ++ tex.lexemes) := by
      rw [tks_append, tks_colour]
      show (⟨.color, false⟩ :: ((colourArgs model text).tokens ++ r.tokens) : List Tk) = _
      rw [hr.closed.tokens]
      rfl
    rw [e]
    refine prints_spells hw fun l hl => ?_
    have h := fixed_append (colour_fixed model text) hr.fixed l hl
    cases l with
    | char c => trivial
    | next c => trivial
    | blank => trivial
    | command name => exact ⟨ho name hl, h⟩
    | opens name => exact h
    | closes name => exact h

/-- C54. Let a formula of LaTeX follow `\\color` with a colour: its name, six hexadecimal digits, three whole numbers up to 255, or three
decimal numbers up to 1. After any history, if the user has not redefined the commands, the converter accepts it and keeps its
state, and the output is the document in which the whole formula is in one element with exactly this colour: the declaration of CSS has the levels of red, green and
blue of LaTeX. (Missing: the names of `oddColours`, whose levels are others, and the names for mixtures of inks. See
`C54_odd_colours`.) -/
theorem C54_color_partial (config : MathCoreConfig) (hp : PlainSettings config) (c c1 : Converter)
    (hc : Converter.new config = .ok c) (calls : List Call) (hr : Reaches c calls c1) (x : Colour) (hx : x.proper = true) (tex : Tex)
    (ht : tex.proper false false = true) (src : Str) (hw : Prints (x.lexemes ++ tex.lexemes) src)
    (ho : ∀ name, Lexeme.command name ∈ x.lexemes ++ tex.lexemes → ¬ definedName c1.parserCfg.toParserConfig c1.state name)
    (display : MathDisplay) :
    ∃ out kids, Gives c1 (.withGlobalState src display) (.one (.ok out)) c1 ∧
      readXml out.s = some [documentWith (outputSettings config c1.state.labelMap)
        [.elem c!"mrow" [(c!"style", x.levels.css)] kids] src display] ∧
      DisplaysAll (Xml.bares kids) tex.trees := by
  obtain ⟨r, hr', hok, hs⟩ := color_converts (colour_model x) (colour_chars hx) ht hw ho
  have hcl := hr'.closed
  have hg := formula_converts c1 display hok (hcl.linked _) hs
  obtain ⟨ns, hn⟩ := hcl.steady ⟨display.style, {}, c1.state.equationCount, c1.state.labelMap, c1.parserCfg.maxExpansions, false⟩
    .opening .ending
  have hv := (args_value (colour_model x) (colour_chars hx)).trans (colour_levels hx)
  have hd : (Form.color (colourArgs x.model x.text) r).value c1.parserCfg.maxExpansions c1.state display =
      .ok ([.row ns { color := some (rgbOf x.levels) }],
        ⟨display.style, {}, c1.state.equationCount, c1.state.labelMap, c1.parserCfg.maxExpansions, false⟩) := by
    unfold Form.value Form.denote
    rw [hv]
    simp only [Except.bind, bind, hn]
  rw [hd] at hg
  obtain ⟨ast, l, hv', hx'⟩ := C22_formula_partial config hp c c1 c1 hc calls hr _ hok (hcl.linked _) (hcl.tame false) src hs display _ hg
  rw [hd] at hv'
  cases hv'
  refine ⟨_, toXmls (outputSettings config c1.state.labelMap).emitter ns, hg, ?_, ?_⟩
  · rw [hx']
    unfold documentXml documentWith
    have hxml : toXml (outputSettings config c1.state.labelMap).emitter (.row ns { color := some (rgbOf x.levels) }) =
        .elem c!"mrow" [(c!"style", x.levels.css)] (toXmls (outputSettings config c1.state.labelMap).emitter ns) := by
      unfold toXml
      rw [colour_css hx]
      rfl
    split
    · rw [show nodeVecToNode [Node.row ns { color := some (rgbOf x.levels) }] false = .row ns { color := some (rgbOf x.levels) } from rfl,
        hxml]
    · simp only [toXmls, hxml]
  · have hsh := (shape_form (outputSettings config c1.state.labelMap).emitter r false (hcl.tame false) hcl.unbroken _ _ _ _ _ nofun hn).1
    have := all_xmls (pieces_all hsh (tame_onlyShapes _ _ (hcl.tame false)))
    rw [this, ← (hcl.shapes _).1]
    exact shapes_display _

/-- C54. A name which is not one of xcolor's, an unknown colour model, a wrong number of digits and numbers which are too few or no
numbers are rejected, and the message is about what is wrong. -/
theorem C54_rejected (c1 : Converter) (model : Option Str) (text what : Str) (h : NoColour model text what)
    (hm : (model.all fun m => m.all isAsciiAlpha) = true) (htext : text.all isTagChar = true) (tex : Tex)
    (ht : tex.proper false false = true) (src : Str) (hw : Prints (colorLexemes model text ++ tex.lexemes) src)
    (ho : ∀ name, Lexeme.command name ∈ colorLexemes model text ++ tex.lexemes →
      ¬ definedName c1.parserCfg.toParserConfig c1.state name) (display : MathDisplay) :
    ∃ e c2, Gives c1 (.withGlobalState src display) (.one (.err e)) c2 ∧ e.kind = .unknownColor what := by
  obtain ⟨r, hr', hok, hs⟩ := color_converts hm htext ht hw ho
  have hg := formula_converts c1 display hok (hr'.closed.linked _) hs
  have hv := (args_value hm htext).trans (no_colour h fun c hc => (printable_char (tag_print (List.all_eq_true.1 htext c hc))).1)
  have hd : (Form.color (colourArgs model text) r).value c1.parserCfg.maxExpansions c1.state display = .error (.unknownColor what) := by
    unfold Form.value Form.denote
    rw [hv]
    rfl
  rw [hd] at hg
  obtain ⟨e, c', h1, h2⟩ := hg
  exact ⟨e, c', h2, h1⟩

/-- C54. All names of xcolor are accepted, those for mixtures of inks too. -/
theorem C54_names (c1 : Converter) (name : Str) (h : name ∈ colourNames) (tex : Tex)
    (ht : tex.proper false false = true) (src : Str) (hw : Prints (colorLexemes none name ++ tex.lexemes) src)
    (ho : ∀ n, Lexeme.command n ∈ colorLexemes none name ++ tex.lexemes → ¬ definedName c1.parserCfg.toParserConfig c1.state n)
    (display : MathDisplay) : ∃ out, Gives c1 (.withGlobalState src display) (.one (.ok out)) c1 := by
  have htext : name.all isTagChar = true := by
    have : (colourNames.all fun n => n.all isTagChar) = true := by decide +kernel
    exact List.all_eq_true.1 this name h
  obtain ⟨r, hr', hok, hs⟩ := color_converts (model := none) rfl htext ht hw ho
  have hg := formula_converts c1 display hok (hr'.closed.linked _) hs
  obtain ⟨ns, hn⟩ := hr'.closed.steady ⟨display.style, {}, c1.state.equationCount, c1.state.labelMap, c1.parserCfg.maxExpansions, false⟩
    .opening .ending
  obtain ⟨rgb, hrgb⟩ := Option.isSome_iff_exists.1 ((colour_names name).1 h)
  have hv := args_value (model := none) rfl htext
  have hd : (Form.color (colourArgs none name) r).value c1.parserCfg.maxExpansions c1.state display =
      .ok ([.row ns { color := some rgb }],
        ⟨display.style, {}, c1.state.equationCount, c1.state.labelMap, c1.parserCfg.maxExpansions, false⟩) := by
    unfold Form.value Form.denote
    rw [hv]
    simp only [colourOf, namedColor, hrgb, Except.bind, bind, hn]
  rw [hd] at hg
  exact ⟨_, hg⟩

/-- Different levels have different declarations. -/
theorem C54_css_injective (l l' : Levels) (h : l.red ≤ 255 ∧ l.green ≤ 255 ∧ l.blue ≤ 255)
    (h' : l'.red ≤ 255 ∧ l'.green ≤ 255 ∧ l'.blue ≤ 255) (e : l.css = l'.css) : l = l' := by
  have digits : ((List.range 16).all fun n => (List.range 16).all fun m => n == m ||
      (c!"0123456789ABCDEF")[n]?.getD '0' != (c!"0123456789ABCDEF")[m]?.getD '0') = true := by decide +kernel
  have digit : ∀ {n m : Nat}, n < 16 → m < 16 → (c!"0123456789ABCDEF")[n]?.getD '0' = (c!"0123456789ABCDEF")[m]?.getD '0' → n = m := by
    intro n m hn hm e
    have := List.all_eq_true.1 (List.all_eq_true.1 digits n (List.mem_range.2 hn)) m (List.mem_range.2 hm)
    rw [e, bne_self_eq_false, Bool.or_false] at this
    exact eq_of_beq this
  obtain ⟨r, g, b⟩ := l
  obtain ⟨r', g', b'⟩ := l'
  simp only [Levels.css, cssByte, List.cons_append, List.nil_append, List.cons.injEq, true_and, and_true] at e
  simp only at h h'
  obtain ⟨e1, e2, e3, e4, e5, e6⟩ := e
  have k1 := digit (by omega) (by omega) e1
  have k2 := digit (by omega) (by omega) e2
  have k3 := digit (by omega) (by omega) e3
  have k4 := digit (by omega) (by omega) e4
  have k5 := digit (by omega) (by omega) e5
  have k6 := digit (by omega) (by omega) e6
  have : r = r' := by omega
  have : g = g' := by omega
  have : b = b' := by omega
  subst_vars
  rfl

/-! ### Where this does not hold -/

/-- The green of xcolor is pure green, and its orange has no blue. Here there is some red, and some blue. -/
theorem C54_odd_colours (n : Nat) :
    textOf plainConfig c!"\\color{green}a" .inline (n + 80) =
      some c!"<math><mrow style=\"color:#03FF00;\"><mi>a</mi></mrow></math>" ∧
    textOf plainConfig c!"\\color{orange}a" .inline (n + 80) =
      some c!"<math><mrow style=\"color:#FF8001;\"><mi>a</mi></mrow></math>" ∧
    textOf plainConfig c!"\\color{olive}a" .inline (n + 80) =
      some c!"<math><mrow style=\"color:#9F8C18;\"><mi>a</mi></mrow></math>" := ⟨by kernel_rfl, by kernel_rfl, by kernel_rfl⟩

/-- Numbers which are too large, and a fourth number, are errors in LaTeX. Here they are cut off. -/
theorem C54_too_large (n : Nat) :
    textOf plainConfig c!"\\color[RGB]{300,0,0,7}a" .inline (n + 80) =
      some c!"<math><mrow style=\"color:#FF0000;\"><mi>a</mi></mrow></math>" := by kernel_rfl

/-! ### Non-vacuity -/

/-- `\\color[rgb]{1,.5,0.25}` -/
def colourExample : Colour := .parts (c!"1", []) ([], c!"5") (c!"0", c!"25")

example : colourExample.proper = true ∧ colourExample.levels = ⟨255, 128, 64⟩ ∧ colourExample.levels.css = c!"color:#FF8040;" := by
  decide

example : String.ofList (printLexemes (colourExample.lexemes ++ (letters c!"ab" .nil).lexemes)) = "\\color [rgb]{1,.5,0.25}ab" := by
  decide +kernel

example : (Colour.html ('f', 15) ('F', 15) ('0', 0) ('8', 8) ('9', 9) ('a', 10)).proper = true ∧
    (Colour.whole c!"255" c!"0" c!"12").proper = true ∧ (Colour.named (c!"teal", ⟨0, 128, 128⟩)).proper = true := by
  decide

example : NoColour none c!"rouge" c!"rouge" := .name (by decide +kernel)

example : NoColour (some c!"RGB") c!"1,x,2" c!"1,x,2" :=
  .number (r := c!"1") (g := c!"x") (b := c!"2") (x := c!"x") (by decide) (by decide) (by decide) (by decide) (by decide) <| by
    rintro ⟨neg, m, k, int, frac, h1, h2, h3, -⟩
    have key : 'x' ∈ int ∨ 'x' ∈ frac := by
      have : 'x' ∈ c!"x" := by decide
      rcases h3 with h | ⟨-, h⟩ <;> rw [h] at this <;> cases neg <;> simp at this <;> simp [this]
    rcases key with h | h
    · exact absurd (h1 _ h) (by decide)
    · exact absurd (h2 _ h) (by decide)

end Verif

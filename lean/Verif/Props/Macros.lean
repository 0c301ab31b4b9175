import Verif.Lemmas.Inline
import Verif.Lemmas.Witness
import Verif.Props.Scripts
/-! C44: a formula with calls of macros is converted like the formula in which the calls are written out. -/
namespace Verif
open Model Spec

/-- C44. Take a source which stands for a formula with calls of macros, and the source in which every call is replaced
by the body of the macro with the arguments in it. If the second one converts, the first one gives the same nodes,
labels and numbers, or the error about too many expansions if there are more than the limit. If the second one fails,
the first one fails for the same reason (or because of too many expansions).
What is missing: that the formula with the calls written out is still read as the same formula (`hi`; this fails if
digits are joined), and that a call after an operator has the class of what it stands for (`hc`), have to be assumed:
see `C44_class_of_argument` and `C44_digits`. -/
theorem C44_written_out_partial (c : Converter) {src src' : Str} {f : Form} (display : MathDisplay)
    (hf : f.ok false = true) (hl : f.linked (knownMacros c.parserCfg.toParserConfig c.state))
    (hs : Spells c.parserCfg.toParserConfig c.state src f.tokens)
    (hi : f.inlined.ok false = true) (hc : f.SameClasses)
    (hs' : Spells c.parserCfg.toParserConfig c.state src' f.inlined.tokens) :
    (∃ nodes labels c', Gives c (.withGlobalState src' display)
        (.one (.ok (emitSnippet c.emitterCfg labels src' display nodes))) c' ∧
      (f.calls ≤ c.parserCfg.maxExpansions → Gives c (.withGlobalState src display)
        (.one (.ok (emitSnippet c.emitterCfg labels src display nodes))) c') ∧
      (c.parserCfg.maxExpansions < f.calls → ∃ e c', e.kind = .tooManyExpansions ∧
        Gives c (.withGlobalState src display) (.one (.err e)) c')) ∨
    (∃ e' c', Gives c (.withGlobalState src' display) (.one (.err e')) c' ∧
      (f.calls ≤ c.parserCfg.maxExpansions → ∃ e c', e.kind = e'.kind ∧
        Gives c (.withGlobalState src display) (.one (.err e)) c')) := by
  have h1 := formula_converts c display hf hl hs
  have h2 := formula_converts c display hi (form_inlined_linked _ f) hs'
  have h3 := value_inlined hc c.parserCfg.maxExpansions c.state display
  cases hv : f.inlined.value c.parserCfg.maxExpansions c.state display with
  | error k =>
    rw [hv] at h2 h3
    obtain ⟨e', c', g1, g2⟩ := h2
    refine .inr ⟨e', c', g2, fun hn => ?_⟩
    rw [h3 hn] at h1
    obtain ⟨e, c'', g3, g4⟩ := h1
    exact ⟨e, c'', g3.trans g1.symm, g4⟩
  | ok p =>
    obtain ⟨nodes, l⟩ := p
    rw [hv] at h2 h3
    dsimp only at h3
    refine .inl ⟨nodes, l.labels, _, h2, fun hn => ?_, fun hn => ?_⟩
    · rw [h3, if_pos hn] at h1
      exact h1
    · rw [h3, if_neg (by omega)] at h1
      exact h1

/-- C44, without global state -/
theorem C44_written_out_local_partial (c : Converter) {src src' : Str} {f : Form} (display : MathDisplay)
    (hf : f.ok false = true) (hl : f.linked (knownMacros c.parserCfg.toParserConfig {}))
    (hs : Spells c.parserCfg.toParserConfig {} src f.tokens)
    (hi : f.inlined.ok false = true) (hc : f.SameClasses)
    (hs' : Spells c.parserCfg.toParserConfig {} src' f.inlined.tokens)
    (hn : f.calls ≤ c.parserCfg.maxExpansions) :
    (∃ nodes labels, Gives c (.withLocalState src' display)
        (.one (.ok (emitSnippet c.emitterCfg labels src' display nodes))) c ∧
      Gives c (.withLocalState src display) (.one (.ok (emitSnippet c.emitterCfg labels src display nodes))) c) ∨
    (∃ e e', e.kind = e'.kind ∧ Gives c (.withLocalState src' display) (.one (.err e')) c ∧
      Gives c (.withLocalState src display) (.one (.err e)) c) := by
  have h1 := formula_converts_local c display hf hl hs
  have h2 := formula_converts_local c display hi (form_inlined_linked _ f) hs'
  have h3 := value_inlined hc c.parserCfg.maxExpansions {} display
  cases hv : f.inlined.value c.parserCfg.maxExpansions {} display with
  | error k =>
    rw [hv] at h2 h3
    obtain ⟨e', g1, g2⟩ := h2
    rw [h3 hn] at h1
    obtain ⟨e, g3, g4⟩ := h1
    exact .inr ⟨e, e', g3.trans g1.symm, g2, g4⟩
  | ok p =>
    obtain ⟨nodes, l⟩ := p
    rw [hv] at h2 h3
    dsimp only at h3
    rw [h3, if_pos hn] at h1
    exact .inl ⟨nodes, l.labels, h2, h1⟩

/-! ### Examples -/

/-- A configuration with macros -/
def macrosConfig : MathCoreConfig :=
  { plainConfig with
    macros := [(c!"two", c!"\\one{#1}+\\one{#2}"), (c!"one", c!"\\frac{#1}{2}"), (c!"nix", c!"")] }

/-- The fraction which `\one` stands for -/
def halfOf (x : Char) : Base := .frac none false (.braces (.item (.atom (ch x)) .nil .nil))
  (.braces (.item (.number '2' []) .nil .nil))

/-- `{\two{a}b}=\one x\nix` -/
def macrosExample : Form :=
  .item (.group (.call (.customCmdRef .config 2 (some .opening) 0 9) [.braces [⟨ch 'a', false⟩], .tok (ch 'b')] 9
    (.call (.customCmdRef .config 1 (some .default) 9 16) [.braces [⟨ch 'a', false⟩]] 7
      (.item (halfOf 'a') .nil (.item (.atom (ch '+')) .nil
        (.call (.customCmdRef .config 1 (some .default) 9 16) [.braces [⟨ch 'b', false⟩]] 7
          (.item (halfOf 'b') .nil .nil))))))) .nil
  (.item (.atom (ch '=')) .nil (.call (.customCmdRef .config 1 (some .default) 9 16) [.tok (ch 'x')] 7
    (.item (halfOf 'x') .nil (.emptyCall (.customCmdRef .config 0 none 16 16) [] .nil .nil))))

/-- The hypotheses of `C44_written_out_partial`, as far as they can be computed -/
def macrosCheck (src src' : Str) (f : Form) : Bool :=
  match Converter.new macrosConfig with
  | .error _ => false
  | .ok c => f.ok false && f.links (knownMacros c.parserCfg.toParserConfig c.state) &&
    spells c.parserCfg.toParserConfig c.state src f.tokens && f.inlined.ok false &&
    spells c.parserCfg.toParserConfig c.state src' f.inlined.tokens

example : macrosCheck c!"{\\two{a}b}=\\one x \\nix" c!"{\\frac{a}{2}+\\frac{b}{2}}=\\frac{x}{2} {}" macrosExample = true := by
  decide +kernel

example : macrosExample.SameClasses ∧ macrosExample.calls = 5 := by
  refine ⟨?_, by decide +kernel⟩
  simp only [macrosExample, halfOf, Form.SameClasses, Base.SameClasses, Arg.SameClasses, Scripts.SameClasses,
    and_true, true_and]
  refine ⟨?_, ⟨?_, ⟨?_, ?_⟩, ?_, ?_, ?_, ?_⟩, ?_, ?_, ?_, ?_⟩ <;> intro _ nxt <;> cases nxt <;>
    first | rfl | contradiction

/-! ### Calls which are not converted like what they stand for -/

/-- C44 does not hold for all formulas: a macro whose body begins with a parameter has no class, so that an operator
before a call of it is spaced as if the brace of the argument would follow. -/
theorem C44_class_of_argument :
    Converts plainConfig c!"\\newcommand\\m[1]{#1}a=\\m{=}b" .inline
      c!"<math><mi>a</mi><mo>=</mo><mo lspace=\"0\">=</mo><mi>b</mi></math>" ∧
    Converts plainConfig c!"a==b" .inline
      c!"<math><mi>a</mi><mo rspace=\"0\">=</mo><mo lspace=\"0\">=</mo><mi>b</mi></math>" :=
  ⟨converts_of 60 fun n => by kernel_rfl, converts_of 60 fun n => by kernel_rfl⟩

/-- C44 does not hold for all formulas: in the configuration, a macro which begins with the name of another macro has
the class of what comes after this name. -/
theorem C44_class_of_macro :
    Converts { plainConfig with macros := [(c!"e", c!"="), (c!"m", c!"\\e")] } c!"a=\\m b" .inline
      c!"<math><mi>a</mi><mo>=</mo><mo lspace=\"0\">=</mo><mi>b</mi></math>" ∧
    Converts { plainConfig with macros := [(c!"e", c!"="), (c!"m", c!"\\e")] } c!"a=\\e b" .inline
      c!"<math><mi>a</mi><mo rspace=\"0\">=</mo><mo lspace=\"0\">=</mo><mi>b</mi></math>" :=
  ⟨converts_of 60 fun n => by kernel_rfl, converts_of 60 fun n => by kernel_rfl⟩

/-- C44 does not hold for all formulas: in a source, it has the class which the other macro had at the time of the
definition. -/
theorem C44_class_of_redefined :
    Converts plainConfig c!"\\newcommand\\e{x}\\newcommand\\m{\\e}\\renewcommand\\e{=}a=\\m b" .inline
      c!"<math><mi>a</mi><mo>=</mo><mo lspace=\"0\">=</mo><mi>b</mi></math>" ∧
    Converts plainConfig c!"\\newcommand\\e{x}\\newcommand\\m{\\e}\\renewcommand\\e{=}a=\\e b" .inline
      c!"<math><mi>a</mi><mo rspace=\"0\">=</mo><mo lspace=\"0\">=</mo><mi>b</mi></math>" :=
  ⟨converts_of 60 fun n => by kernel_rfl, converts_of 60 fun n => by kernel_rfl⟩

/-- C44 does not hold for all formulas: digits of a macro are not joined with the digits before it. -/
theorem C44_digits :
    Converts plainConfig c!"\\newcommand\\m{2}1\\m" .inline c!"<math><mn>1</mn><mn>2</mn></math>" ∧
    Converts plainConfig c!"12" .inline c!"<math><mn>12</mn></math>" :=
  ⟨converts_of 60 fun n => by kernel_rfl, converts_of 60 fun n => by kernel_rfl⟩

/-- Arguments in another order, and a missing brace -/
example : Converts plainConfig c!"\\newcommand\\m[2]{#2\\alpha#1}\\m{ab} c d" .inline
    c!"<math><mi>c</mi><mi>α</mi><mi>a</mi><mi>b</mi><mi>d</mi></math>" := converts_of 60 fun n => by kernel_rfl

example : Converts plainConfig c!"c\\alpha ab d" .inline
    c!"<math><mi>c</mi><mi>α</mi><mi>a</mi><mi>b</mi><mi>d</mi></math>" := converts_of 60 fun n => by kernel_rfl

example : Rejects plainConfig c!"\\newcommand\\m[2]{#2\\alpha#1}\\m{ab" .inline (.unclosedGroup .groupClose) :=
  rejects_of 60 fun n => by kernel_rfl

end Verif

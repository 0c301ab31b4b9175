import Verif.Props.Compound
import Verif.Props.Color
import Verif.Props.BatchSession

/-! # C53, C54 and C55 without global state

A conversion without global state is one with the state reset before, and so the formulas of C53, C54 and C55 are shown the same. -/
namespace Verif
open Model Spec

/-- C17. A conversion without global state returns what a conversion with global state would return directly after a reset. -/
theorem C17_as_after_reset (fuel : Nat) (c : Converter) (src : Str) (display : MathDisplay) :
    (session fuel c [.reset, .withGlobalState src display]).1 = [.unit, (perform fuel c (.withLocalState src display)).1] := rfl

/-- What is converted after a reset is converted the same without global state. -/
theorem local_of_reset {c1 c2 : Converter} {src : Str} {display : MathDisplay} {r : Outcome Out}
    (h : Gives c1.resetGlobalState (.withGlobalState src display) (.one r) c2) :
    Gives c1 (.withLocalState src display) (.one r) c1 := by
  obtain ⟨n0, h⟩ := h
  refine ⟨n0, fun n hn => ?_⟩
  have := h n hn
  simp only [perform, Prod.mk.injEq, Reply.one.injEq] at this ⊢
  exact ⟨this.1, trivial⟩

/-- A reset is possible at any time. -/
theorem reaches_reset {c c1 : Converter} {calls : List Call} (h : Reaches c calls c1) :
    Reaches c (calls ++ [.reset]) c1.resetGlobalState :=
  reaches_append h ⟨0, fun _ _ => rfl⟩

/-- C53 without global state. The formula is shown whatever was converted before, and only macros of the configuration can redefine its
commands. (Missing: as in `C53_latex_partial`.) -/
theorem C53_latex_local_partial (config : MathCoreConfig) (hp : PlainSettings config) (c c1 : Converter)
    (hc : Converter.new config = .ok c) (calls : List Call) (hr : Reaches c calls c1) (tex : Tex)
    (ht : tex.proper false false = true) (src : Str) (hw : Prints tex.lexemes src)
    (ho : ∀ name, Lexeme.command name ∈ tex.lexemes → ¬ definedName c1.parserCfg.toParserConfig {} name)
    (display : MathDisplay) :
    ∃ out x, Gives c1 (.withLocalState src display) (.one (.ok out)) c1 ∧ readXml out.s = some [x] ∧
      DisplaysFormula config.annotation x.bare tex.trees src := by
  obtain ⟨out, x, h1, h2, h3⟩ := C53_latex_partial config hp c _ hc _ (reaches_reset hr) tex ht src hw ho display
  exact ⟨out, x, local_of_reset h1, h2, h3⟩

/-- C53 for displays, without global state. The lines are numbered from 1, whatever was converted before. (Missing: as in
`C53_display_partial`.) -/
theorem C53_display_local_partial (config : MathCoreConfig) (hp : PlainSettings config) (c c1 : Converter)
    (hc : Converter.new config = .ok c) (calls : List Call) (hr : Reaches c calls c1) (d : Display) (hd : d.proper = true)
    (src : Str) (hw : Prints d.lexemes src)
    (ho : ∀ name, Lexeme.command name ∈ d.lexemes → ¬ definedName c1.parserCfg.toParserConfig {} name)
    (hlines : d.lines.length < 65535) (display : MathDisplay) :
    ∃ out x table labels, Gives c1 (.withLocalState src display) (.one (.ok out)) c1 ∧ readXml out.s = some [x] ∧
      DisplaysFormula config.annotation x.bare [d.tree] src ∧
      x = documentWith (outputSettings config labels) [table] src display ∧
      (tableCells table).map List.getLast? = (d.tags 0).map (fun t => some (besideLine t)) ∧
      labels = (d.labels 0).foldl (fun m l => m.insert l.1 l.2) ({} : GlobalState).labelMap := by
  obtain ⟨out, x, table, c2, h1, h2, h3, h4, h5, -, h6⟩ := C53_display_partial config hp c _ hc _ (reaches_reset hr) d hd src hw ho
    hlines (by show 0 + _ < _; omega) display
  exact ⟨out, x, table, _, local_of_reset h1, h2, h3, h4, h5, h6⟩

/-- C54 without global state. (Missing: as in `C54_color_partial`.) -/
theorem C54_color_local_partial (config : MathCoreConfig) (hp : PlainSettings config) (c c1 : Converter)
    (hc : Converter.new config = .ok c) (calls : List Call) (hr : Reaches c calls c1) (x : Colour) (hx : x.proper = true) (tex : Tex)
    (ht : tex.proper false false = true) (src : Str) (hw : Prints (x.lexemes ++ tex.lexemes) src)
    (ho : ∀ name, Lexeme.command name ∈ x.lexemes ++ tex.lexemes → ¬ definedName c1.parserCfg.toParserConfig {} name)
    (display : MathDisplay) :
    ∃ out kids, Gives c1 (.withLocalState src display) (.one (.ok out)) c1 ∧
      readXml out.s = some [documentWith (outputSettings config ({} : GlobalState).labelMap)
        [.elem c!"mrow" [(c!"style", x.levels.css)] kids] src display] ∧
      DisplaysAll (Xml.bares kids) tex.trees := by
  obtain ⟨out, kids, h1, h2, h3⟩ := C54_color_partial config hp c _ hc _ (reaches_reset hr) x hx tex ht src hw ho display
  exact ⟨out, kids, local_of_reset h1, h2, h3⟩

/-- C54. What is not a colour is rejected without global state too. -/
theorem C54_rejected_local (c1 : Converter) (model : Option Str) (text what : Str) (h : NoColour model text what)
    (hm : (model.all fun m => m.all isAsciiAlpha) = true) (htext : text.all isTagChar = true) (tex : Tex)
    (ht : tex.proper false false = true) (src : Str) (hw : Prints (colorLexemes model text ++ tex.lexemes) src)
    (ho : ∀ name, Lexeme.command name ∈ colorLexemes model text ++ tex.lexemes →
      ¬ definedName c1.parserCfg.toParserConfig {} name) (display : MathDisplay) :
    ∃ e, Gives c1 (.withLocalState src display) (.one (.err e)) c1 ∧ e.kind = .unknownColor what := by
  obtain ⟨e, c2, h1, h2⟩ := C54_rejected c1.resetGlobalState model text what h hm htext tex ht src hw ho display
  exact ⟨e, local_of_reset h1, h2⟩

/-- C55 without global state. (Missing: as in `C55_compound_partial`.) -/
theorem C55_compound_local_partial (config : MathCoreConfig) (hp : PlainSettings config) (c c1 : Converter)
    (hc : Converter.new config = .ok c) (calls : List Call) (hr : Reaches c calls c1) (chain : Chain)
    (ht : chain.proper = true) (hn : chain.links ≤ c1.parserCfg.maxExpansions) (src : Str) (hw : Prints chain.lexemes src)
    (ho : ∀ name, Lexeme.command name ∈ chain.lexemes → ¬ definedName c1.parserCfg.toParserConfig {} name)
    (display : MathDisplay) :
    ∃ out x, Gives c1 (.withLocalState src display) (.one (.ok out)) c1 ∧ readXml out.s = some [x] ∧
      DisplaysFormula config.annotation x.bare chain.trees src := by
  obtain ⟨out, x, h1, h2, h3⟩ := C55_compound_partial config hp c _ hc _ (reaches_reset hr) chain ht hn src hw ho display
  exact ⟨out, x, local_of_reset h1, h2, h3⟩

/-! ### The hypotheses are met -/

/-- The example of C55 is shown whatever was converted before, also if that was a redefinition of `\frac`. -/
example (c c1 : Converter) (hc : Converter.new plainConfig = .ok c) (calls : List Call) (hr : Reaches c calls c1) :
    ∃ out x, Gives c1 (.withLocalState (printLexemes chainExample.lexemes) .inline) (.one (.ok out)) c1 ∧ readXml out.s = some [x] ∧
      DisplaysFormula false x.bare chainExample.trees (printLexemes chainExample.lexemes) := by
  have hp : chainExample.proper = true := by decide +kernel
  have e : c1.parserCfg = c.parserCfg := (reaches_cfg hr).1
  have hc' := hc
  simp only [show Converter.new plainConfig = .ok _ from rfl, Except.ok.injEq] at hc'
  refine C55_compound_local_partial plainConfig ⟨by unfold PlainValue; decide, by unfold PlainValue; decide, fun _ => by simp [PlainValue, plainConfig]⟩ c c1 hc calls hr chainExample hp ?_ _ (prints_all (chain_print _ hp)) ?_ .inline
  · rw [e, ← hc']; decide +kernel
  · rw [e, ← hc']
    rintro name - (h | h)
    · exact absurd h Bool.false_ne_true
    · exact absurd h Bool.false_ne_true

end Verif

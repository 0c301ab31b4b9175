import Verif.Props.Tex
import Verif.Lemmas.Broken
/-! Property C56: formulas in which something does not belong where it is. -/
namespace Verif
open Model Spec

/-- The tokens of such a formula, and the error -/
theorem broken_parses {cfg : SnippetConfig} {g : GlobalState} {src : Str} {b : Broken} (display : MathDisplay)
    (hb : b.proper none false = true) (hw : Prints b.lexemes src)
    (ho : ∀ name, Lexeme.command name ∈ b.lexemes → ¬ definedName cfg.toParserConfig g name) :
    ∃ n0 e g', b.Reason none e.kind ∧ ∀ n, n0 ≤ n → parseSnippet n cfg g src display = .err e g' := by
  let l0 : Loc := ⟨display.style, {}, g.equationCount, g.labelMap, cfg.maxExpansions, false⟩
  let k : Ctx :=
    ⟨⟨cfg.customCmds, g.customCmds, {}⟩, g.equationCount, g.labelMap, none, false, {}, display.style, none,
      cfg.maxExpansions⟩
  obtain ⟨K, h1, -, h3, h4⟩ := broken_fails (cfg := cfg.toParserConfig) (k := k) ⟨rfl, rfl⟩ b hb
  have hs : Spells cfg.toParserConfig g src (tks b.lexemes) := by
    refine prints_spells hw fun l hl => ?_
    have h := h3 l hl
    cases l with
    | char c => trivial
    | next c => trivial
    | blank => trivial
    | command name => exact ⟨ho name hl, h⟩
    | opens name => exact h
    | closes name => exact h
  obtain ⟨q, hq, his⟩ := Spells.start hs cfg.maxExpansions display.style
  have hd := does_sequence (cfg := cfg.toParserConfig) (k := k) (l := l0) (keep := true) (F := .error K) (fol := [])
    (en := ⟨.eoi, false⟩) rfl rfl (h4 l0 rfl rfl .opening [])
  obtain ⟨n0, er, s', g1, g2⟩ := hd _ his
  refine ⟨n0, er, s'.q.globalState, g2 ▸ h1, fun n hn => ?_⟩
  unfold parseSnippet
  rw [hq]
  have g3 : parse n cfg.toParserConfig (initialState cfg.maxExpansions q display.style) = _ := g1 n hn
  dsimp only
  rw [g3]

/-- C56. Take a formula of LaTeX up to a point, at any depth of braces, fences, environments, arguments and scripts, and continue there with
something which does not belong: a `}`, `\right` or `\end` which closes nothing, an `\end` with another name than the `\begin`, the end of the
source while something is still open, an `&` where there are no columns, a `$`, a command or a `^` without its argument, a `^` or `_` after
another one, or a second script of the same kind. Whatever comes after it, however much whitespace there is, and after any history, if the user
has not redefined the commands the converter rejects it, and the message says which of these it is. -/
theorem C56_rejected (c1 : Converter) (b : Broken) (hb : b.proper none false = true) (src : Str) (hw : Prints b.lexemes src)
    (ho : ∀ name, Lexeme.command name ∈ b.lexemes → ¬ definedName c1.parserCfg.toParserConfig c1.state name)
    (display : MathDisplay) :
    ∃ e c2, Gives c1 (.withGlobalState src display) (.one (.err e)) c2 ∧ b.Reason none e.kind := by
  obtain ⟨n0, e, g', h1, h2⟩ := broken_parses (cfg := c1.parserCfg) display hb hw ho
  refine ⟨e, { c1 with state := g' }, ⟨n0, fun n hn => ?_⟩, h1⟩
  simp only [perform, Converter.convertWithGlobalState, convert, h2 n hn]
  rfl

/-- C56. The same without global state -/
theorem C56_rejected_local (c1 : Converter) (b : Broken) (hb : b.proper none false = true) (src : Str) (hw : Prints b.lexemes src)
    (ho : ∀ name, Lexeme.command name ∈ b.lexemes → ¬ definedName c1.parserCfg.toParserConfig {} name)
    (display : MathDisplay) :
    ∃ e, Gives c1 (.withLocalState src display) (.one (.err e)) c1 ∧ b.Reason none e.kind := by
  obtain ⟨n0, e, g', h1, h2⟩ := broken_parses (cfg := c1.parserCfg) (g := {}) display hb hw ho
  refine ⟨e, ⟨n0, fun n hn => ?_⟩, h1⟩
  simp only [perform, Converter.convertWithLocalState, convert, h2 n hn]
  rfl

/-! ### Non-vacuity -/

/-- `x\left( \begin{pmatrix}y`, and there something is wrong. -/
def brokenExample (x : Stray) (rest : Tex) : Broken :=
  .inside (letters c!"x" .nil) (.left ⟨.char '(', 0x28⟩) (.inside .nil (.begins ⟨c!"pmatrix", some 0x28, some 0x29, true⟩)
    (.here (letters c!"y" .nil) x rest))

example : (brokenExample .brace (letters c!"z" .nil)).proper none false = true ∧
    (brokenExample (.right ⟨.char ')', 0x29⟩) (letters c!"z" .nil)).proper none false = true ∧
    (brokenExample .dollar .nil).proper none false = true ∧ (brokenExample .stop .nil).proper none false = true ∧
    (brokenExample .amp .nil).proper none false = false := by decide +kernel

example : String.ofList (printLexemes (brokenExample .brace (letters c!"z" .nil)).lexemes) =
    "x\\left (\\begin{pmatrix}y}z" := by decide +kernel

example : (brokenExample .stop .nil).Reason none (.unclosedGroup .endEnv) ∧
    (brokenExample .brace .nil).Reason none (.unmatchedClose .groupClose) ∧
    ¬ (brokenExample .brace .nil).Reason none (.unmatchedClose .right) := ⟨rfl, rfl, nofun⟩

example : (Broken.inside (letters c!"x" .nil) .brace (.here (letters c!"y" .nil) .amp .nil)).proper none false = true := by
  decide +kernel

/-- `{\begin{matrix}a&b\end{pmatrix}` -/
def renamedExample : Broken :=
  .inside .nil .brace (.renamed .nil ⟨c!"matrix", none, none, true⟩ ⟨c!"pmatrix", some 0x28, some 0x29, true⟩
    (.amp (letters c!"a" .nil) (.last (letters c!"b" .nil))) .nil)

example : renamedExample.proper none false = true := by decide +kernel

example : renamedExample.Reason none (.mismatchedEnvironment .matrix .pMatrix) := ⟨.matrix, .pMatrix, rfl, by decide +kernel, by decide +kernel⟩

/-- `x \begin{pmatrix} a & b \\ \frac{c}{\hat{x^{` and so on -/
def deepExample (b : Broken) : Broken :=
  .inside (letters c!"x" .nil) (.begins ⟨c!"pmatrix", some 0x28, some 0x29, true⟩) (.cell (letters c!"a" .nil) false
    (.cell (letters c!"b" .nil) true (.inside .nil (.argument (.over false c!"frac" (.braces (letters c!"c" .nil))))
      (.inside .nil (.argument (.accent ⟨c!"hat", 0x2c6, true⟩)) (.inside .nil (.argument (.script (.char 'x') true)) b)))))

example : (deepExample (.here (letters c!"y" .nil) .stop .nil)).proper none false = true ∧
    (deepExample (.missing (letters c!"y" .nil) .root .brace .nil)).proper none false = true ∧
    (deepExample (.missing .nil (.script (.number c!"2" []) false) .stop .nil)).proper none false = true ∧
    (deepExample (.marks .nil (.char 'z') true '_' .nil)).proper none false = true ∧
    (deepExample (.twice .nil (.function ⟨c!"lim", c!"lim", true⟩) false (.braces .nil) (.braces .nil) .nil)).proper none false = true := by
  decide +kernel

example : String.ofList (printLexemes (deepExample (.missing (letters c!"y" .nil) .root .brace .nil)).lexemes) =
    "x\\begin{pmatrix}a&b\\\\ \\frac {c}{\\hat {x^{y\\sqrt }" := by decide +kernel

example (b : Broken) (k : LatexErrKind) : (deepExample b).Reason none k ↔ b.Reason (some (.argument (.script (.char 'x') true))) k := Iff.rfl

end Verif

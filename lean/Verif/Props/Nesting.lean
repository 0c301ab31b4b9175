import Verif.Lemmas.NestSource
import Verif.Lemmas.Witness
/-! C36: what is opened is closed. -/
namespace Verif
open Model Spec

/-! ### What a successful conversion has read -/

/-- C36. After any history, if the conversion of a source succeeds, then the source, with macros replaced by what they
stand for and definitions carried out, comes to a sequence of tokens up to its end, in which braces, `\left … \right` and
`\begin … \end` are properly nested, with the same name at the end of an environment as at its beginning, and in which
there is `&` only where the innermost environment has columns.

What is missing is that this is not so if the text of a command for text begins with another such command, without
braces (`TextArgs`); see `C36_stray_brace`. -/
theorem C36_nested_partial (config : MathCoreConfig) (c c1 c2 : Converter) (hc : Converter.new config = .ok c)
    (calls : List Call) (hr : Reaches c calls c1) (call : Call) (src : Str) (st : CmdStores)
    (ho : ConvertsOne c1 call src st) (out : Out) (h : Gives c1 call (.one (.ok out)) c2) :
    ∃ w st' u', Unfolds c1.parserCfg.toParserConfig st (sourceStream c1.parserCfg.toParserConfig st src) w st' u' ∧
      AtEnd u' ∧ (TextArgs w → Nested w) :=
  convertsOne_word (reaches_ok hr (.new hc)) ho h

/-- Without commands for text, there is nothing to say about them. -/
theorem textArgs_of_none {w : List Token} (h : ∀ t ∈ w, isTextCmd t = false ∧ t ≠ .raiseBox) : TextArgs w := by
  intro pre hd t post he _
  refine h t ?_
  have : t ∈ w.filter fun t => !t.isWs := by rw [he]; simp
  exact (List.mem_filter.1 this).1

theorem convertsOne_stores {c : Converter} {call : Call} {src : Str} {st : CmdStores} (hc : ConvOk c)
    (ho : ConvertsOne c call src st) : StoresFit st := by
  cases ho with
  | withGlobalState => exact hc.state.plain.fit
  | withLocalState => exact (StateOk.empty hc.cfg 0 []).plain.fit

/-- C36, for sources without macros and definitions: if the conversion succeeds, then the tokens of the source are
properly nested. (Like in C36_nested_partial, commands for text have proper arguments.) -/
theorem C36_source_partial (config : MathCoreConfig) (c c1 c2 : Converter) (hc : Converter.new config = .ok c)
    (calls : List Call) (hr : Reaches c calls c1) (call : Call) (src : Str) (st : CmdStores)
    (ho : ConvertsOne c1 call src st)
    (hm : ∀ t ∈ mathTokens c1.parserCfg.toParserConfig st (tokensOf src).1, isMacro t = false ∧ isDefinition t = false)
    (ht : TextArgs (mathTokens c1.parserCfg.toParserConfig st (tokensOf src).1))
    (out : Out) (h : Gives c1 call (.one (.ok out)) c2) :
    (tokensOf src).2 = none ∧ Nested (mathTokens c1.parserCfg.toParserConfig st (tokensOf src).1) := by
  have hok := reaches_ok hr (.new hc)
  obtain ⟨w, st', u', h1, h2, h3⟩ := convertsOne_word hok ho h
  obtain ⟨h4, a, b, h5, h6, h7⟩ := source_word (convertsOne_stores hok ho) (fun o ho => hm _ (List.mem_map_of_mem ho)) h1 h2
  refine ⟨h4, ?_⟩
  rw [h5] at ht ⊢
  unfold mathTokens at ht ⊢
  rw [List.map_append] at ht ⊢
  have := h3 (alike_textArgs h6 ht.left)
  unfold Nested at this ⊢
  rw [nest_append]
  rw [alike_nest h6] at this
  unfold mathTokens at this h7
  rw [this]
  exact calm_nest h7 []

/-- C36, the other way round: a source without macros, definitions and commands for text which is not properly nested is
rejected, whatever was converted before. -/
theorem C36_rejected (config : MathCoreConfig) (c c1 : Converter) (hc : Converter.new config = .ok c)
    (calls : List Call) (hr : Reaches c calls c1) (call : Call) (src : Str) (st : CmdStores)
    (ho : ConvertsOne c1 call src st)
    (hm : ∀ t ∈ mathTokens c1.parserCfg.toParserConfig st (tokensOf src).1,
      isMacro t = false ∧ isDefinition t = false ∧ isTextCmd t = false ∧ t ≠ .raiseBox)
    (hn : ¬ Nested (mathTokens c1.parserCfg.toParserConfig st (tokensOf src).1)) :
    ∃ e c2, Gives c1 call (.one (.err e)) c2 := by
  have hok := reaches_ok hr (.new hc)
  obtain ⟨n0, r, c2, h1, h2, -⟩ := perform_spec hok call fun _ _ => sourceOk_nothing _
  have key : ∀ out, r ≠ .one (.ok out) := by
    rintro out rfl
    exact hn (C36_source_partial config c c1 c2 hc calls hr call src st ho (fun t ht => ⟨(hm t ht).1, (hm t ht).2.1⟩)
      (textArgs_of_none fun t ht => (hm t ht).2.2) out ⟨n0, h1⟩).2
  cases ho <;> cases r <;> first
    | (rename_i r; cases r <;> first
      | exact absurd rfl (key _)
      | exact ⟨_, c2, n0, h1⟩
      | exact h2.elim
      | exact h2.1.elim)
    | exact h2.elim
    | exact h2.1.elim

/-! ### Examples -/

/-- The tokens of a source for a new converter -/
def nestExample (src : Str) : List Token := mathTokens {} ⟨{}, {}, {}⟩ (tokensOf src).1

/-- A source which meets all the conditions, is properly nested and is converted -/
example : (nestExample c!"\\begin{matrix} {a} & \\left(b\\right) \\end{matrix}").all
      (fun t => !isMacro t && !isDefinition t && !isTextCmd t) = true ∧
    Nested (nestExample c!"\\begin{matrix} {a} & \\left(b\\right) \\end{matrix}") := by
  unfold Nested; decide +kernel

example : Converts plainConfig c!"\\begin{matrix} {a} & \\left(b\\right) \\end{matrix}" .inline
    c!"<math><mtable displaystyle=\"false\" scriptlevel=\"0\"><mtr><mtd><mi>a</mi></mtd><mtd><mrow><mo>(</mo><mi>b</mi><mo>)</mo></mrow></mtd></mtr></mtable></math>" :=
  converts_of 60 fun n => by kernel_rfl

/-- Sources which are not properly nested: an environment with two names, `&` where there are no columns, a group which
overlaps `\left … \right`, and braces which are missing -/
example : nest [] (nestExample c!"\\begin{matrix}a\\end{array}") = none ∧
    nest [] (nestExample c!"\\begin{gather}a&b\\end{gather}") = none ∧
    nest [] (nestExample c!"\\left({a\\right)}") = none ∧ nest [] (nestExample c!"a}") = none ∧
    nest [] (nestExample c!"{a") = some [.group] := by decide +kernel

example : Rejects plainConfig c!"\\begin{matrix}a\\end{array}" .inline (.mismatchedEnvironment .matrix .array) :=
  rejects_of 60 fun n => by kernel_rfl

/-- Macros may be unbalanced: what counts is what they stand for. -/
example : Converts plainConfig c!"\\newcommand\\m{\\begin{matrix}}\\m a\\end{matrix}" .inline
    c!"<math><mtable displaystyle=\"false\" scriptlevel=\"0\"><mtr><mtd><mi>a</mi></mtd></mtr></mtable></math>" :=
  converts_of 60 fun n => by kernel_rfl

/-! ### Text -/

/-- C36 is false for commands for text which follow each other without braces: a brace which closes nothing is
accepted … -/
theorem C36_stray_brace : Converts plainConfig c!"\\text\\textbf{a}}" .inline
    c!"<math><mtext><b>a</b></mtext></math>" ∧ ¬ Nested (nestExample c!"\\text\\textbf{a}}") :=
  ⟨converts_of 60 fun n => by kernel_rfl, by unfold Nested; decide +kernel⟩

/-- … and the source without it, which is properly nested, is rejected because a brace is missing. -/
theorem C36_missing_brace : Rejects plainConfig c!"\\text\\textbf{a}" .inline (.unclosedGroup .groupClose) ∧
    Nested (nestExample c!"\\text\\textbf{a}") :=
  ⟨rejects_of 60 fun n => by kernel_rfl, by unfold Nested; decide +kernel⟩

end Verif

import Verif.Lemmas.Witness
import Verif.Spec.Xml
import Verif.Spec.Tree
import Verif.Props.Cli
/-! Sources for which the converter does not do what it should: counterexamples to properties which are only proved
with restrictions. Each of them is a complete conversion by a new converter. -/
namespace Verif
open Model Spec

/-! ### C22, well-formed output -/

/-- C22 is false for `\mathrel\big|` (in a release build): there are two attributes of the same name. -/
theorem C22_duplicate_attribute : ∃ text, Converts plainConfig c!"\\mathrel\\big|" .inline text ∧ readXml text = none :=
  ⟨_, converts_of (text := c!"<math><mo stretchy=\"false\" stretchy=\"true\" symmetric=\"true\" lspace=\"0\" rspace=\"0\" minsize=\"1.2em\" maxsize=\"1.2em\">|</mo></math>")
    20 fun n => by kernel_rfl, by decide +kernel⟩

/-- The same happens between `\left` and `\right`. -/
theorem C22_duplicate_attribute_middle :
    ∃ text, Converts plainConfig c!"\\left( a \\mathrel{\\middle|} b \\right)" .inline text ∧ readXml text = none :=
  ⟨_, converts_of (text := c!"<math><mrow><mo>(</mo><mi>a</mi><mo stretchy=\"false\" stretchy=\"true\" lspace=\"0.2778em\" rspace=\"0.2778em\">|</mo><mi>b</mi><mo>)</mo></mrow></math>")
    40 fun n => by kernel_rfl, by decide +kernel⟩

/-- C22 is false for names of operators: they are markup in the output, although the source has no such thing as
markup. -/
theorem C22_markup_injection : Converts plainConfig c!"\\operatorname{<img src=x onerror=alert(1)>}" .inline
    c!"<math><mo lspace=\"0\" rspace=\"0\"><imgsrc=xonerror=alert(1)></mo></math>" :=
  converts_of 60 fun n => by kernel_rfl

/-- … and elements can be closed. -/
theorem C22_markup_injection_closes :
    ∃ text, Converts plainConfig c!"\\operatorname{</mo></math><script>x}" .inline text ∧ readXml text = none :=
  ⟨_, converts_of (text := c!"<math><mo lspace=\"0\" rspace=\"0\"></mo></math><script>x</mo></math>")
    60 fun n => by kernel_rfl, by decide +kernel⟩

/-- C22 is false for fractions whose argument is a column separator: the fraction has only one child. -/
theorem C22_fraction_with_one_child :
    ∃ text t, Converts plainConfig c!"\\begin{matrix}\\frac & b\\end{matrix}" .inline text ∧
      readXml text = some [t] ∧ ¬ shaped t := by
  refine ⟨c!"<math><mtable displaystyle=\"false\" scriptlevel=\"0\"><mtr><mtd><mfrac><mi>b</mi></mfrac></mtd></mtr></mtable></math>",
    .elem c!"math" [] [.elem c!"mtable" [(c!"displaystyle", c!"false"), (c!"scriptlevel", c!"0")]
      [.elem c!"mtr" [] [.elem c!"mtd" [] [.elem c!"mfrac" [] [.elem c!"mi" [] [.text c!"b"]]]]]],
    converts_of 40 fun n => by kernel_rfl, by kernel_rfl, ?_⟩
  intro h
  simp only [shaped, shapedAll] at h
  exact absurd (h.2.2.1.2.2.1.2.2.1.2.2.1.1 2 (by decide +kernel)) (by decide)

/-- C22 is false for control characters: they are passed on, although no document of XML may contain them. -/
theorem C22_control_character : ∃ text, Converts plainConfig c!"a\x01b" .inline text ∧ '\x01' ∈ text :=
  ⟨_, converts_of (text := c!"<math><mi>a</mi><mi>\x01</mi><mi>b</mi></math>") 20 fun n => by kernel_rfl, by decide +kernel⟩

/-! ### C45, bars in `\Braket` -/

/-- A bar in `\Braket` grows with its delimiters … -/
theorem C45_bar_in_braket : Converts plainConfig c!"\\Braket{{a}|b}" .inline
    c!"<math><mrow><mo>⟨</mo><mi>a</mi><mo stretchy=\"true\" form=\"infix\" lspace=\"0.1667em\" rspace=\"0.1667em\">|</mo><mi>b</mi><mo>⟩</mo></mrow></math>" :=
  converts_of 160 fun n => by kernel_rfl

/-- … but not after another `\Braket` in it: the end of the inner one ends the meaning of the bar for the outer one, too. -/
theorem C45_bar_after_inner_braket : Converts plainConfig c!"\\Braket{\\Braket{a}|b}" .inline
    c!"<math><mrow><mo>⟨</mo><mrow><mo>⟨</mo><mi>a</mi><mo>⟩</mo></mrow><mo stretchy=\"false\" lspace=\"0\" rspace=\"0\">|</mo><mi>b</mi><mo>⟩</mo></mrow></math>" :=
  converts_of 160 fun n => by kernel_rfl

/-! ### C25, cells of tables -/

/-- C25 is false for separators after `\displaystyle`: there is one cell instead of two. -/
theorem C25_separator_lost_after_style : Converts plainConfig c!"\\begin{matrix}\\displaystyle a & b\\end{matrix}" .inline
    c!"<math><mtable displaystyle=\"false\" scriptlevel=\"0\"><mtr><mtd><mrow displaystyle=\"true\" scriptlevel=\"0\"><mi>a</mi><mi>b</mi></mrow></mtd></mtr></mtable></math>" :=
  converts_of 40 fun n => by kernel_rfl

/-- C25 is false for separators after an infix fraction: the rest of the table is the denominator, with all its cells. -/
theorem C25_separator_lost_after_over : Converts plainConfig c!"\\begin{matrix}a\\over b & c\\\\d\\end{matrix}" .inline
    c!"<math><mtable displaystyle=\"false\" scriptlevel=\"0\"><mtr><mtd><mfrac><mi>a</mi><mrow><mi>b</mi><mi>c</mi><mi>d</mi></mrow></mfrac></mtd></mtr></mtable></math>" :=
  converts_of 80 fun n => by kernel_rfl

/-- C25 is false for separators after `\color`. -/
theorem C25_separator_lost_after_color : Converts plainConfig c!"\\begin{matrix}\\color{red}a & b\\end{matrix}" .inline
    c!"<math><mtable displaystyle=\"false\" scriptlevel=\"0\"><mtr><mtd><mrow style=\"color:#FF0000;\"><mi>a</mi><mi>b</mi></mrow></mtd></mtr></mtable></math>" :=
  converts_of 80 fun n => by kernel_rfl

/-- C25 is false for separators in groups. -/
theorem C25_separator_lost_in_group : Converts plainConfig c!"\\begin{matrix}{a & b}\\end{matrix}" .inline
    c!"<math><mtable displaystyle=\"false\" scriptlevel=\"0\"><mtr><mtd><mrow><mi>a</mi><mi>b</mi></mrow></mtd></mtr></mtable></math>" :=
  converts_of 40 fun n => by kernel_rfl

/-! ### C20 and C21, equation numbers -/

/-- C20 is false for line breaks between `\left` and `\right`: the number (1) is used up, but not shown. -/
theorem C20_number_lost : Converts plainConfig c!"\\begin{align}\\left(a \\\\ c\\right)\\end{align}" .block
    c!"<math display=\"block\"><mtable displaystyle=\"true\" scriptlevel=\"0\" style=\"width: 100%\"><mtr><mtd style=\"width: 50%\"></mtd><mtd style=\"text-align: right;justify-items: end;padding-right: 0;\"><mrow><mo>(</mo><mi>a</mi><mi>c</mi><mo>)</mo></mrow></mtd><mtd style=\"width: 50%;text-align: right;justify-items: end;\"><mtext>(2)</mtext></mtd></mtr></mtable></math>" :=
  converts_of 40 fun n => by kernel_rfl

/-- C20 is false for rows with both `\tag` and `\nonumber`: the next row has no number. -/
theorem C20_suppressed_next_row : Converts plainConfig c!"\\begin{align} a \\tag{x}\\nonumber \\\\ b \\end{align}" .block
    c!"<math display=\"block\"><mtable displaystyle=\"true\" scriptlevel=\"0\" style=\"width: 100%\"><mtr><mtd style=\"width: 50%\"></mtd><mtd style=\"text-align: right;justify-items: end;padding-right: 0;\"><mi>a</mi></mtd><mtd style=\"width: 50%;text-align: right;justify-items: end;\"><mtext>(x)</mtext></mtd></mtr><mtr><mtd style=\"width: 50%\"></mtd><mtd style=\"text-align: right;justify-items: end;padding-right: 0;\"><mi>b</mi></mtd><mtd style=\"width: 50%\"></mtd></mtr></mtable></math>" :=
  converts_of 60 fun n => by kernel_rfl

/-- C21 is false for labels which are not in the last row of `multline`: they are lost. -/
theorem C21_label_lost : Converts plainConfig c!"\\begin{multline} a \\label{x}\\\\ b \\end{multline}\\eqref{x}" .block
    c!"<math display=\"block\"><mtable displaystyle=\"true\" scriptlevel=\"0\" style=\"width: 100%\"><mtr><mtd style=\"width: 7.5%\"></mtd><mtd style=\"text-align: left;justify-items: start;\"><mi>a</mi></mtd><mtd style=\"width: 7.5%\"></mtd></mtr><mtr><mtd style=\"width: 7.5%\"></mtd><mtd style=\"text-align: right;justify-items: end;\"><mi>b</mi></mtd><mtd style=\"width: 7.5%;text-align: right;justify-items: end;\"><mtext>(1)</mtext></mtd></mtr></mtable><mtext><a href=\"#x\">(??)</a></mtext></math>" :=
  converts_of 60 fun n => by kernel_rfl

/-! ### C37, space -/

/-- C37 is false for arguments in braces: there is a thin space after `\sin` in `\sin x`, but none in `\sin{x}`, where
TeX has the same. -/
theorem C37_braces :
    Converts plainConfig c!"\\sin x" .inline c!"<math><mo lspace=\"0\" rspace=\"0.1667em\">sin</mo><mi>x</mi></math>" ∧
    Converts plainConfig c!"\\sin{x}" .inline c!"<math><mo lspace=\"0\" rspace=\"0\">sin</mo><mi>x</mi></math>" :=
  ⟨converts_of 20 fun n => by kernel_rfl, converts_of 20 fun n => by kernel_rfl⟩

/-- C37 is false for relations with scripts: there is a thick space between two relations if the first one has a
subscript. -/
theorem C37_relation_with_script :
    Converts plainConfig c!"a==c" .inline c!"<math><mi>a</mi><mo rspace=\"0\">=</mo><mo lspace=\"0\">=</mo><mi>c</mi></math>" ∧
    Converts plainConfig c!"a=_b=c" .inline c!"<math><mi>a</mi><msub><mo>=</mo><mi>b</mi></msub><mo lspace=\"0\">=</mo><mi>c</mi></math>" :=
  ⟨converts_of 20 fun n => by kernel_rfl, converts_of 20 fun n => by kernel_rfl⟩

/-- C37 is false for `\left…\right`, which TeX treats as an atom of type inner: there is no thin space before the
next letter. -/
theorem C37_fence :
    Converts plainConfig c!"\\left(a\\right)b" .inline
      c!"<math><mrow><mo>(</mo><mi>a</mi><mo>)</mo></mrow><mi>b</mi></math>" :=
  converts_of 20 fun n => by kernel_rfl

/-- C37 is false for `\overbrace`, which is an operator for TeX: there is no thin space before the next letter. -/
theorem C37_overbrace :
    Converts plainConfig c!"\\overbrace{a}b" .inline
      c!"<math><mover accent=\"true\"><mi>a</mi><mo>⏞</mo></mover><mi>b</mi></math>" :=
  converts_of 20 fun n => by kernel_rfl

/-- C37 is false after `\mathbin{x}` where nothing precedes it: it is an ordinary atom then, so that the next sign is a
binary operator with spaces on both sides, but none are shown. -/
theorem C37_mathbin :
    Converts plainConfig c!"\\mathbin{x}-y" .inline
      c!"<math><mpadded style=\"padding-left:0;padding-right:0;\"><mi>x</mi></mpadded><mo lspace=\"0\" rspace=\"0\">−</mo><mi>y</mi></math>" :=
  converts_of 20 fun n => by kernel_rfl

/-- C37 is false after `\overset{!}{=}`, where the equals sign is in braces: it is a relation for TeX, so that the next
sign is not a binary operator, but it is shown with spaces on both sides. -/
theorem C37_overset :
    Converts plainConfig c!"a\\overset!=-b" .inline
      c!"<math><mi>a</mi><mover><mo>=</mo><mo form=\"postfix\">!</mo></mover><mo lspace=\"0\" rspace=\"0\">−</mo><mi>b</mi></math>" ∧
    Converts plainConfig c!"a\\overset{!}{=}-b" .inline
      c!"<math><mi>a</mi><mover><mo>=</mo><mo form=\"postfix\">!</mo></mover><mo>−</mo><mi>b</mi></math>" :=
  ⟨converts_of 30 fun n => by kernel_rfl, converts_of 30 fun n => by kernel_rfl⟩

/-! ### C40, alphabets -/

/-- C40 is false for a capital I in Fraktur: it becomes a double-struck H. -/
theorem C40_fraktur_I_converted : Converts plainConfig c!"\\mathfrak{I}" .inline c!"<math><mi>ℍ</mi></math>" :=
  converts_of 20 fun n => by kernel_rfl

/-! ### C10 and C43, definitions in arguments, internal errors -/

/-- C43 is false for a set whose argument ends in the middle of something: the error is an internal one, without
a position, because the script of `x` is a token which the author of the formula has never written. -/
theorem C43_internal_error_set : Rejects plainConfig c!"\\set{x_}" .inline .internal :=
  rejects_of 40 fun n => by kernel_rfl

/-- The same for `\Set` and `\Braket` -/
theorem C43_internal_error_braket :
    Rejects plainConfig c!"\\Set{\\hat}" .inline .internal ∧ Rejects plainConfig c!"\\Braket{\\sqrt}" .inline .internal :=
  ⟨rejects_of 40 fun n => by kernel_rfl, rejects_of 40 fun n => by kernel_rfl⟩

/-- The same configuration, but unknown commands are shown -/
def lenientConfig : MathCoreConfig := { plainConfig with ignoreUnknownCommands := true }

/-- C43 is false for definitions in the argument of a macro, if unknown commands are to be shown. -/
theorem C43_internal_error_definition :
    Rejects lenientConfig c!"\\newcommand\\m[1]{a#1\\y{2}}\\m{\\def\\y{1}\\newcommand}" .inline .internal :=
  rejects_of 80 fun n => by kernel_rfl

/-- The same if unknown commands are errors -/
theorem C43_internal_error_definition_strict :
    Rejects plainConfig c!"\\newcommand\\m[2]{a#1\\x{1}#2\\x{2}}\\m{\\def}{\\newcommand}" .inline .internal :=
  rejects_of 80 fun n => by kernel_rfl

/-- C10 is false for `\def` in the argument of a macro: the name which it defines is not known in the rest of the body of
the macro. With `\newcommand` it is. -/
theorem C10_definition_not_seen :
    Rejects plainConfig c!"\\newcommand\\m[1]{a#1\\x{1}\\x}\\m{\\def}" .inline (.unknownCommand c!"x") ∧
    Converts plainConfig c!"\\newcommand\\m[1]{a#1\\x{1}\\x}\\m{\\newcommand}" .inline
      c!"<math><mi>a</mi><mn>1</mn></math>" :=
  ⟨rejects_of 80 fun n => by kernel_rfl, converts_of 80 fun n => by kernel_rfl⟩

/-- C10 is false for redefinitions in the argument of a macro: `\x` stands for 2 after `\renewcommand\x{2}`, but the
`\x` in the body of the macro, which comes later, still gives 1. -/
theorem C10_redefinition_too_late :
    Converts plainConfig c!"\\newcommand\\x{1}\\newcommand\\m[1]{a#1\\x}\\m{\\renewcommand\\x{2}}" .inline
      c!"<math><mi>a</mi><mn>1</mn></math>" ∧
    Converts plainConfig c!"\\newcommand\\x{1}a\\renewcommand\\x{2}\\x" .inline
      c!"<math><mi>a</mi><mn>2</mn></math>" :=
  ⟨converts_of 80 fun n => by kernel_rfl, converts_of 80 fun n => by kernel_rfl⟩

/-- C10 is false for new names in the argument of a macro: `\y` is not defined, but it cannot be defined either. -/
theorem C10_no_new_name_in_argument :
    Rejects plainConfig c!"\\newcommand\\m[1]{a#1}\\m{\\newcommand\\y{1}}" .inline (.unknownCommand c!"y") ∧
    Converts plainConfig c!"a\\newcommand\\y{1}\\y" .inline c!"<math><mi>a</mi><mn>1</mn></math>" :=
  ⟨rejects_of 80 fun n => by kernel_rfl, converts_of 80 fun n => by kernel_rfl⟩

/-! ### C33, the CLI -/

/-- The CLI with a real converter, which may take `n` steps for a formula; a formula for which this is not enough
is rejected. -/
def cliWith (n : Nat) (replacer : Replacer) : Cli Converter (Option LatexError) where
  convert c latex display :=
    match c.convertWithGlobalState n latex display with
    | (.ok out, c') => (c', .ok out.s)
    | (.err e, c') => (c', .error (some e))
    | (_, c') => (c', .error none)
  errorHtml _ _ _ := []
  replacer := replacer
  args := ⟨false, false⟩
  write _ := .done

/-- Does the CLI panic for this document? -/
def cliPanics (config : MathCoreConfig) (replacer : Replacer) (doc : Str) (n : Nat) : Bool :=
  match Converter.new config with
  | .error _ => false
  | .ok c =>
    match ((cliWith n replacer).convertStdin doc ⟨c, fun _ => .text [], []⟩).2 with
    | some .panic => true
    | _ => false

/-- C33 is false for this document: the CLI does not report an error, but panics. The formula is rejected because
`\frac` has no arguments, but its global definition is kept; when the CLI converts it once more to get the error,
the conversion succeeds. -/
theorem C33_crash (n : Nat) :
    cliPanics plainConfig dollars c!"<p>$\\let\\t\\frac\\global\\def\\frac{1}\\t$</p>" (n + 60) = true := by
  kernel_rfl

/-- Without the definition the error is reported. -/
example (n : Nat) : cliPanics plainConfig dollars c!"<p>$\\let\\t\\frac\\t$</p>" (n + 60) = false := by
  kernel_rfl

end Verif

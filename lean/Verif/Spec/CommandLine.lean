import Verif.Model.CliMain
import Verif.Spec.Replace
/-! What the options of the CLI mean. -/
namespace Verif.Spec
open Model

/-- The options fit together: a formula and a document are not both given, the options for documents do not come with
a formula, `--inline` and `--block` are for formulas and exclude each other, `--write` is not needed with
`--recursive`, and delimiters are given in one of the two ways. -/
structure Consistent (c : CommandLine) : Prop where
  formula : c.formula.isSome → c.file = none ∧ c.inlineDel = none ∧ c.blockDel = none ∧ c.recursive = false ∧
    c.write = false ∧ c.dryRun = false ∧ c.ignoreEscapedDelim = false ∧ c.continueOnError = false
  display : c.inline = true ∨ c.block = true → c.file = none
  oneDisplay : ¬ (c.inline = true ∧ c.block = true)
  writing : ¬ (c.write = true ∧ c.recursive = true)
  inlinePair : c.inlineOpen.isSome = c.inlineClose.isSome
  inlineWay : c.inlineOpen.isSome → c.inlineDel = none
  blockPair : c.blockOpen.isSome = c.blockClose.isSome
  blockWay : c.blockOpen.isSome → c.blockDel = none

/-- The delimiters which were asked for: a pair, or one string for both ends, or the default -/
def delimsAsked (pair : Option Str × Option Str) (both : Option Str) (default : Str) : Str × Str :=
  match pair with
  | (some «open», some close) => («open», close)
  | _ => (both.getD default, both.getD default)

/-- The replacer which was asked for -/
def replacerAsked (c : CommandLine) : Replacer :=
  let i := delimsAsked (c.inlineOpen, c.inlineClose) c.inlineDel c!"$"
  let b := delimsAsked (c.blockOpen, c.blockClose) c.blockDel c!"$$"
  ⟨i.1, i.2, b.1, b.2, c.ignoreEscapedDelim⟩

/-- May the CLI write to this file? Only with `--write`, if it is the file, or with `--recursive`, if it is one of the
HTML files (`found`); and never on a dry run. -/
def MayWrite (c : CommandLine) (found : Path → List (Option Path)) (p : Path) : Prop :=
  c.dryRun = false ∧ ∃ f, c.file = some f ∧ f ≠ c!"-" ∧
    (c.recursive = true ∧ some p ∈ found f ∨ c.recursive = false ∧ c.write = true ∧ p = f)

end Verif.Spec

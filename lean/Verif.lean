import Verif.Basic
import Verif.Model.Escape
import Verif.Spec.Html
import Verif.Lemmas.Escape
import Verif.Model.ErrorHtml
import Verif.Model.Entities
import Verif.Model.Atof
import Verif.Spec.Text
import Verif.Props.Escaping
import Verif.Props.Links
import Verif.Spec.Columns
import Verif.Lemmas.Numbers
import Verif.Props.Numbers
import Verif.Props.Columns
import Verif.Props.Entities
import Verif.Props.Symbols
import Verif.Model.Stores
import Verif.Spec.Meaning
import Verif.Props.Definitions
import Verif.Props.Lexing
import Verif.Props.Blank
import Verif.Props.Replace
import Verif.Props.Cli
import Verif.Props.Emit
import Verif.Model.Convert
import Verif.Props.Queue
import Verif.Props.Groups
import Verif.Props.Sessions
import Verif.Props.Config
import Verif.Props.Concurrent
import Verif.Props.Bindings
import Verif.Lemmas.Weights
import Verif.Lemmas.LogicBase
import Verif.Lemmas.Letters
import Verif.Lemmas.LogicLeaf
import Verif.Lemmas.Yield
import Verif.Lemmas.LogicRec
import Verif.Lemmas.YieldNodes
import Verif.Lemmas.RecArms
import Verif.Lemmas.RecArms2
import Verif.Lemmas.RecArms3
import Verif.Lemmas.RecMain
import Verif.Lemmas.Snippet
import Verif.Lemmas.CallSpec
import Verif.Lemmas.NoLimits
import Verif.Lemmas.Uses
import Verif.Spec.Answers
import Verif.Spec.Uses
import Verif.Lemmas.Blind
import Verif.Props.Calls
import Verif.Lemmas.Grammar
import Verif.Lemmas.Source
import Verif.Props.Scripts
import Verif.Props.Spacing
import Verif.Props.SpacingForms
import Verif.Props.Findings
import Verif.Props.Output
import Verif.Props.Excluded
import Verif.Spec.Rows
import Verif.Spec.Tame
import Verif.Spec.Shape
import Verif.Lemmas.Quiet
import Verif.Lemmas.Rows
import Verif.Lemmas.Keeps
import Verif.Lemmas.NextRow
import Verif.Lemmas.Tame
import Verif.Lemmas.Shape
import Verif.Lemmas.Untagged
import Verif.Lemmas.Page
import Verif.Props.Pages
import Verif.Props.Shape
import Verif.Spec.Expansion
import Verif.Lemmas.Expansion
import Verif.Props.Expansion
import Verif.Lemmas.CallTokens
import Verif.Lemmas.CallDoes
import Verif.Lemmas.Linked
import Verif.Spec.Inline
import Verif.Lemmas.Inline
import Verif.Props.Macros
import Verif.Spec.Preamble
import Verif.Lemmas.Raw
import Verif.Lemmas.Ahead
import Verif.Lemmas.Preamble
import Verif.Lemmas.PreambleRun
import Verif.Props.Preamble
import Verif.Spec.Nesting
import Verif.Lemmas.NestWords
import Verif.Lemmas.NestLogic
import Verif.Lemmas.NestLeaves
import Verif.Lemmas.NestArgs
import Verif.Lemmas.NestDefs
import Verif.Lemmas.NestExpand
import Verif.Lemmas.NestText
import Verif.Lemmas.NestArms
import Verif.Lemmas.NestSource
import Verif.Props.Nesting
import Verif.Props.Embedding
import Verif.Lemmas.EmitRefs
import Verif.Props.Batch
import Verif.Props.BatchSession
import Verif.Props.Growth
import Verif.Props.Failures
import Verif.Props.Options
import Verif.Props.CommandLine
import Verif.Props.Order
import Verif.Props.TooMany
import Verif.Props.Typed
import Verif.Props.Tex
import Verif.Props.Color
import Verif.Props.Broken
import Verif.Props.Compound
import Verif.Props.TexLocal
import Verif.Props.TexBatch
import Verif.Props.Consistent

import Verif.Lemmas.Harmless
import Verif.Props.Emit
import Verif.Props.Calls
import Verif.Props.Findings
/-! Properties C11, C20, C22, C23 and C24 for whole conversions: every source, every configuration and every
history. -/
namespace Verif
open Model Spec

/-! ### Specification -/

namespace Spec

/-- The settings which are written into attributes need no escaping. -/
structure PlainSettings (config : MathCoreConfig) : Prop where
  unknownClass : PlainValue config.unknownClass
  idPrefix : PlainValue config.idPrefix
  fmt : ∀ r, PlainValue (config.fmt r)

/-- The settings for the output, with these labels -/
def outputSettings (config : MathCoreConfig) (labels : StrMap Str) : EmitterConfig where
  prettyPrint := config.prettyPrint
  xmlNamespace := config.xmlNamespace
  annotation := config.annotation
  emitter := ⟨labels.get, config.unknownClass, config.indentation, config.idPrefix, config.fmt⟩

/-- The counter and the labels of a converter -/
def Converter.counters (c : Converter) : Counters := ⟨c.state.equationCount, c.state.labelMap⟩

end Spec

/-! ### The syntax tree of a conversion -/

theorem new_emitter {config : MathCoreConfig} {c : Converter} (h : Converter.new config = .ok c) (labels : StrMap Str) :
    c.emitterCfg.withLabels labels = outputSettings config labels := by
  unfold Converter.new at h
  split at h
  · cases h
  · cases h; rfl

theorem new_ignore {config : MathCoreConfig} {c : Converter} (h : Converter.new config = .ok c) :
    c.parserCfg.ignoreUnknownCommands = config.ignoreUnknownCommands := by
  unfold Converter.new at h
  split at h
  · cases h
  · cases h; rfl

theorem reaches_cfg {c c' calls} (h : Reaches c calls c') : c'.parserCfg = c.parserCfg ∧ c'.emitterCfg = c.emitterCfg := by
  obtain ⟨n, h⟩ := h
  rw [← h n (Nat.le_refl _)]
  exact after_cfg n c calls

/-- A conversion with the global state which succeeds -/
theorem conversion_tree {c c' : Converter} (hc : ConvOk c) {src : Str} {display : MathDisplay} {out : Out}
    (h : Gives c (.withGlobalState src display) (.one (.ok out)) c') :
    ∃ ast, out = emitDocument (c.emitterCfg.withLabels c'.state.labelMap) ast src display ∧
      Yield c.parserCfg.toParserConfig (Converter.counters c) ast (Converter.counters c') ∧
      Done c.parserCfg c.state c'.state := by
  obtain ⟨n0, r, hr, hok⟩ := parseSnippet_next c.parserCfg c.state src display hc.cfg hc.state (sourceOk_nothing _)
  obtain ⟨n1, h1⟩ := h
  replace h1 := h1 (max n0 n1) (by omega)
  have h2 := hr (max n0 n1) (by omega)
  simp only [perform, Converter.convertWithGlobalState, convert, h2] at h1
  cases r with
  | ok ast g' =>
    simp only [Res.outcome, Res.stateOr, Prod.mk.injEq, Reply.one.injEq, Outcome.ok.injEq] at h1
    obtain ⟨h3, h4⟩ := h1
    subst h4
    exact ⟨ast, h3.symm, hok.2, hok.1⟩
  | err e g' => simp [Res.outcome] at h1
  | panic => exact hok.elim
  | fuel => exact hok.elim

/-! ### C11 -/

namespace Spec

/-- What a name means at the start of a conversion with the global state, unfolded `k` times -/
def meaningFor (c : Converter) (k : Nat) (name : Str) : Option Meaning :=
  nameMeaning c.parserCfg.builtin ⟨c.parserCfg.customCmds, c.state.customCmds, {}⟩ k name

end Spec

/-- C11, for conversions. After any history, whether a conversion succeeds or fails: it amounts to a sequence of
lookups, expansions and definitions, and a name for which this has no global definition means to later
conversions what it meant before. The meaning is compared up to any depth of unfolding of macros. -/
theorem C11_conversion (config : MathCoreConfig) (c c1 c2 : Converter) (hc : Converter.new config = .ok c)
    (calls : List Call) (hr : Reaches c calls c1) (src : Str) (display : MathDisplay) (r : Reply)
    (h : Gives c1 (.withGlobalState src display) r c2) :
    ∃ ops s', (∀ op ∈ ops, DefOp.withinSnippet op) ∧
      DefState.run c1.parserCfg.builtin ⟨⟨c1.parserCfg.customCmds, c1.state.customCmds, {}⟩, []⟩ ops = some s' ∧
      s'.stores.document = c2.state.customCmds ∧
      ∀ name, (∀ op ∈ ops, ¬ op.definesGlobally name) → ∀ k, meaningFor c2 k name = meaningFor c1 k name := by
  have hok := reaches_ok hr (.new hc)
  obtain ⟨ops, stores', h', hw, hrun, hdoc, -, -, -⟩ := conversion_done hok (sourceOk_nothing _) h
  have hcfg : c2.parserCfg = c1.parserCfg := by
    obtain ⟨n, h⟩ := h
    have := (perform_cfg n c1 (.withGlobalState src display)).1
    rw [h n (Nat.le_refl _)] at this
    exact this
  have hconf : stores'.config = c1.parserCfg.customCmds :=
    (run_within (builtin_ok _) (reachable_inv (builtin_ok _) hok.cfg.config hok.state.reach)
      (fun op h => (hw op h).1) hrun).2.2
  replace hw := fun op h => (hw op h).1
  refine ⟨ops, ⟨stores', h'⟩, hw, hrun, hdoc, fun name hn k => ?_⟩
  have := C11_no_leak c1.parserCfg.toParserConfig hok.cfg.config _ _ _ hok.state.reach rfl ops hw hrun rfl name hn k
  unfold meaningFor
  rw [hcfg]
  simp only [hdoc, hconf] at this
  exact this

/-! ### C22 -/

/-- C22, for conversions. After any history, the output of a conversion which succeeds is the output for a syntax
tree; if there is none of the four known defects in it, then the output is well-formed, and an XML reader gets
exactly the MathML tree which the syntax tree stands for. (Missing: that there are no defects. There are sources
with each of them: `C22_duplicate_attribute`, `C22_markup_injection`, `C22_unknown_command_breaks`,
`C22_fraction_with_one_child`.) -/
theorem C22_conversion_partial (config : MathCoreConfig) (hs : PlainSettings config) (c c1 c2 : Converter)
    (hc : Converter.new config = .ok c) (calls : List Call) (hr : Reaches c calls c1) (src : Str)
    (display : MathDisplay) (out : Out) (h : Gives c1 (.withGlobalState src display) (.one (.ok out)) c2) :
    ∃ ast, out = emitDocument (outputSettings config c2.state.labelMap) ast src display ∧
      (Harmless config.ignoreUnknownCommands ast →
        readXml out.s = some [documentXml (outputSettings config c2.state.labelMap) ast src display]) := by
  have hok := reaches_ok hr (.new hc)
  obtain ⟨hp, he⟩ := reaches_cfg hr
  obtain ⟨ast, rfl, hy, -⟩ := conversion_tree hok h
  rw [he, new_emitter hc]
  refine ⟨ast, rfl, fun hh => ?_⟩
  refine C22_well_formed_partial _ _ _ _ ⟨hs.1, hs.2, hs.3⟩ (nodesOk_of_harmless hy ?_)
  rw [hp, new_ignore hc]
  exact hh

/-! ### C24 -/

/-- C24, for conversions. A conversion warns about undefined references exactly if in its syntax tree there is
a reference to a label which has no tag even after the conversion, and about unknown commands exactly if there is
one in the tree. It can only do the latter if the configuration allows unknown commands. -/
theorem C24_conversion (config : MathCoreConfig) (c c1 c2 : Converter) (hc : Converter.new config = .ok c)
    (calls : List Call) (hr : Reaches c calls c1) (src : Str) (display : MathDisplay) (out : Out)
    (h : Gives c1 (.withGlobalState src display) (.one (.ok out)) c2) :
    (∃ ast, out = emitDocument (outputSettings config c2.state.labelMap) ast src display ∧
      (out.undefinedReferences = true ↔
        ∃ label, Node.eqRef label ∈ nodesInList ast ∧ c2.state.labelMap.get label = none) ∧
      (out.unknownCommands = true ↔ ∃ name, Node.unknownCommand name ∈ nodesInList ast)) ∧
    (out.unknownCommands = true → config.ignoreUnknownCommands = true) := by
  have hok := reaches_ok hr (.new hc)
  obtain ⟨hp, he⟩ := reaches_cfg hr
  obtain ⟨ast, rfl, hy, -⟩ := conversion_tree hok h
  rw [he, new_emitter hc]
  refine ⟨⟨ast, rfl, C24_undefined_references .., C24_unknown_commands ..⟩, fun hu => ?_⟩
  obtain ⟨name, hn⟩ := (C24_unknown_commands ..).1 hu
  have := hy.ok _ hn
  rw [← new_ignore hc, ← hp]
  exact this

/-! ### C20 -/

/-- C20, for conversions: after any history, whatever the source. The tags in the syntax tree of a conversion
are those of a sequence of rows which follows on from the counter and the labels before the conversion: the
automatic ones are the next numbers, in this order and without a gap or a repetition, other tags use up no
number, and every label of a row stands for the tag of that row. Afterwards the counter is the last of these
numbers. (Missing: that the rows of the output are in the order of the sequence and which rows are numbered.
Both are shown for sources of the grammar.) -/
theorem C20_consecutive_partial (config : MathCoreConfig) (c c1 c2 : Converter) (hc : Converter.new config = .ok c)
    (calls : List Call) (hr : Reaches c calls c1) (src : Str) (display : MathDisplay) (out : Out)
    (h : Gives c1 (.withGlobalState src display) (.one (.ok out)) c2) :
    ∃ ast rows, out = emitDocument (outputSettings config c2.state.labelMap) ast src display ∧
      (tagsIn ast).Perm (rows.map TaggedRow.info) ∧
      Numbered (Converter.counters c1) rows (Converter.counters c2) := by
  have hok := reaches_ok hr (.new hc)
  obtain ⟨-, he⟩ := reaches_cfg hr
  obtain ⟨ast, rfl, hy, -⟩ := conversion_tree hok h
  obtain ⟨rows, h1, h2⟩ := hy.tags
  rw [he, new_emitter hc]
  exact ⟨ast, rows, rfl, h1, h2⟩

/-! ### C23 -/

namespace Spec

/-- The configuration with other settings for pretty-printing -/
def prettyWith (config : MathCoreConfig) (p : PrettyPrint) (ind : Indentation) : MathCoreConfig :=
  { config with prettyPrint := p, indentation := ind }

/-- The second outcome is the first one with line breaks and indentation inserted: errors and warnings are the
same. -/
def LaidOutOutcome (unit : Str) : Outcome Out → Outcome Out → Prop
  | .ok a, .ok b => LaidOut unit a.s b.s ∧ a.undefinedReferences = b.undefinedReferences ∧
      a.unknownCommands = b.unknownCommands
  | .err e, .err e' => e = e'
  | .panic, .panic => True
  | .fuel, .fuel => True
  | _, _ => False

/-- The same for replies -/
def LaidOutReply (unit : Str) : Reply → Reply → Prop
  | .one a, .one b => LaidOutOutcome unit a b
  | .many as, .many bs => as.length = bs.length ∧
      ∀ (i : Nat) a b, as[i]? = some a → bs[i]? = some b → LaidOutOutcome unit a b
  | .unit, .unit => True
  | _, _ => False

end Spec

/-- The converter with other settings for pretty-printing -/
def prettyConv (c : Converter) (p : PrettyPrint) (ind : Indentation) : Converter :=
  { c with emitterCfg := { c.emitterCfg with prettyPrint := p, indentation := ind } }

theorem new_pretty {config : MathCoreConfig} {c : Converter} (h : Converter.new config = .ok c) (p : PrettyPrint)
    (ind : Indentation) : Converter.new (prettyWith config p ind) = .ok (prettyConv c p ind) := by
  unfold Converter.new at h ⊢
  simp only [prettyWith]
  split at h
  · cases h
  · cases h; rfl

theorem laidOut_snippet (c : Converter) (labels : StrMap Str) (latex : Str) (display : MathDisplay) (ast : List Node)
    (p : PrettyPrint) (ind : Indentation) :
    LaidOutOutcome (indentUnit ind)
      (.ok (emitSnippet (prettyConv c .never ind).emitterCfg labels latex display ast))
      (.ok (emitSnippet (prettyConv c p ind).emitterCfg labels latex display ast)) := by
  refine ⟨C23_layout_only ((prettyConv c p ind).emitterCfg.withLabels labels) ast latex display, ?_, ?_⟩
  · simp only [emitSnippet, (emitDocument_warns ..).1]
    rfl
  · simp only [emitSnippet, (emitDocument_warns ..).2]

theorem laidOut_perform (n : Nat) (c : Converter) (p : PrettyPrint) (ind : Indentation) (call : Call) :
    LaidOutReply (indentUnit ind) (perform n (prettyConv c .never ind) call).1 (perform n (prettyConv c p ind) call).1 ∧
    ∃ c', (perform n (prettyConv c .never ind) call).2 = prettyConv c' .never ind ∧
      (perform n (prettyConv c p ind) call).2 = prettyConv c' p ind := by
  cases call with
  | withGlobalState latex display =>
    refine ⟨?_, { c with state := (parseSnippet n c.parserCfg c.state latex display).stateOr c.state }, ?_, ?_⟩
    · simp only [perform, Converter.convertWithGlobalState, convert, LaidOutReply]
      rw [show (prettyConv c p ind).parserCfg = c.parserCfg from rfl, show (prettyConv c p ind).state = c.state from rfl,
        show (prettyConv c .never ind).parserCfg = c.parserCfg from rfl,
        show (prettyConv c .never ind).state = c.state from rfl]
      cases parseSnippet n c.parserCfg c.state latex display with
      | ok ast g => exact laidOut_snippet ..
      | err e g => rfl
      | panic => trivial
      | fuel => trivial
    · simp only [perform, Converter.convertWithGlobalState, convert]
      rw [show (prettyConv c .never ind).parserCfg = c.parserCfg from rfl,
        show (prettyConv c .never ind).state = c.state from rfl]
      cases parseSnippet n c.parserCfg c.state latex display <;> rfl
    · simp only [perform, Converter.convertWithGlobalState, convert]
      rw [show (prettyConv c p ind).parserCfg = c.parserCfg from rfl, show (prettyConv c p ind).state = c.state from rfl]
      cases parseSnippet n c.parserCfg c.state latex display <;> rfl
  | withLocalState latex display =>
    refine ⟨?_, c, rfl, rfl⟩
    simp only [perform, Converter.convertWithLocalState, convert, LaidOutReply]
    rw [show (prettyConv c p ind).parserCfg = c.parserCfg from rfl,
      show (prettyConv c .never ind).parserCfg = c.parserCfg from rfl]
    cases parseSnippet n c.parserCfg {} latex display with
    | ok ast g => exact laidOut_snippet ..
    | err e g => rfl
    | panic => trivial
    | fuel => trivial
  | all snippets =>
    refine ⟨?_, c, rfl, rfl⟩
    simp only [perform, Converter.convertAll, LaidOutReply]
    rw [show (prettyConv c p ind).parserCfg = c.parserCfg from rfl,
      show (prettyConv c .never ind).parserCfg = c.parserCfg from rfl]
    generalize Converter.parseAll n c.parserCfg {} snippets = r
    obtain ⟨asts, g⟩ := r
    refine ⟨by simp, fun i a b ha hb => ?_⟩
    simp only [List.getElem?_zipWith] at ha hb
    cases h1 : snippets[i]? with
    | none => rw [h1] at ha; cases ha
    | some sn =>
      cases h2 : asts[i]? with
      | none => rw [h1, h2] at ha; cases ha
      | some ast =>
        rw [h1, h2] at ha hb
        cases ha; cases hb
        cases ast with
        | ok ast => exact laidOut_snippet ..
        | err e => rfl
        | panic => trivial
        | fuel => trivial
  | reset => exact ⟨trivial, c.resetGlobalState, rfl, rfl⟩

/-- C23, for conversions. Take two converters with the same configuration, except that one of them never
pretty-prints. Any sequence of calls gets the same replies from them (errors and warnings included), except that
in the documents of the other one line breaks and indentation are inserted. -/
theorem C23_sessions (config : MathCoreConfig) (p : PrettyPrint) (ind : Indentation) (c c' : Converter)
    (h : Converter.new (prettyWith config .never ind) = .ok c) (h' : Converter.new (prettyWith config p ind) = .ok c')
    (calls : List Call) (n : Nat) :
    (session n c calls).1.length = (session n c' calls).1.length ∧
    ∀ (i : Nat) r r', (session n c calls).1[i]? = some r → (session n c' calls).1[i]? = some r' →
      LaidOutReply (indentUnit ind) r r' := by
  have h0 : ∃ c0, c = prettyConv c0 .never ind ∧ c' = prettyConv c0 p ind := by
    refine ⟨c, ?_, ?_⟩
    · have := new_pretty h .never ind
      rw [show prettyWith (prettyWith config .never ind) .never ind = prettyWith config .never ind from rfl, h] at this
      exact Except.ok.inj this
    · have := new_pretty h p ind
      rw [show prettyWith (prettyWith config .never ind) p ind = prettyWith config p ind from rfl, h'] at this
      exact Except.ok.inj this
  obtain ⟨c0, rfl, rfl⟩ := h0
  clear h h'
  induction calls generalizing c0 with
  | nil => exact ⟨rfl, by simp [session]⟩
  | cons call calls ih =>
    obtain ⟨h1, c1, h2, h3⟩ := laidOut_perform n c0 p ind call
    simp only [session, h2, h3]
    obtain ⟨h4, h5⟩ := ih c1
    refine ⟨by simp [h4], fun i r r' hr hr' => ?_⟩
    cases i with
    | zero => cases hr; cases hr'; exact h1
    | succ i => exact h5 i r r' hr hr'

/-- Conversions to which the theorems above apply: the second one uses a definition of the first one, but not
the local definition, and is numbered after it; with an error in between, whose global definition is kept. -/
example : Replies { plainConfig with ignoreUnknownCommands := true }
    [.withGlobalState c!"\\def\\y{2}\\gdef\\x{\\eqref{a}}\\begin{align}\\y\\end{align}" .block,
     .withGlobalState c!"\\gdef\\z{3}}" .inline,
     .withGlobalState c!"\\begin{align}\\x\\y\\z\\label{a}\\end{align}" .block]
    [[.text c!"<math display=\"block\"><mtable displaystyle=\"true\" scriptlevel=\"0\" style=\"width: 100%\"><mtr><mtd style=\"width: 50%\"></mtd><mtd style=\"text-align: right;justify-items: end;padding-right: 0;\"><mn>2</mn></mtd><mtd style=\"width: 50%;text-align: right;justify-items: end;\"><mtext>(1)</mtext></mtd></mtr></mtable></math>"],
     [.error (.unmatchedClose .groupClose)],
     [.text c!"<math display=\"block\"><mtable displaystyle=\"true\" scriptlevel=\"0\" style=\"width: 100%\"><mtr><mtd style=\"width: 50%\"></mtd><mtd style=\"text-align: right;justify-items: end;padding-right: 0;\"><mtext><a href=\"#a\">(2)</a></mtext><merror class=\"unknown\"><mtext>\\y</mtext></merror><mn>3</mn></mtd><mtd style=\"width: 50%;text-align: right;justify-items: end;\" id=\"a\"><mtext>(2)</mtext></mtd></mtr></mtable></math>"]] :=
  replies_of 60 fun n => by kernel_rfl

end Verif

import Verif.Props.TexLocal
import Verif.Props.TooMany

/-! # C53, C55 and C56 in batches

The snippets before have an influence only by what they define, and those after it have none. -/
namespace Verif
open Model Spec

theorem state_oneByOne (fuel : Nat) : ∀ (sn : List (Str × MathDisplay)) (d : Converter),
    (after fuel d (oneByOne sn)).state = sn.foldl (fun g s => (parseSnippet fuel d.parserCfg g s.1 s.2).stateOr g) d.state
  | [], _ => rfl
  | s :: sn, d => by
    have := state_oneByOne fuel sn (perform fuel d (.withGlobalState s.1 s.2)).2
    unfold after oneByOne at this ⊢
    rw [List.map_cons]
    unfold session
    simp only
    rw [this, (perform_cfg fuel d (.withGlobalState s.1 s.2)).1, List.foldl_cons]
    congr 1
    simp only [perform, Converter.convertWithGlobalState, convert]
    cases parseSnippet fuel d.parserCfg d.state s.1 s.2 <;> rfl

/-- The result for a snippet of a batch, from what it is parsed to after the snippets before it -/
theorem batch_result {c1 c2 ci : Converter} {snippets : List (Str × MathDisplay)} {rs : List (Outcome Out)}
    (h : Gives c1 (.all snippets) (.many rs) c2) {i : Nat} {src : Str} {display : MathDisplay}
    (hs : snippets[i]? = some (src, display)) (hi : Reaches c1 (.reset :: oneByOne (snippets.take i)) ci) :
    ∃ n0, ∀ n, n0 ≤ n → ∃ labels, (after n c1 (.reset :: oneByOne snippets)).state.labelMap = labels ∧ rs[i]? = some (match parseSnippet n ci.parserCfg ci.state src display with
      | .ok ast _ => .ok (emitSnippet ci.emitterCfg labels src display ast)
      | .err e _ => .err e
      | .panic => .panic
      | .fuel => .fuel) := by
  obtain ⟨e1, e2⟩ := reaches_cfg hi
  obtain ⟨n0, h⟩ := h
  obtain ⟨n1, hi⟩ := hi
  refine ⟨max n0 n1, fun n hn => ⟨(batchState n c1.parserCfg snippets).labelMap, ?_, ?_⟩⟩
  · exact congrArg _ (state_oneByOne n snippets c1.resetGlobalState)
  have h1 := h n (by omega)
  simp only [perform, Prod.mk.injEq, Reply.many.injEq] at h1
  have h2 := C19_each n c1 snippets i src display hs
  have h3 : batchState n c1.parserCfg (snippets.take i) = ci.state := by
    rw [← hi n (by omega)]
    exact (state_oneByOne n (snippets.take i) c1.resetGlobalState).symm
  rw [h1.1, h3] at h2
  rw [e1, e2]
  exact h2

/-- The elements of a formula are the same with any labels. -/
theorem shape_anywhere {config : MathCoreConfig} (hp : PlainSettings config) {c c1 : Converter} (hc : Converter.new config = .ok c)
    {calls : List Call} (hr : Reaches c calls c1) {f : Form} (hf : f.ok false = true)
    (hl : f.linked (knownMacros c1.parserCfg.toParserConfig c1.state)) (ht : f.tame false = true) (hn : f.unbroken = true) {src : Str}
    (hs : Spells c1.parserCfg.toParserConfig c1.state src f.tokens) {display : MathDisplay} {ns : List Node} {l : Loc}
    (hv : f.value c1.parserCfg.maxExpansions c1.state display = .ok (ns, l)) (labels : StrMap Str) :
    ∃ x, readXml (emitSnippet c1.emitterCfg labels src display ns).s = some [x] ∧ x.bare = shapeDocument config.annotation
      (f.shapes (outputSettings config labels).emitter.labelMap) src ∧
      x = documentWith (outputSettings config labels) (toXmls (outputSettings config labels).emitter ns) src display := by
  have hok := reaches_ok hr (.new hc)
  obtain ⟨hpc, he⟩ := reaches_cfg hr
  have hy := formula_yield (c2 := { c1 with state := ⟨l.count, l.labels, c1.state.customCmds⟩ }) hok hf hl hs hv rfl
  unfold emitSnippet
  rw [he, new_emitter hc]
  refine ⟨_, C22_well_formed_partial _ _ _ _ ⟨hp.1, hp.2, hp.3⟩ (nodesOk_of_harmless hy (tame_harmless ht hv _)), ?_, documentXml_eq ..⟩
  have hg := (shape_form (outputSettings config labels).emitter f false ht hn _ _ _ _ _ nofun hv).1
  exact bare_document (pieces_all hg (tame_onlyShapes _ _ ht)) _ _

/-- C53 in batches. Take a batch in which a snippet is a formula of LaTeX. Whatever was converted before, and whatever the other snippets
are, if those before it (and the configuration) have not redefined its commands, then it is accepted, and its output shows the formula.
(Missing: as in `C53_latex_partial`.) -/
theorem C53_batch_partial (config : MathCoreConfig) (hp : PlainSettings config) (c c1 c2 ci : Converter)
    (hc : Converter.new config = .ok c) (calls : List Call) (hr : Reaches c calls c1) (snippets : List (Str × MathDisplay))
    (rs : List (Outcome Out)) (h : Gives c1 (.all snippets) (.many rs) c2) (i : Nat) (src : Str) (display : MathDisplay)
    (hi : snippets[i]? = some (src, display)) (hci : Reaches c1 (.reset :: oneByOne (snippets.take i)) ci) (tex : Tex)
    (ht : tex.proper false false = true) (hw : Prints tex.lexemes src)
    (ho : ∀ name, Lexeme.command name ∈ tex.lexemes → ¬ definedName ci.parserCfg.toParserConfig ci.state name) :
    ∃ out x, rs[i]? = some (.ok out) ∧ readXml out.s = some [x] ∧ DisplaysFormula config.annotation x.bare tex.trees src := by
  obtain ⟨f, hf⟩ := tex_form false false tex ht .nil stops_nil fun _ => rfl
  have hf := hf.closed
  have hs : Spells ci.parserCfg.toParserConfig ci.state src f.tokens := by
    rw [hf.tokens]
    refine prints_spells hw fun l hl => ?_
    have h := hf.fixed l hl
    cases l with
    | char c => trivial
    | next c => trivial
    | blank => trivial
    | command name => exact ⟨ho name hl, h⟩
    | opens name => exact h
    | closes name => exact h
  obtain ⟨ns, hn⟩ := hf.steady ⟨display.style, {}, ci.state.equationCount, ci.state.labelMap, ci.parserCfg.maxExpansions, false⟩
    .opening .ending
  have hg := formula_parses (cfg := ci.parserCfg) display hf.ok (hf.linked _) hs
  have hv : f.value ci.parserCfg.maxExpansions ci.state display = .ok (ns, _) := hn
  rw [hv] at hg
  obtain ⟨n1, hg⟩ := hg
  obtain ⟨n0, hb⟩ := batch_result h hi hci
  obtain ⟨labels, -, hb⟩ := hb (max n0 n1) (by omega)
  rw [hg (max n0 n1) (by omega)] at hb
  obtain ⟨x, hx, hb', -⟩ := shape_anywhere hp hc (reaches_append hr hci) hf.ok (hf.linked _) (hf.tame false) hf.unbroken hs hv labels
  refine ⟨_, x, hb, hx, ?_⟩
  rw [hb']
  obtain ⟨e1, e2⟩ := hf.shapes (outputSettings config labels).emitter.labelMap
  unfold DisplaysFormula shapeDocument
  split
  · refine ⟨_, rfl, ?_⟩
    have := shape_displays (Shape.one (shapesOf (f.pieces (outputSettings config labels).emitter.labelMap)))
    rw [(one_tree _ e2).1, e1] at this
    exact this
  · refine ⟨_, rfl, ?_⟩
    have := shapes_display (shapesOf (f.pieces (outputSettings config labels).emitter.labelMap))
    rw [e1] at this
    exact this

/-- C53 for displays in batches. The lines are numbered on from the last number of the snippets before, and the table shows the
tags of LaTeX; references are resolved with the labels after the whole batch. (Missing: as in `C53_display_partial`.) -/
theorem C53_display_batch_partial (config : MathCoreConfig) (hp : PlainSettings config) (c c1 c2 ci ce : Converter)
    (hc : Converter.new config = .ok c) (calls : List Call) (hr : Reaches c calls c1) (snippets : List (Str × MathDisplay))
    (rs : List (Outcome Out)) (h : Gives c1 (.all snippets) (.many rs) c2) (i : Nat) (src : Str) (display : MathDisplay)
    (hi : snippets[i]? = some (src, display)) (hci : Reaches c1 (.reset :: oneByOne (snippets.take i)) ci)
    (hce : Reaches c1 (.reset :: oneByOne snippets) ce) (d : Display)
    (hd : d.proper = true) (hw : Prints d.lexemes src)
    (ho : ∀ name, Lexeme.command name ∈ d.lexemes → ¬ definedName ci.parserCfg.toParserConfig ci.state name)
    (hlines : d.lines.length < 65535) (hcount : ci.state.equationCount + d.lines.length < 2 ^ 64 - 1) :
    ∃ out x table, rs[i]? = some (.ok out) ∧ readXml out.s = some [x] ∧
      DisplaysFormula config.annotation x.bare [d.tree] src ∧
      x = documentWith (outputSettings config ce.state.labelMap) [table] src display ∧
      (tableCells table).map List.getLast? = (d.tags ci.state.equationCount).map (fun t => some (besideLine t)) := by
  obtain ⟨e, f, hf⟩ := display_form d hd
  have hs : Spells ci.parserCfg.toParserConfig ci.state src (Form.item (.env e e {} f) .nil .nil).tokens := by
    rw [hf.tokens]
    refine prints_spells hw fun l hl => ?_
    have h := hf.fixed l hl
    cases l with
    | char c => trivial
    | next c => trivial
    | blank => trivial
    | command name => exact ⟨ho name hl, h⟩
    | opens name => exact h
    | closes name => exact h
  have hg := formula_parses (cfg := ci.parserCfg) display hf.ok (hf.linked _) hs
  obtain ⟨ns, l', hn⟩ := hf.runs ⟨display.style, {}, ci.state.equationCount, ci.state.labelMap, ci.parserCfg.maxExpansions, false⟩
    .opening .ending hlines hcount
  have hv : (Form.item (.env e e {} f) .nil .nil).value ci.parserCfg.maxExpansions ci.state display = .ok (ns, l') := hn
  rw [hv] at hg
  obtain ⟨n1, hg⟩ := hg
  obtain ⟨n0, hb⟩ := batch_result h hi hci
  obtain ⟨n2, hce⟩ := hce
  obtain ⟨labels, hl, hb⟩ := hb (max n0 (max n1 n2)) (by omega)
  rw [hg (max n0 (max n1 n2)) (by omega)] at hb
  rw [hce (max n0 (max n1 n2)) (by omega)] at hl
  rw [hl]
  obtain ⟨x, hx, hb', hxs⟩ := shape_anywhere hp hc (reaches_append hr hci) hf.ok (hf.linked _) hf.tame hf.unbroken hs hv labels
  have hpg := page_written (outputSettings config labels).emitter _ _ _ _ hf.tame hf.page (page_shows _ hf.page _ rfl _ _ _ _ hn)
  have hd' := hd
  unfold Display.proper at hd'
  rw [Bool.and_eq_true] at hd'
  generalize toXmls (outputSettings config labels).emitter ns = xs at hxs hpg
  match xs, hpg with
  | [table], hpg =>
    obtain ⟨hew, -⟩ : EnvWritten _ e {} f (Converter.counters ci) table ∧ (envNumbers e f (Converter.counters ci)).2 = _ := hpg
    have hnum : envNumbers e f (Converter.counters ci) = numberRows (some (modeOf d.row.numbered)) (Converter.counters ci)
        (lineEvents d.line) (d.lines.map lineEvents) := by
      unfold envNumbers Env.mode
      rw [hf.numbering, hf.events.1, hf.events.2]
    obtain ⟨n1, -⟩ := numbers_form d.row d.line d.lines hd'.2 (Converter.counters ci)
    rw [← hnum] at n1
    refine ⟨_, x, table, hb, hx, ?_, hxs, ?_⟩
    · rw [hb']
      obtain ⟨e1, e2⟩ := hf.shapes (outputSettings config labels).emitter.labelMap
      unfold DisplaysFormula shapeDocument
      split
      · refine ⟨_, rfl, ?_⟩
        have := shape_displays (Shape.one (shapesOf ((Form.item (.env e e {} f) .nil .nil).pieces (outputSettings config labels).emitter.labelMap)))
        rw [(one_tree _ e2).1, e1] at this
        exact this
      · refine ⟨_, rfl, ?_⟩
        have := shapes_display (shapesOf ((Form.item (.env e e {} f) .nil .nil).pieces (outputSettings config labels).emitter.labelMap))
        rw [e1] at this
        exact this
    · have hok : ({} : EnvArgs).ok e = true := by
        have := hf.ok
        simp only [Form.ok, Base.ok, Bool.and_eq_true] at this
        exact this.1.1.1
      obtain ⟨spec, rows, h0, h1, h2, h3⟩ := hew
      have ht : envTable e table = table := by
        have := hf.numbering
        unfold envTable
        cases e <;> first | rfl | cases this
      have := C25_environment _ e {} spec hok h0 _ _ table h1
      rw [ht] at this
      rw [this]
      unfold Display.tags
      rw [show ci.state.equationCount = (Converter.counters ci).count from rfl, ← n1, ← h3]
      simp only [List.map_map]
      refine List.map_congr_left fun r _ => ?_
      simp only [Function.comp]
      unfold allCells Env.mode
      rw [hf.numbering]
      show (([] :: (_ ++ [besideRow r.info])).getLast?) = _
      rw [← List.cons_append, List.getLast?_append]
      cases r.info <;> rfl
  | [], hpg => exact hpg.elim
  | _ :: _ :: _, hpg => exact hpg.2.elim

/-- C55 in batches. (Missing: as in `C55_compound_partial`.) -/
theorem C55_batch_partial (config : MathCoreConfig) (hp : PlainSettings config) (c c1 c2 ci : Converter)
    (hc : Converter.new config = .ok c) (calls : List Call) (hr : Reaches c calls c1) (snippets : List (Str × MathDisplay))
    (rs : List (Outcome Out)) (h : Gives c1 (.all snippets) (.many rs) c2) (i : Nat) (src : Str) (display : MathDisplay)
    (hi : snippets[i]? = some (src, display)) (hci : Reaches c1 (.reset :: oneByOne (snippets.take i)) ci) (chain : Chain)
    (ht : chain.proper = true) (hn : chain.links ≤ ci.parserCfg.maxExpansions) (hw : Prints chain.lexemes src)
    (ho : ∀ name, Lexeme.command name ∈ chain.lexemes → ¬ definedName ci.parserCfg.toParserConfig ci.state name) :
    ∃ out x, rs[i]? = some (.ok out) ∧ readXml out.s = some [x] ∧ DisplaysFormula config.annotation x.bare chain.trees src := by
  obtain ⟨f, hf⟩ := chain_form chain ht
  have hs : Spells ci.parserCfg.toParserConfig ci.state src f.tokens := by
    rw [hf.tokens]
    refine prints_spells hw fun l hl => ?_
    have h := hf.fixed l hl
    cases l with
    | char c => trivial
    | next c => trivial
    | blank => trivial
    | command name => exact ⟨ho name hl, h⟩
    | opens name => exact h
    | closes name => exact h
  obtain ⟨ns, hns⟩ := hf.steady ⟨display.style, {}, ci.state.equationCount, ci.state.labelMap, ci.parserCfg.maxExpansions, false⟩
    .opening .ending hn
  have hg := formula_parses (cfg := ci.parserCfg) display hf.ok (hf.linked _ _) hs
  have hv : f.value ci.parserCfg.maxExpansions ci.state display = .ok (ns, _) := hns
  rw [hv] at hg
  obtain ⟨n1, hg⟩ := hg
  obtain ⟨n0, hb⟩ := batch_result h hi hci
  obtain ⟨labels, -, hb⟩ := hb (max n0 n1) (by omega)
  rw [hg (max n0 n1) (by omega)] at hb
  obtain ⟨x, hx, hb', -⟩ := shape_anywhere hp hc (reaches_append hr hci) hf.ok (hf.linked _ _) hf.tame hf.unbroken hs hv labels
  refine ⟨_, x, hb, hx, ?_⟩
  rw [hb']
  obtain ⟨ss, e0, e1, e2⟩ := hf.pieces (outputSettings config labels).emitter.labelMap
  have e3 : f.shapes (outputSettings config labels).emitter.labelMap = ss := by
    unfold Form.shapes
    rw [e0]
    have := shapes_pieces ss []
    rw [List.append_nil] at this
    rw [this]
    exact List.append_nil _
  rw [e3]
  unfold DisplaysFormula shapeDocument
  split
  · refine ⟨_, rfl, ?_⟩
    have := shape_displays (Shape.one ss)
    rw [(one_tree _ e2).1, e1] at this
    exact this
  · refine ⟨_, rfl, ?_⟩
    have := shapes_display ss
    rw [e1] at this
    exact this

/-- C56 in batches. A snippet with a mistake is rejected with the reason, whatever was converted before and whatever the other snippets are,
if those before it (and the configuration) have not redefined its commands. -/
theorem C56_rejected_batch (c1 c2 ci : Converter) (snippets : List (Str × MathDisplay))
    (rs : List (Outcome Out)) (h : Gives c1 (.all snippets) (.many rs) c2) (i : Nat) (src : Str) (display : MathDisplay)
    (hi : snippets[i]? = some (src, display)) (hci : Reaches c1 (.reset :: oneByOne (snippets.take i)) ci) (b : Broken)
    (hb : b.proper none false = true) (hw : Prints b.lexemes src)
    (ho : ∀ name, Lexeme.command name ∈ b.lexemes → ¬ definedName ci.parserCfg.toParserConfig ci.state name) :
    ∃ e, rs[i]? = some (.err e) ∧ b.Reason none e.kind := by
  obtain ⟨n1, e, g', h1, h2⟩ := broken_parses (cfg := ci.parserCfg) display hb hw ho
  obtain ⟨n0, hr⟩ := batch_result h hi hci
  obtain ⟨labels, -, hr⟩ := hr (max n0 n1) (by omega)
  rw [h2 (max n0 n1) (by omega)] at hr
  exact ⟨e, hr, h1⟩

/-- C19. A snippet of a batch which would be rejected after the snippets before it is rejected with the same error. -/
theorem C19_rejected (c1 c2 ci ci' : Converter) (snippets : List (Str × MathDisplay)) (rs : List (Outcome Out))
    (h : Gives c1 (.all snippets) (.many rs) c2) (i : Nat) (src : Str) (display : MathDisplay)
    (hi : snippets[i]? = some (src, display)) (hci : Reaches c1 (.reset :: oneByOne (snippets.take i)) ci) (e : LatexError)
    (he : Gives ci (.withGlobalState src display) (.one (.err e)) ci') : rs[i]? = some (.err e) := by
  obtain ⟨n0, hr⟩ := batch_result h hi hci
  obtain ⟨n1, he⟩ := he
  obtain ⟨labels, -, hr⟩ := hr (max n0 n1) (by omega)
  have he := he (max n0 n1) (by omega)
  simp only [perform, Converter.convertWithGlobalState, convert, Prod.mk.injEq, Reply.one.injEq] at he
  replace he := he.1
  rw [hr]
  cases hp : parseSnippet (max n0 n1) ci.parserCfg ci.state src display <;> rw [hp] at he <;> simp_all [Res.outcome]

/-- C55 in batches: too many commands -/
theorem C55_too_many_batch (c1 c2 ci : Converter) (snippets : List (Str × MathDisplay)) (rs : List (Outcome Out))
    (h : Gives c1 (.all snippets) (.many rs) c2) (i : Nat) (src : Str) (display : MathDisplay)
    (hi : snippets[i]? = some (src, display)) (hci : Reaches c1 (.reset :: oneByOne (snippets.take i)) ci) (chain : Chain)
    (ht : chain.proper = true) (hn : ci.parserCfg.maxExpansions < chain.links) (hw : Prints chain.lexemes src)
    (ho : ∀ name, Lexeme.command name ∈ chain.lexemes → ¬ definedName ci.parserCfg.toParserConfig ci.state name) :
    ∃ e, rs[i]? = some (.err e) ∧ e.kind = .tooManyExpansions := by
  obtain ⟨e, ci', h1, h2⟩ := C55_too_many ci chain ht hn src hw ho display
  exact ⟨e, C19_rejected c1 c2 ci ci' snippets rs h i src display hi hci e h1, h2⟩

/-- C56 in batches: a mistake after commands which are expanded -/
theorem C56_after_commands_batch (c1 c2 ci : Converter) (snippets : List (Str × MathDisplay)) (rs : List (Outcome Out))
    (h : Gives c1 (.all snippets) (.many rs) c2) (i : Nat) (src : Str) (display : MathDisplay)
    (hi : snippets[i]? = some (src, display)) (hci : Reaches c1 (.reset :: oneByOne (snippets.take i)) ci) (x : Links)
    (hx : linksProper x = true) (hn : x.length ≤ ci.parserCfg.maxExpansions) (b : Broken) (hb : b.proper none false = true)
    (hw : Prints (linksLexemes x ++ b.lexemes) src)
    (ho : ∀ name, Lexeme.command name ∈ linksLexemes x ++ b.lexemes → ¬ definedName ci.parserCfg.toParserConfig ci.state name) :
    ∃ e, rs[i]? = some (.err e) ∧ b.Reason none e.kind := by
  obtain ⟨e, ci', h1, h2⟩ := C56_after_commands ci x hx hn b hb src hw ho display
  exact ⟨e, C19_rejected c1 c2 ci ci' snippets rs h i src display hi hci e h1, h2⟩

/-- C54 in batches. References are resolved with the labels of the whole batch. (Missing: as in `C54_color_partial`.) -/
theorem C54_batch_partial (config : MathCoreConfig) (hp : PlainSettings config) (c c1 c2 ci ce : Converter)
    (hc : Converter.new config = .ok c) (calls : List Call) (hr : Reaches c calls c1) (snippets : List (Str × MathDisplay))
    (rs : List (Outcome Out)) (h : Gives c1 (.all snippets) (.many rs) c2) (i : Nat) (src : Str) (display : MathDisplay)
    (hi : snippets[i]? = some (src, display)) (hci : Reaches c1 (.reset :: oneByOne (snippets.take i)) ci)
    (hce : Reaches c1 (.reset :: oneByOne snippets) ce) (x : Colour)
    (hx : x.proper = true) (tex : Tex) (ht : tex.proper false false = true) (hw : Prints (x.lexemes ++ tex.lexemes) src)
    (ho : ∀ name, Lexeme.command name ∈ x.lexemes ++ tex.lexemes → ¬ definedName ci.parserCfg.toParserConfig ci.state name) :
    ∃ out kids, rs[i]? = some (.ok out) ∧
      readXml out.s = some [documentWith (outputSettings config ce.state.labelMap) [.elem c!"mrow" [(c!"style", x.levels.css)] kids] src display] ∧
      DisplaysAll (Xml.bares kids) tex.trees := by
  obtain ⟨r, hr', hok, hs⟩ := color_converts (colour_model x) (colour_chars hx) ht hw ho
  have hcl := hr'.closed
  have hg := formula_parses (cfg := ci.parserCfg) display hok (hcl.linked _) hs
  obtain ⟨ns, hn⟩ := hcl.steady ⟨display.style, {}, ci.state.equationCount, ci.state.labelMap, ci.parserCfg.maxExpansions, false⟩
    .opening .ending
  have hv := (args_value (colour_model x) (colour_chars hx)).trans (colour_levels hx)
  have hd : (Form.color (colourArgs x.model x.text) r).value ci.parserCfg.maxExpansions ci.state display =
      .ok ([.row ns { color := some (rgbOf x.levels) }],
        ⟨display.style, {}, ci.state.equationCount, ci.state.labelMap, ci.parserCfg.maxExpansions, false⟩) := by
    unfold Form.value Form.denote
    rw [hv]
    simp only [Except.bind, bind, hn]
  rw [hd] at hg
  obtain ⟨n1, hg⟩ := hg
  obtain ⟨n0, hb⟩ := batch_result h hi hci
  obtain ⟨n2, hce⟩ := hce
  obtain ⟨labels, hl, hb⟩ := hb (max n0 (max n1 n2)) (by omega)
  rw [hg (max n0 (max n1 n2)) (by omega)] at hb
  rw [hce (max n0 (max n1 n2)) (by omega)] at hl
  rw [hl]
  have hri := reaches_append hr hci
  have hy := formula_yield (c2 := ci) (reaches_ok hri (.new hc)) hok (hcl.linked _) hs hd rfl
  refine ⟨_, toXmls (outputSettings config labels).emitter ns, hb, ?_, ?_⟩
  · unfold emitSnippet
    rw [(reaches_cfg hri).2, new_emitter hc]
    refine (C22_well_formed_partial (outputSettings config labels) _ _ _ ⟨hp.1, hp.2, hp.3⟩
      (nodesOk_of_harmless hy (tame_harmless (f := Form.color (colourArgs x.model x.text) r) (hcl.tame false) hd _))).trans ?_
    unfold documentXml documentWith
    have hxml : toXml (outputSettings config labels).emitter (.row ns { color := some (rgbOf x.levels) }) =
        .elem c!"mrow" [(c!"style", x.levels.css)] (toXmls (outputSettings config labels).emitter ns) := by
      unfold toXml
      rw [colour_css hx]
      rfl
    split
    · rw [show nodeVecToNode [Node.row ns { color := some (rgbOf x.levels) }] false = .row ns { color := some (rgbOf x.levels) } from rfl,
        hxml]
    · simp only [toXmls, hxml]
  · have hsh := (shape_form (outputSettings config labels).emitter r false (hcl.tame false) hcl.unbroken _ _ _ _ _ nofun hn).1
    have := all_xmls (pieces_all hsh (tame_onlyShapes _ _ (hcl.tame false)))
    rw [this, ← (hcl.shapes _).1]
    exact shapes_display _

/-- C54 in batches: what is not a colour -/
theorem C54_rejected_batch (c1 c2 ci : Converter) (snippets : List (Str × MathDisplay)) (rs : List (Outcome Out))
    (h : Gives c1 (.all snippets) (.many rs) c2) (i : Nat) (src : Str) (display : MathDisplay)
    (hi : snippets[i]? = some (src, display)) (hci : Reaches c1 (.reset :: oneByOne (snippets.take i)) ci)
    (model : Option Str) (text what : Str) (hno : NoColour model text what)
    (hm : (model.all fun m => m.all isAsciiAlpha) = true) (htext : text.all isTagChar = true) (tex : Tex)
    (ht : tex.proper false false = true) (hw : Prints (colorLexemes model text ++ tex.lexemes) src)
    (ho : ∀ name, Lexeme.command name ∈ colorLexemes model text ++ tex.lexemes →
      ¬ definedName ci.parserCfg.toParserConfig ci.state name) :
    ∃ e, rs[i]? = some (.err e) ∧ e.kind = .unknownColor what := by
  obtain ⟨e, ci', h1, h2⟩ := C54_rejected ci model text what hno hm htext tex ht src hw ho display
  exact ⟨e, C19_rejected c1 c2 ci ci' snippets rs h i src display hi hci e h1, h2⟩

/-! ### The hypotheses are met -/

/-- The example of C55 as the first snippet of a batch is shown, whatever was converted before, and whatever the second snippet is. -/
example (c c1 c2 : Converter) (hc : Converter.new plainConfig = .ok c) (calls : List Call) (hr : Reaches c calls c1)
    (other : Str × MathDisplay) (rs : List (Outcome Out))
    (h : Gives c1 (.all [(printLexemes chainExample.lexemes, .block), other]) (.many rs) c2) :
    ∃ out x, rs[0]? = some (.ok out) ∧ readXml out.s = some [x] ∧
      DisplaysFormula false x.bare chainExample.trees (printLexemes chainExample.lexemes) := by
  have hp : chainExample.proper = true := by decide +kernel
  have e : c1.parserCfg = c.parserCfg := (reaches_cfg hr).1
  have hc' := hc
  simp only [show Converter.new plainConfig = .ok _ from rfl, Except.ok.injEq] at hc'
  refine C55_batch_partial plainConfig ⟨by unfold PlainValue; decide, by unfold PlainValue; decide, fun _ => by simp [PlainValue, plainConfig]⟩
    c c1 c2 c1.resetGlobalState hc calls hr _ rs h 0 _ .block rfl ⟨0, fun _ _ => rfl⟩ chainExample hp ?_ (prints_all (chain_print _ hp)) ?_
  · show _ ≤ c1.parserCfg.maxExpansions
    rw [e, ← hc']; decide +kernel
  · show ∀ name, _ → ¬ definedName c1.parserCfg.toParserConfig {} name
    rw [e, ← hc']
    rintro name - (h | h)
    · exact absurd h Bool.false_ne_true
    · exact absurd h Bool.false_ne_true

/-- A formula after a snippet with a mistake, and before one which redefines its command -/
example : Replies plainConfig
    [.all [(c!"\\frac 1}", .inline), (c!"\\frac 12", .inline), (c!"\\gdef\\frac{x}", .inline), (c!"\\frac 12", .inline)]]
    [[.error (.expectedArgumentGotClose), .text c!"<math><mfrac><mn>1</mn><mn>2</mn></mfrac></math>", .text c!"<math></math>",
      .text c!"<math><mi>x</mi><mn>12</mn></math>"]] :=
  replies_of 60 fun n => by kernel_rfl

end Verif

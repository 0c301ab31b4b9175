import Verif.Lemmas.Linked
import Verif.Lemmas.Page
import Verif.Props.Output
import Verif.Props.Scripts
/-! Properties C20, C21, C22 and C25 for sources of the grammar: which rows are numbered and how, what their labels
stand for, and that the rows and cells of the output are those of the source. -/
namespace Verif
open Model Spec

/-! ### Specification -/

namespace Spec

/-- The document with this content -/
def documentWith (flags : EmitterConfig) (content : List Xml) (latex : Str) (display : MathDisplay) : Xml :=
  .elem c!"math"
    (attrIf flags.xmlNamespace c!"xmlns" c!"http://www.w3.org/1998/Math/MathML" ++
      attrIf (display = .block) c!"display" c!"block")
    (if flags.annotation then
      [el c!"semantics" [
        match content with
        | [x] => x
        | xs => el c!"mrow" xs,
        .elem c!"annotation" [(c!"encoding", c!"application/x-tex")] (txt latex)]]
     else content)

/-- What is shown beside the rows of all environments of a page, if the counters are `c` at its start -/
def pageRows : Form → Counters → List (Option RowLabelInfo)
  | .item b s rest, c =>
    match b, s with
    | .env e _ _ f, .nil => (envNumbers e f c).1 ++ pageRows rest (envNumbers e f c).2
    | _, _ => pageRows rest c
  | .bigOp _ _ rest, c | .func _ _ _ rest, c => pageRows rest c
  | _, _ => []

/-- The counters at the end of a page -/
def pageCounters : Form → Counters → Counters
  | .item b s rest, c =>
    match b, s with
    | .env e _ _ f, .nil => pageCounters rest (envNumbers e f c).2
    | _, _ => pageCounters rest c
  | .bigOp _ _ rest, c | .func _ _ _ rest, c => pageCounters rest c
  | _, c => c

end Spec

theorem documentXml_eq (flags : EmitterConfig) (ast : List Node) (latex : Str) (display : MathDisplay) :
    documentXml flags ast latex display = documentWith flags (toXmls flags.emitter ast) latex display := by
  unfold documentXml documentWith
  cases flags.annotation with
  | false => rfl
  | true =>
    have hc : rowCss {} = [] := rfl
    match ast with
    | [] => simp [nodeVecToNode, toXml, toXmls, el, hc, styleAttr]; rfl
    | [x] => rfl
    | x :: y :: zs => simp [nodeVecToNode, toXml, toXmls, el, hc, styleAttr]; rfl

/-! ### C22 -/

/-- What a conversion of a formula gives -/
theorem formula_gives {c c2 : Converter} {f : Form} (hf : f.ok false = true) {src : Str}
    (hl : f.linked (knownMacros c.parserCfg.toParserConfig c.state))
    (hs : Spells c.parserCfg.toParserConfig c.state src f.tokens) {display : MathDisplay} {out : Out}
    (h : Gives c (.withGlobalState src display) (.one (.ok out)) c2) :
    ∃ nodes l, f.value c.parserCfg.maxExpansions c.state display = .ok (nodes, l) ∧
      out = emitDocument (c.emitterCfg.withLabels c2.state.labelMap) nodes src display ∧
      c2.state = ⟨l.count, l.labels, c.state.customCmds⟩ := by
  have hg := formula_converts c display hf hl hs
  cases hv : f.value c.parserCfg.maxExpansions c.state display with
  | error k =>
    rw [hv] at hg
    obtain ⟨e, c', -, hg⟩ := hg
    have := (gives_unique h hg).1
    simp at this
  | ok p =>
    obtain ⟨nodes, l⟩ := p
    rw [hv] at hg
    obtain ⟨h1, h2⟩ := gives_unique h hg
    simp only [Reply.one.injEq, Outcome.ok.injEq] at h1
    subst h2
    exact ⟨nodes, l, rfl, h1, rfl⟩

theorem formula_yield {c c2 : Converter} (hc : ConvOk c) {f : Form} (hf : f.ok false = true) {src : Str}
    (hl : f.linked (knownMacros c.parserCfg.toParserConfig c.state))
    (hs : Spells c.parserCfg.toParserConfig c.state src f.tokens) {display : MathDisplay} {nodes : List Node} {l : Loc}
    (hv : f.value c.parserCfg.maxExpansions c.state display = .ok (nodes, l)) (h2 : c2.state = ⟨l.count, l.labels, c.state.customCmds⟩) :
    Yield c.parserCfg.toParserConfig (Converter.counters c) nodes (Converter.counters c2) := by
  obtain ⟨n0, r, hr, hok⟩ := parseSnippet_next c.parserCfg c.state src display hc.cfg hc.state (sourceOk_nothing _)
  have hp := formula_parses (cfg := c.parserCfg) display hf hl hs
  rw [hv] at hp
  obtain ⟨n1, hp⟩ := hp
  have h3 := (hr (max n0 n1) (by omega)).symm.trans (hp (max n0 n1) (by omega))
  subst h3
  have := hok.2
  unfold Converter.counters
  rw [h2]
  exact this

/-- C22 for formulas of the grammar. After any history: if a source consists of the tokens of a formula in which the
separators are where they belong and no name of an operator contains markup, then the output of its conversion is
well-formed, and an XML reader gets the MathML tree of the meaning of the formula. (Missing: other sources. See
`C22_conversion_partial`.) -/
theorem C22_formula_partial (config : MathCoreConfig) (hp : PlainSettings config) (c c1 c2 : Converter)
    (hc : Converter.new config = .ok c) (calls : List Call) (hr : Reaches c calls c1) (f : Form) (hf : f.ok false = true)
    (hl : f.linked (knownMacros c1.parserCfg.toParserConfig c1.state)) (ht : f.tame false = true) (src : Str)
    (hs : Spells c1.parserCfg.toParserConfig c1.state src f.tokens)
    (display : MathDisplay) (out : Out) (h : Gives c1 (.withGlobalState src display) (.one (.ok out)) c2) :
    ∃ ast l, f.value c1.parserCfg.maxExpansions c1.state display = .ok (ast, l) ∧
      readXml out.s = some [documentXml (outputSettings config c2.state.labelMap) ast src display] := by
  have hok := reaches_ok hr (.new hc)
  obtain ⟨hpc, he⟩ := reaches_cfg hr
  obtain ⟨ast, l, hv, rfl, h2⟩ := formula_gives hf hl hs h
  have hy := formula_yield hok hf hl hs hv h2
  refine ⟨ast, l, hv, ?_⟩
  rw [he, new_emitter hc]
  exact C22_well_formed_partial _ _ _ _ ⟨hp.1, hp.2, hp.3⟩ (nodesOk_of_harmless hy (tame_harmless ht hv _))

/-! ### C20, C21, C25 -/

/-- C25 and C20 for formulas of the grammar. After any history: if a source consists of environments in whose rows there
is nothing unusual (and of other formulas), then the output of its conversion consists of the tables for these
environments. Each table has the rows of the source, each with its cells, where the content of the cells is the meaning
of what is written between `&`s. Beside the rows there are the numbers which are due: from row to row and from
environment to environment the automatic numbers are the next ones, and rows which are tagged, suppressed or not
numbered by default use up none. Afterwards the counter of the converter is the last number. (Missing: other sources.
Some of them contradict the property: `C20_number_lost`, `C20_suppressed_next_row`, `C25_separator_lost_after_style`.) -/
theorem C20_page_partial (config : MathCoreConfig) (hp : PlainSettings config) (c c1 c2 : Converter)
    (hc : Converter.new config = .ok c) (calls : List Call) (hr : Reaches c calls c1) (f : Form) (hf : f.ok false = true)
    (ht : f.tame false = true) (hpage : f.page = true) (src : Str)
    (hs : Spells c1.parserCfg.toParserConfig c1.state src f.tokens)
    (display : MathDisplay) (out : Out) (h : Gives c1 (.withGlobalState src display) (.one (.ok out)) c2) :
    ∃ xs, readXml out.s = some [documentWith (outputSettings config c2.state.labelMap) xs src display] ∧
      PageWritten (outputSettings config c2.state.labelMap).emitter f (Converter.counters c1) xs
        (Converter.counters c2) := by
  have hl := page_linked (knownMacros c1.parserCfg.toParserConfig c1.state) f hpage
  obtain ⟨ast, l, hv, hx⟩ := C22_formula_partial config hp c c1 c2 hc calls hr f hf hl ht src hs display out h
  obtain ⟨ast', l', hv', -, h2⟩ := formula_gives hf hl hs h
  rw [hv] at hv'
  cases hv'
  have h3 : Converter.counters c2 = ⟨l.count, l.labels⟩ := by unfold Converter.counters; rw [h2]
  rw [h3]
  exact ⟨_, by rw [hx, documentXml_eq], page_written _ f _ _ _ ht hpage (page_shows f hpage _ rfl _ _ _ _ hv)⟩

namespace Spec

/-- The elements in an element -/
def Xml.kids : Xml → List Xml
  | .elem _ _ kids => kids
  | .text _ => []

/-- The table of an environment: if there are delimiters, it is between them. -/
def envTable (e : Env) (x : Xml) : Xml :=
  match e with
  | .cases | .rCases | .dCases | .drCases | .pMatrix | .bMatrix | .Bmatrix | .vMatrix | .Vmatrix =>
    (Xml.kids x)[1]?.getD x
  | _ => x

/-- The contents of the cells in the rows of a table -/
def tableCells (x : Xml) : List (List (List Xml)) := (Xml.kids x).map fun row => (Xml.kids row).map Xml.kids

end Spec

theorem cells_kids (align : Layout) (ha : ∀ s, align ≠ .spec s) (line : Option LineType) (i j : Nat) (cells : List (List Xml)) :
    (cellsXml align line i j cells).map Xml.kids = cells := by
  induction cells generalizing j with
  | nil => rfl
  | cons c cs ih =>
    have : lineCells align line j = [] := by unfold lineCells; cases align <;> first | rfl | exact (ha _ rfl).elim
    simp [cellsXml, this, ih, Xml.kids]

theorem rows_kids (idPrefix : Str) (lay : Layout) (hl : ∀ s, lay ≠ .spec s) (i : Nat) (rows : List TRow) :
    (rowsXml idPrefix lay none i rows).map (fun row => (Xml.kids row).map Xml.kids) = rows.map (·.cells) := by
  induction rows generalizing i with
  | nil => rfl
  | cons r rs ih =>
    rw [rowsXml, List.map_cons, List.map_cons, ih]
    exact congrArg (· :: _) (cells_kids lay hl ..)

/-- The content of the cell with the number -/
def Spec.besideRow (label : Option RowLabelInfo) : List Xml :=
  (label.map fun l => el c!"mtext" (txt (tagText l.tag))).toList

theorem numbered_kids (idPrefix : Str) (lay : Layout) (hl : ∀ s, lay ≠ .spec s) (n : NumberColums) (i : Nat) (rows : List TRow) :
    (rowsXml idPrefix lay (some n) i rows).map (fun row => (Xml.kids row).map Xml.kids) =
      rows.map fun r => [] :: (r.cells ++ [besideRow r.label]) := by
  induction rows generalizing i with
  | nil => rfl
  | cons r rs ih =>
    rw [rowsXml, List.map_cons, List.map_cons, ih]
    refine congrArg (· :: _) ?_
    show (_ :: (cellsXml lay r.line i 0 r.cells ++ [numberCell idPrefix n r.label])).map Xml.kids = _
    rw [List.map_cons, List.map_append, cells_kids lay hl]
    cases r.label <;> rfl

namespace Spec

/-- The cells of a row of an array, from column `j` on. Each line but the first one between two columns has an empty
cell of its own, in front of the column behind it. -/
def withLines (columns : List ColumnSpecEntry) : Nat → List (List Xml) → List (List Xml)
  | _, [] => []
  | j, c :: cs => (column columns j).1.map (fun _ => []) ++ c :: withLines columns (j + 1) cs

/-- The cells of a row which has these contents and this number: If the environment has numbers, then there is an empty
cell in front of each row, and behind it a cell for the number. -/
def allCells (e : Env) (spec : Option ArraySpec) (cells : List (List Xml)) (label : Option RowLabelInfo) : List (List Xml) :=
  if (Env.mode e).isSome then [] :: (cells ++ [besideRow label])
  else match spec with
    | none => cells
    | some s => withLines s.columnSpec 0 cells

end Spec

theorem spec_cells_kids (s : ArraySpec) (line : Option LineType) (i j : Nat) (cells : List (List Xml)) :
    (cellsXml (.spec s) line i j cells).map Xml.kids = withLines s.columnSpec j cells := by
  induction cells generalizing j with
  | nil => rfl
  | cons c cs ih =>
    simp only [cellsXml, lineCells, List.map_append, List.map_map, List.map_cons, ih, withLines]
    rfl

theorem spec_rows_kids (idPrefix : Str) (s : ArraySpec) (i : Nat) (rows : List TRow) :
    (rowsXml idPrefix (.spec s) none i rows).map (fun row => (Xml.kids row).map Xml.kids) =
      rows.map fun r => withLines s.columnSpec 0 r.cells := by
  induction rows generalizing i with
  | nil => rfl
  | cons r rs ih =>
    rw [rowsXml, List.map_cons, List.map_cons, ih]
    exact congrArg (· :: _) (spec_cells_kids ..)

/-- C25: what is written for an environment with these rows is a table with these rows and cells. -/
theorem C25_environment (cfg : EmitCfg) (e : Env) (o : EnvArgs) (spec : Option ArraySpec) (ho : o.ok e = true)
    (hc : o.columns e = .ok spec) (line : Option LineType) (rows : List TRow) (x : Xml)
    (h : envXml cfg e spec line rows = some x) :
    tableCells (envTable e x) = rows.map fun r => allCells e spec r.cells r.label := by
  have hs : noSpec e = true → spec = none := by
    intro hn
    unfold EnvArgs.ok at ho
    unfold EnvArgs.columns at hc
    cases ht : o.spec with
    | none => rw [ht] at hc; cases hc; rfl
    | some t => rw [ht, hn] at ho; cases ho
  cases e <;> simp only [envXml, Option.map_eq_some_iff] at h
  all_goals first
    | (obtain ⟨s, rfl, rfl⟩ := h
       exact spec_rows_kids _ s 0 _)
    | (cases hs rfl
       cases h
       first
        | exact rows_kids _ (.columns _) nofun 0 _
        | exact numbered_kids _ (.columns _) nofun .wide 0 _
        | exact numbered_kids _ (.multline _) nofun .narrow 0 _)

/-- C25: the table which is written for an environment has the rows of the source, and each of its rows has the cells
of that row of the source: their content is the meaning of what is in the source. -/
theorem C25_written (cfg : EmitCfg) (e : Env) (o : EnvArgs) (ho : o.ok e = true) (f : Form) (c : Counters) (x : Xml)
    (h : EnvWritten cfg e o f c x) :
    ∃ (spec : Option ArraySpec) (rows : List ShownRow), o.columns e = .ok spec ∧
      RowsMean (envStyle e) .opening f.split.all rows ∧
      tableCells (envTable e x) = rows.map fun r => allCells e spec (r.cells.map (toXmls cfg)) r.info := by
  obtain ⟨spec, rows, h0, h1, h2, -⟩ := h
  refine ⟨spec, rows, h0, h2, ?_⟩
  rw [C25_environment cfg e o spec ho h0 _ _ x h1, List.map_map]
  rfl

namespace Spec

/-- The value of an attribute -/
def attrOf (name : Str) : Xml → Str
  | .elem _ attrs _ => ((attrs.find? fun a => a.1 = name).map (·.2)).getD []
  | .text _ => []

/-- The cells of the rows of a table -/
def cellElements (x : Xml) : List (List Xml) := (Xml.kids x).map Xml.kids

end Spec

theorem attrOf_style (tag css : Str) (kids : List Xml) : attrOf c!"style" (.elem tag (styleAttr css) kids) = css := by
  unfold styleAttr
  split
  · rename_i h
    rw [h]
    rfl
  · rfl

theorem cells_line (lay : Layout) (line : Option LineType) (i j : Nat) (cells : List (List Xml)) :
    ∀ c ∈ cellsXml lay line i j cells, lineCss c!"top" line <+: attrOf c!"style" c := by
  induction cells generalizing j with
  | nil => nofun
  | cons c cs ih =>
    intro d hd
    simp only [cellsXml, List.mem_append, List.mem_cons] at hd
    rcases hd with hd | rfl | hd
    · unfold lineCells at hd
      split at hd
      · obtain ⟨l, -, rfl⟩ := List.mem_map.1 hd
        rw [show ∀ css : Str, attrOf c!"style" (.elem c!"mtd" [(c!"style", css)] []) = css from fun _ => rfl]
        simp only [List.append_assoc]
        exact List.prefix_append _ _
      · cases hd
    · rw [attrOf_style]
      exact List.prefix_append _ _
    · exact ih _ d hd

theorem rows_line (idPrefix : Str) (lay : Layout) (i k : Nat) (rows : List TRow) (r : TRow) (hr : rows[k]? = some r) :
    ∃ cells, ((rowsXml idPrefix lay none i rows).map Xml.kids)[k]? = some cells ∧
      ∀ c ∈ cells, lineCss c!"top" r.line <+: attrOf c!"style" c := by
  induction rows generalizing i k with
  | nil => cases hr
  | cons r' rs ih =>
    cases k with
    | zero => cases hr; exact ⟨_, rfl, cells_line lay r.line i 0 r.cells⟩
    | succ k => exact ih (i + 1) k hr

/-- C25: a line above a row of the source is above each cell of that row, and a line at the top of the environment
at the top of the table. (In the environments in which there may be lines) -/
theorem C25_lines (cfg : EmitCfg) (e : Env) (o : EnvArgs) (he : e.allowsHlines = true) (f : Form) (c : Counters)
    (x : Xml) (h : EnvWritten cfg e o f c x) :
    (∀ (k : Nat) (row : SrcRow), f.split.all[k]? = some row → ∃ cells, (cellElements (envTable e x))[k]? = some cells ∧
      ∀ cell ∈ cells, lineCss c!"top" row.line <+: attrOf c!"style" cell) ∧
    lineCss c!"top" o.line <:+ attrOf c!"style" (envTable e x) := by
  obtain ⟨spec, rows, -, h1, h2, -⟩ := h
  have key : ∀ (st : Style) (prev : Class) (rs : List SrcRow) (ss : List ShownRow), RowsMean st prev rs ss →
      ∀ (k : Nat) (row : SrcRow), rs[k]? = some row → ∃ s : ShownRow, ss[k]? = some s ∧ s.line = row.line := by
    intro st prev rs
    induction rs generalizing prev with
    | nil => intro ss _ k row hr; cases hr
    | cons q rs ih =>
      intro ss hm k row hr
      cases ss with
      | nil => exact hm.elim
      | cons s ss =>
        cases k with
        | zero => cases hr; exact ⟨s, rfl, hm.1.2.symm⟩
        | succ k => exact ih _ ss hm.2 k row hr
  have fin : ∀ lay, cellElements (envTable e x) = (rowsXml cfg.idPrefix lay none 0 (rows.map (ShownRow.written cfg))).map Xml.kids →
      ∀ (k : Nat) (row : SrcRow), f.split.all[k]? = some row → ∃ cells, (cellElements (envTable e x))[k]? = some cells ∧
        ∀ cell ∈ cells, lineCss c!"top" row.line <+: attrOf c!"style" cell := by
    intro lay hl k row hr
    obtain ⟨s, hs, hline⟩ := key _ _ _ _ h2 k row hr
    rw [hl, ← hline]
    exact rows_line _ lay 0 k _ (s.written cfg) (by rw [List.getElem?_map, hs]; rfl)
  have top : ∀ (css : Str) (st : Style) (kids : List Xml),
      attrOf c!"style" (.elem c!"mtable" (styleAttr css ++ styleAttrs (some st)) kids) = css := by
    intro css st kids
    unfold styleAttr
    split
    · rename_i h
      rw [h]
      cases st <;> rfl
    · rfl
  cases e <;> first | (cases he; done) | skip
  all_goals simp only [envXml, Option.map_eq_some_iff] at h1
  all_goals first
    | (obtain ⟨s, -, rfl⟩ := h1
       refine ⟨fin (.spec s) rfl, ?_⟩
       simp only [envTable]
       rw [top]
       exact List.suffix_append _ _)
    | (cases h1
       refine ⟨fin (.columns .centered) rfl, ?_⟩
       simp only [envTable, el, Xml.kids, List.getElem?_cons_succ, List.getElem?_cons_zero, Option.getD_some]
       rw [top]
       simp [Env.allowsHlines])

/-- The numbers of a page -/
theorem pageWritten_rows {cfg : EmitCfg} : ∀ {f : Form} {c c' : Counters} {xs : List Xml}, PageWritten cfg f c xs c' →
    c' = pageCounters f c
  | .nil, c, c', xs, h => by cases xs <;> simp only [PageWritten] at h; exact h.symm
  | .item b s rest, c, c', xs, h => by
    cases xs with
    | nil => simp only [PageWritten] at h
    | cons x xs =>
      simp only [PageWritten] at h
      simp only [pageCounters]
      split at h
      · exact pageWritten_rows h.2
      · split
        · rename_i hno
          exact (hno _ _ _ _ rfl rfl).elim
        · exact pageWritten_rows h
  | .bigOp _ _ rest, c, c', xs, h | .func _ _ _ rest, c, c', xs, h => by
    cases xs with
    | nil => simp only [PageWritten] at h
    | cons x xs => exact pageWritten_rows (f := rest) h
  | .style _ _, c, c', xs, h | .color _ _, c, c', xs, h => by
    match xs, h with
    | [x], h => exact h.symm
  | .amp _, c, c', xs, h | .newLine _ _, c, c', xs, h | .noNumber _, c, c', xs, h | .tag _ _ _, c, c', xs, h
  | .label _ _, c, c', xs, h => by cases xs <;> simp only [PageWritten] at h

/-- What labels stand for after rows -/
def LabelsAfter (rows : List (Option RowLabelInfo)) (before after : StrMap Str) : Prop :=
  (∀ pre row post label, rows = pre ++ some row :: post → row.linkTarget = some label →
    (∀ r ∈ post, ∀ i, r = some i → i.linkTarget ≠ some label) → after.get label = some row.tag.text) ∧
  ∀ label, (∀ r ∈ rows, ∀ i, r = some i → i.linkTarget ≠ some label) → after.get label = before.get label

theorem labelsAfter_nil (m : StrMap Str) : LabelsAfter [] m m :=
  ⟨(by intro pre row post label h; cases pre <;> cases h), fun _ _ => rfl⟩

theorem labelsAfter_append {rs rs' : List (Option RowLabelInfo)} {m m' m'' : StrMap Str} (h : LabelsAfter rs m m')
    (h' : LabelsAfter rs' m' m'') : LabelsAfter (rs ++ rs') m m'' := by
  refine ⟨fun pre row post label heq hl hno => ?_, fun label hno => ?_⟩
  · rcases List.append_eq_append_iff.1 heq with ⟨as, h1, h2⟩ | ⟨bs, h1, h2⟩
    · exact h'.1 as row post label h2 hl hno
    · cases bs with
      | nil =>
        exact h'.1 [] row post label h2.symm hl hno
      | cons b bs =>
        simp only [List.cons_append, List.cons.injEq] at h2
        obtain ⟨rfl, rfl⟩ := h2
        rw [h'.2 label fun r hr => hno r (List.mem_append.2 (.inr hr))]
        exact h.1 pre row bs label h1 hl fun r hr => hno r (List.mem_append.2 (.inl hr))
  · rw [h'.2 label fun r hr => hno r (List.mem_append.2 (.inr hr))]
    exact h.2 label fun r hr => hno r (List.mem_append.2 (.inl hr))

theorem labelsAfter_row (mode : NumberingMode) (c : Counters) (ev : RowEvents) :
    LabelsAfter [(rowNumber mode c ev).1] c.labels (rowNumber mode c ev).2.labels := by
  unfold rowNumber
  refine ⟨fun pre row post label heq hl hno => ?_, fun label hno => ?_⟩
  · cases pre with
    | nil =>
      simp only [List.nil_append, List.cons.injEq] at heq
      obtain ⟨h1, -⟩ := heq
      cases ht : rowTag mode ev c.count with
      | none => rw [ht] at h1; cases h1
      | some t =>
        rw [ht] at h1
        cases h1
        simp only at hl
        simp [hl, get_insert]
    | cons p pre => simp at heq
  · cases ht : rowTag mode ev c.count with
    | none => rfl
    | some t =>
      cases hl : ev.label with
      | none => rfl
      | some lb =>
        have := hno _ (.head _) ⟨t, ev.label⟩ (by rw [ht]; rfl)
        have hne : ¬ label = lb := by rintro rfl; exact this hl
        simp [get_insert, hne]

theorem labelsAfter_none (m : StrMap Str) : LabelsAfter [none] m m := by
  refine ⟨fun pre row post label heq hl hno => ?_, fun _ _ => rfl⟩
  cases pre with
  | nil => simp at heq
  | cons p pre => simp at heq

theorem labelsAfter_rows (mode : Option NumberingMode) (ev : RowEvents) (evs : List RowEvents) (c : Counters) :
    LabelsAfter (numberRows mode c ev evs).1 c.labels (numberRows mode c ev evs).2.labels := by
  induction evs generalizing ev c with
  | nil =>
    cases mode with
    | none => exact labelsAfter_none _
    | some m => exact labelsAfter_row m c ev
  | cons ev' evs ih =>
    match mode, ih with
    | none, ih => exact labelsAfter_append (labelsAfter_none _) (ih ev' c)
    | some .onlyLast, ih => exact labelsAfter_append (labelsAfter_none _) (ih _ c)
    | some .allByDefault, ih => exact labelsAfter_append (labelsAfter_row .allByDefault c ev) (ih ev' _)
    | some .noneByDefault, ih => exact labelsAfter_append (labelsAfter_row .noneByDefault c ev) (ih ev' _)

theorem labelsAfter_page : ∀ (f : Form) (c : Counters), LabelsAfter (pageRows f c) c.labels (pageCounters f c).labels
  | .item b s rest, c => by
    simp only [pageRows, pageCounters]
    split
    · exact labelsAfter_append (labelsAfter_rows ..) (labelsAfter_page rest _)
    · exact labelsAfter_page rest c
  | .bigOp _ _ rest, c | .func _ _ _ rest, c => labelsAfter_page rest c
  | .nil, c | .style _ _, c | .color _ _, c | .amp _, c | .newLine _ _, c | .noNumber _, c | .tag _ _ _, c
  | .label _ _, c | .call _ _ _ _, c | .emptyCall _ _ _ _, c => labelsAfter_nil _

/-- C21 for formulas of the grammar. After any history, if a source consists of environments in whose rows there is
nothing unusual (and of other formulas): the label of a row stands afterwards for what is shown beside that row, unless
a later row has the same label, and other labels stand for what they stood for before. What is shown beside the rows is
`pageRows`: the tag which is given, nothing if the row is suppressed or not numbered by default, or else the next number.
(Missing: other sources. Some of them contradict the property: `C21_label_lost`.) -/
theorem C21_page_partial (config : MathCoreConfig) (hp : PlainSettings config) (c c1 c2 : Converter)
    (hc : Converter.new config = .ok c) (calls : List Call) (hr : Reaches c calls c1) (f : Form) (hf : f.ok false = true)
    (ht : f.tame false = true) (hpage : f.page = true) (src : Str)
    (hs : Spells c1.parserCfg.toParserConfig c1.state src f.tokens)
    (display : MathDisplay) (out : Out) (h : Gives c1 (.withGlobalState src display) (.one (.ok out)) c2) :
    (∀ pre row post label, pageRows f (Converter.counters c1) = pre ++ some row :: post → row.linkTarget = some label →
      (∀ r ∈ post, ∀ i, r = some i → i.linkTarget ≠ some label) →
      c2.state.labelMap.get label = some row.tag.text) ∧
    ∀ label, (∀ r ∈ pageRows f (Converter.counters c1), ∀ i, r = some i → i.linkTarget ≠ some label) →
      c2.state.labelMap.get label = c1.state.labelMap.get label := by
  obtain ⟨xs, -, hx⟩ := C20_page_partial config hp c c1 c2 hc calls hr f hf ht hpage src hs display out h
  have h1 := pageWritten_rows hx
  have h2 := labelsAfter_page f (Converter.counters c1)
  rw [← h1] at h2
  exact h2

/-! ### An example -/

/-- `a &= b` -/
def pageCell (a b : Char) (rest : Form) : Form :=
  .item (.atom (ch a)) .nil (.amp (.item (.atom (ch '=')) .nil (.item (.atom (ch b)) .nil rest)))

/-- `x \begin{align} a &= b \label{x} \\ c &= d \nonumber \\ e &= f \tag{A} \end{align}` -/
def pageExample : Form :=
  .item (.atom (ch 'x')) .nil (.item (.env .align .align {}
    (pageCell 'a' 'b' (.label [ch 'x'] (.newLine none (pageCell 'c' 'd' (.noNumber (.newLine none
      (pageCell 'e' 'f' (.tag true [ch 'A'] .nil))))))))) .nil .nil)

example : isSource exampleConfig
    c!"x \\begin{align} a &= b \\label{x} \\\\ c &= d \\nonumber \\\\ e &= f \\tag{A} \\end{align}" pageExample = true := by
  decide +kernel

example : pageExample.tame false = true ∧ pageExample.page = true := by decide

example : pageRows pageExample ⟨3, []⟩ = [some ⟨autoTag 4, some c!"x"⟩, none, some ⟨⟨c!"A", true⟩, none⟩] := by decide

/-- `\begin{array}{l||c} \hline a & b \\ \hdashline c & d \end{array}` -/
def arrayBody : Form :=
  .item (.atom (ch 'a')) .nil (.amp (.item (.atom (ch 'b')) .nil (.newLine (some .dashed)
    (.item (.atom (ch 'c')) .nil (.amp (.item (.atom (ch 'd')) .nil .nil))))))

def arrayArgs : EnvArgs := ⟨some [ch 'l', ch '|', ch '|', ch 'c'], some .solid⟩

def arrayExample : Form := .item (.env .array .array arrayArgs arrayBody) .nil .nil

example : isSource exampleConfig c!"\\begin{array}{l||c} \\hline a & b \\\\ \\hdashline c & d \\end{array}"
    arrayExample = true := by decide +kernel

example : arrayExample.tame false = true ∧ arrayExample.page = true ∧ arrayArgs.ok .array = true := by decide

example : arrayArgs.columns .array =
    .ok (some ⟨none, some .solid, false, [.withContent .left (some .solid), .onlyLine .solid, .withContent .center none]⟩) := by
  rfl

example : arrayBody.split.all.map (fun r => (r.cells.length, r.line)) = [(2, none), (2, some .dashed)] := by decide

/-- `\big( x \mathrel{\cancel y} \prescript 1 2 z \hphantom a \underbrace b_c \hspace{1em} \eqref{x} \bigm| x` -/
def commandsExample : Form :=
  .item (.leaf (.big .scale1 none (ch '('))) .nil (.item (.atom (ch 'x')) .nil
    (.item (.mathClass .rel (.group (.item (.deco (.enclose .upDiagonal) (.tok (ch 'y'))) .nil .nil))) .nil
    (.item (.prescript (.tok (ch '1')) (.tok (ch '2')) (.tok (ch 'z'))) .nil
    (.item (.deco (.phantom .h) (.tok (ch 'a'))) .nil
    (.item (.braceLabel Sym.BOTTOM_CURLY_BRACKET false (.tok (ch 'b')) (.tok (ch 'c'))) .nil
    (.item (.leaf (.hspace .textUnits [ch '1', ch 'e', ch 'm'])) .nil
    (.item (.leaf (.eqRef [ch 'x'])) .nil
    (.item (.leaf (.big .scale1 (some .middle) (ch '|'))) .nil (.item (.atom (ch 'x')) .nil .nil)))))))))

example : isSource exampleConfig (c!"\\big( x \\mathrel{\\cancel y} \\prescript 1 2 z \\hphantom a \\underbrace b_c " ++
    c!"\\hspace{1em} \\eqref{x} \\bigm| x") commandsExample = true := by decide +kernel

example : commandsExample.tame false = true ∧ commandsExample.page = true := by decide

/-- `a \overset{!}{=} \overset ! = \underset n {bc} \xrightarrow f d \xleftarrow[e]{g} \genfrac{(}{)}{0pt}{1}{n}{k} \cramped{x^2}` -/
def stackExample : Form :=
  .item (.atom (ch 'a')) .nil
    (.item (.stackGroup true (.braces (.item (.atom (ch '!')) .nil .nil)) (.item (.atom (ch '=')) .nil .nil)) .nil
    (.item (.stackTok true (.tok (ch '!')) (ch '=')) .nil
    (.item (.stackGroup false (.tok (ch 'n')) (.item (.atom (ch 'b')) .nil (.item (.atom (ch 'c')) .nil .nil))) .nil
    (.item (.arrow Sym.RIGHTWARDS_ARROW (.tok (ch 'f'))) .nil (.item (.atom (ch 'd')) .nil
    (.item (.arrowUnder Sym.LEFTWARDS_ARROW (.item (.atom (ch 'e')) .nil .nil) (.braces (.item (.atom (ch 'g')) .nil .nil))) .nil
    (.item (.genfrac ⟨some (ch '('), some (ch ')'), [ch '0', ch 'p', ch 't'], some '1'⟩
      (.braces (.item (.atom (ch 'n')) .nil .nil)) (.braces (.item (.atom (ch 'k')) .nil .nil))) .nil
    (.item (.cramped none (.item (.atom (ch 'x')) (.sup (.tok (ch '2')) .nil) .nil)) .nil .nil))))))))

example : isSource exampleConfig (c!"a \\overset{!}{=} \\overset ! = \\underset n {bc} \\xrightarrow f d " ++
    c!"\\xleftarrow[e]{g} \\genfrac{(}{)}{0pt}{1}{n}{k} \\cramped{x^2}") stackExample = true := by decide +kernel

example : stackExample.tame false = true ∧ stackExample.page = true := by decide

end Verif

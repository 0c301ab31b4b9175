import Verif.Props.TexBatch

/-! # The specifications of C53, C55 and C56 do not contradict each other

They are given by syntaxes of their own, and so it could be that a source is a formula in one of them and a mistake in another one. As the
converter cannot both accept and reject a source, there is no such source. -/
namespace Verif
open Model Spec

namespace Spec

mutual
/-- The characters in a document, from the beginning to the end -/
def Xml.chars : Xml → Str
  | .text s => s
  | .elem _ _ kids => Xml.charsAll kids
/-- The same for lists -/
def Xml.charsAll : List Xml → Str
  | [] => []
  | x :: xs => x.chars ++ Xml.charsAll xs
end

mutual
/-- The characters in what is to be shown, from the beginning to the end -/
def Tree.chars : Tree → Str
  | .sym s | .leaf _ s => s
  | .node _ kids => Tree.charsAll kids
/-- The same for lists -/
def Tree.charsAll : List Tree → Str
  | [] => []
  | t :: ts => t.chars ++ Tree.charsAll ts
end

end Spec

theorem chars_txt (s : Str) : Xml.charsAll (txt s) = s := by
  unfold txt
  split
  · next h => rw [h]; rfl
  · simp [Xml.charsAll, Xml.chars]

mutual
theorem chars_displays : ∀ {x : Xml} {t : Spec.Tree}, Displays x t → x.chars = t.chars
  | _, _, .mo => by simp [el, Xml.chars, Tree.chars, chars_txt]
  | _, _, .mi => by simp [el, Xml.chars, Tree.chars, chars_txt]
  | _, _, .upright => by simp [el, Xml.chars, Xml.charsAll, Tree.chars, chars_txt]
  | _, _, .leaf => by simp [el, Xml.chars, Tree.chars, chars_txt]
  | _, _, .node h => by simp [el, Xml.chars, Tree.chars, chars_displaysAll h]
theorem chars_displaysAll : ∀ {xs : List Xml} {ts : List Spec.Tree}, DisplaysAll xs ts → Xml.charsAll xs = Tree.charsAll ts
  | _, _, .nil => rfl
  | _, _, .cons h h' => by simp [Xml.charsAll, Tree.charsAll, chars_displays h, chars_displaysAll h']
end

theorem chars_one (ts : List Spec.Tree) : (Tree.one ts).chars = Tree.charsAll ts := by
  match ts with
  | [] => rfl
  | [t] => simp [Tree.one, Tree.charsAll]
  | _ :: _ :: _ => rfl

theorem chars_formula {annotation : Bool} {x : Xml} {ts : List Spec.Tree} {latex : Str} (h : DisplaysFormula annotation x ts latex) :
    x.chars = Tree.charsAll ts ++ if annotation then latex else [] := by
  unfold DisplaysFormula at h
  cases annotation with
  | true =>
    obtain ⟨y, rfl, h⟩ := h
    simp [el, Xml.chars, Xml.charsAll, chars_txt, chars_displays h, chars_one]
  | false =>
    obtain ⟨kids, rfl, h⟩ := h
    simp [el, Xml.chars, chars_displaysAll h]

/-- The settings are plain. -/
theorem plain_settings : PlainSettings plainConfig :=
  ⟨by unfold PlainValue; decide, by unfold PlainValue; decide, fun _ => by simp [PlainValue, plainConfig]⟩

/-- A new converter without macros, where no name is defined -/
theorem plain_new : ∃ c, Converter.new plainConfig = .ok c ∧
    ∀ name, ¬ definedName c.parserCfg.toParserConfig {} name := by
  refine ⟨_, rfl, ?_⟩
  rintro name (h | h)
  · exact absurd h Bool.false_ne_true
  · exact absurd h Bool.false_ne_true

/-- C56. No source is both a formula and a formula with a mistake. -/
theorem C56_no_formula (tex : Tex) (ht : tex.proper false false = true) (b : Broken) (hb : b.proper none false = true) (src : Str)
    (hw : Prints tex.lexemes src) : ¬ Prints b.lexemes src := by
  intro hw'
  obtain ⟨c, hc, ho⟩ := plain_new
  obtain ⟨out, x, h1, -, -⟩ := C53_latex_local_partial plainConfig plain_settings c c hc [] ⟨0, fun _ _ => rfl⟩ tex ht src hw
    (fun name _ => ho name) .inline
  obtain ⟨e, h2, -⟩ := C56_rejected_local c b hb src hw' (fun name _ => ho name) .inline
  have := (gives_unique h1 h2).1
  simp at this

/-- C56. No source is both a display and a formula with a mistake. -/
theorem C56_no_display (d : Display) (hd : d.proper = true) (hlines : d.lines.length < 65535) (b : Broken)
    (hb : b.proper none false = true) (src : Str) (hw : Prints d.lexemes src) : ¬ Prints b.lexemes src := by
  intro hw'
  obtain ⟨c, hc, ho⟩ := plain_new
  obtain ⟨out, x, table, labels, h1, -⟩ := C53_display_local_partial plainConfig plain_settings c c hc [] ⟨0, fun _ _ => rfl⟩ d hd src hw
    (fun name _ => ho name) hlines .inline
  obtain ⟨e, h2, -⟩ := C56_rejected_local c b hb src hw' (fun name _ => ho name) .inline
  have := (gives_unique h1 h2).1
  simp at this

/-- C56. If a source can be read as a formula with a mistake in two ways, then a kind of error is a reason in both of them. -/
theorem C56_common_reason (b b' : Broken) (hb : b.proper none false = true) (hb' : b'.proper none false = true) (src : Str)
    (hw : Prints b.lexemes src) (hw' : Prints b'.lexemes src) : ∃ k, b.Reason none k ∧ b'.Reason none k := by
  obtain ⟨c, hc, ho⟩ := plain_new
  obtain ⟨e, h1, hr⟩ := C56_rejected_local c b hb src hw (fun name _ => ho name) .inline
  obtain ⟨e', h2, hr'⟩ := C56_rejected_local c b' hb' src hw' (fun name _ => ho name) .inline
  have := (gives_unique h1 h2).1
  simp only [Reply.one.injEq, Outcome.err.injEq] at this
  exact ⟨e.kind, hr, this ▸ hr'⟩

/-- C53. If a source can be read as a formula in two ways, then a document shows both of them. -/
theorem C53_common_output (t t' : Tex) (h : t.proper false false = true) (h' : t'.proper false false = true) (src : Str)
    (hw : Prints t.lexemes src) (hw' : Prints t'.lexemes src) :
    ∃ x, DisplaysFormula false x t.trees src ∧ DisplaysFormula false x t'.trees src := by
  obtain ⟨c, hc, ho⟩ := plain_new
  obtain ⟨out, x, h1, h2, h3⟩ := C53_latex_local_partial plainConfig plain_settings c c hc [] ⟨0, fun _ _ => rfl⟩ t h src hw
    (fun name _ => ho name) .inline
  obtain ⟨out', x', h1', h2', h3'⟩ := C53_latex_local_partial plainConfig plain_settings c c hc [] ⟨0, fun _ _ => rfl⟩ t' h' src hw'
    (fun name _ => ho name) .inline
  have := (gives_unique h1 h1').1
  simp only [Reply.one.injEq, Outcome.ok.injEq] at this
  subst this
  rw [h2] at h2'
  cases h2'
  exact ⟨_, h3, h3'⟩

/-- C57. If a source can be read as a formula in two ways, then both show the same characters in the same order. -/
theorem C57_same_characters (t t' : Tex) (h : t.proper false false = true) (h' : t'.proper false false = true) (src : Str)
    (hw : Prints t.lexemes src) (hw' : Prints t'.lexemes src) : Tree.charsAll t.trees = Tree.charsAll t'.trees := by
  obtain ⟨x, h1, h2⟩ := C53_common_output t t' h h' src hw hw'
  have := (chars_formula h1).symm.trans (chars_formula h2)
  simpa using this

/-- C57. The characters in the output are those of the formula, in their order, with nothing before, between or after them (apart from
the source in the annotation, if that is on). (Missing: as in `C53_latex_partial`.) -/
theorem C57_characters_partial (config : MathCoreConfig) (hp : PlainSettings config) (c c1 : Converter)
    (hc : Converter.new config = .ok c) (calls : List Call) (hr : Reaches c calls c1) (tex : Tex)
    (ht : tex.proper false false = true) (src : Str) (hw : Prints tex.lexemes src)
    (ho : ∀ name, Lexeme.command name ∈ tex.lexemes → ¬ definedName c1.parserCfg.toParserConfig c1.state name)
    (display : MathDisplay) :
    ∃ out x, Gives c1 (.withGlobalState src display) (.one (.ok out)) c1 ∧ readXml out.s = some [x] ∧
      x.bare.chars = Tree.charsAll tex.trees ++ if config.annotation then src else [] := by
  obtain ⟨out, x, h1, h2, h3⟩ := C53_latex_partial config hp c c1 hc calls hr tex ht src hw ho display
  exact ⟨out, x, h1, h2, chars_formula h3⟩

/-- C57 with commands like `\ldots` and `\bra` between formulas. (Missing: as in `C55_compound_partial`.) -/
theorem C57_compound_partial (config : MathCoreConfig) (hp : PlainSettings config) (c c1 : Converter)
    (hc : Converter.new config = .ok c) (calls : List Call) (hr : Reaches c calls c1) (chain : Chain)
    (ht : chain.proper = true) (hn : chain.links ≤ c1.parserCfg.maxExpansions) (src : Str) (hw : Prints chain.lexemes src)
    (ho : ∀ name, Lexeme.command name ∈ chain.lexemes → ¬ definedName c1.parserCfg.toParserConfig c1.state name)
    (display : MathDisplay) :
    ∃ out x, Gives c1 (.withGlobalState src display) (.one (.ok out)) c1 ∧ readXml out.s = some [x] ∧
      x.bare.chars = Tree.charsAll chain.trees ++ if config.annotation then src else [] := by
  obtain ⟨out, x, h1, h2, h3⟩ := C55_compound_partial config hp c c1 hc calls hr chain ht hn src hw ho display
  exact ⟨out, x, h1, h2, chars_formula h3⟩

/-- C57 for displays, apart from the numbers and tags beside the lines. (Missing: as in `C53_display_partial`.) -/
theorem C57_display_partial (config : MathCoreConfig) (hp : PlainSettings config) (c c1 : Converter)
    (hc : Converter.new config = .ok c) (calls : List Call) (hr : Reaches c calls c1) (d : Display) (hd : d.proper = true)
    (src : Str) (hw : Prints d.lexemes src)
    (ho : ∀ name, Lexeme.command name ∈ d.lexemes → ¬ definedName c1.parserCfg.toParserConfig c1.state name)
    (hlines : d.lines.length < 65535) (hcount : c1.state.equationCount + d.lines.length < 2 ^ 64 - 1) (display : MathDisplay) :
    ∃ out x c2, Gives c1 (.withGlobalState src display) (.one (.ok out)) c2 ∧ readXml out.s = some [x] ∧
      x.bare.chars = d.tree.chars ++ if config.annotation then src else [] := by
  obtain ⟨out, x, table, c2, h1, h2, h3, -⟩ := C53_display_partial config hp c c1 hc calls hr d hd src hw ho hlines hcount display
  refine ⟨out, x, c2, h1, h2, ?_⟩
  rw [chars_formula h3]
  simp [Tree.charsAll]

/-- C55. A formula with commands is accepted just if there are not more commands than may be expanded. -/
theorem C55_accepted_iff (config : MathCoreConfig) (hp : PlainSettings config) (c c1 : Converter)
    (hc : Converter.new config = .ok c) (calls : List Call) (hr : Reaches c calls c1) (chain : Chain)
    (ht : chain.proper = true) (src : Str) (hw : Prints chain.lexemes src)
    (ho : ∀ name, Lexeme.command name ∈ chain.lexemes → ¬ definedName c1.parserCfg.toParserConfig c1.state name)
    (display : MathDisplay) :
    (∃ out c2, Gives c1 (.withGlobalState src display) (.one (.ok out)) c2) ↔ chain.links ≤ c1.parserCfg.maxExpansions := by
  constructor
  · rintro ⟨out, c2, h⟩
    refine Nat.le_of_not_lt fun hn => ?_
    obtain ⟨e, c3, h', -⟩ := C55_too_many c1 chain ht hn src hw ho display
    have := (gives_unique h h').1
    simp at this
  · intro hn
    obtain ⟨out, x, h, -⟩ := C55_compound_partial config hp c c1 hc calls hr chain ht hn src hw ho display
    exact ⟨out, c1, h⟩

/-! ### The hypotheses are met -/

/-- The example of C53 is not an example of a mistake. -/
example (b : Broken) (hb : b.proper none false = true) : ¬ Prints b.lexemes (printLexemes texExample.lexemes) :=
  C56_no_formula texExample texExample_proper b hb _ (prints_all (noted := false) (tex_print false false _ texExample_proper))

example : String.ofList (Tree.charsAll texExample.trees) = "x1,2=−b±b2−4ac2a(α′1.5limn→∞ℝ]" := by decide +kernel

example : String.ofList (Tree.charsAll chainExample.trees) = "x...∶=⟨uv⟩|3w⟩y2⟺12" := by decide +kernel

example : String.ofList displayExample.tree.chars = "x=yzu12" := by decide +kernel

/-- Whatever else the source of the example is read as is shown by the same document. -/
example (t : Tex) (h : t.proper false false = true) (hw : Prints t.lexemes (printLexemes texExample.lexemes)) :
    ∃ x, DisplaysFormula false x t.trees (printLexemes texExample.lexemes) ∧
      DisplaysFormula false x texExample.trees (printLexemes texExample.lexemes) :=
  C53_common_output t texExample h texExample_proper _ hw (prints_all (noted := false) (tex_print false false _ texExample_proper))

end Verif

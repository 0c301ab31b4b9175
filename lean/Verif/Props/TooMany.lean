import Verif.Props.Compound
import Verif.Props.Broken
import Verif.Lemmas.TooMany
/-! Properties C55 and C56: more commands than may be expanded, and mistakes after commands which are expanded. -/
namespace Verif
open Model Spec

/-- A source whose tokens cannot be read -/
theorem fails_parses {cfg : SnippetConfig} {g : GlobalState} {src : Str} {ls : List Lexeme} {P : LatexErrKind → Prop} (display : MathDisplay)
    (hw : Prints ls src) (hfix : ∀ l ∈ ls, l.fixed = true)
    (ho : ∀ name, Lexeme.command name ∈ ls → ¬ definedName cfg.toParserConfig g name)
    (hf : ∀ k : Ctx, k.Plain → ∃ K, P K ∧ ∀ l : Loc, l.env = {} → l.left = cfg.maxExpansions →
      Fails cfg.toParserConfig k (.endToken .eoi) (tks ls ++ [⟨.eoi, false⟩]) l K) :
    ∃ n0 e g', P e.kind ∧ ∀ n, n0 ≤ n → parseSnippet n cfg g src display = .err e g' := by
  let l0 : Loc := ⟨display.style, {}, g.equationCount, g.labelMap, cfg.maxExpansions, false⟩
  let k : Ctx :=
    ⟨⟨cfg.customCmds, g.customCmds, {}⟩, g.equationCount, g.labelMap, none, false, {}, display.style, none,
      cfg.maxExpansions⟩
  obtain ⟨K, hK, hf⟩ := hf k ⟨rfl, rfl⟩
  have hs : Spells cfg.toParserConfig g src (tks ls) := by
    refine prints_spells hw fun l hl => ?_
    have h := hfix l hl
    cases l with
    | char c => trivial
    | next c => trivial
    | blank => trivial
    | command name => exact ⟨ho name hl, h⟩
    | opens name => exact h
    | closes name => exact h
  obtain ⟨q, hq, his⟩ := Spells.start hs cfg.maxExpansions display.style
  have hd := does_sequence (cfg := cfg.toParserConfig) (k := k) (l := l0) (keep := true) (F := .error K) (fol := [])
    (en := ⟨.eoi, false⟩) rfl rfl (hf l0 rfl rfl .opening [])
  obtain ⟨n0, er, s', g1, g2⟩ := hd _ his
  refine ⟨n0, er, s'.q.globalState, g2 ▸ hK, fun n hn => ?_⟩
  unfold parseSnippet
  rw [hq]
  have g3 : parse n cfg.toParserConfig (initialState cfg.maxExpansions q display.style) = _ := g1 n hn
  dsimp only
  rw [g3]

/-- C55. Put more commands like `\ldots`, `\iff` and `\colonequals` between formulas than may be expanded: after any history, if the user has
not redefined the commands, the converter rejects it and says that there are too many expansions. With `C55_compound_partial`, such a formula is
accepted just if there are not more commands than the limit. -/
theorem C55_too_many (c1 : Converter) (chain : Chain) (ht : chain.proper = true) (hn : c1.parserCfg.maxExpansions < chain.links)
    (src : Str) (hw : Prints chain.lexemes src)
    (ho : ∀ name, Lexeme.command name ∈ chain.lexemes → ¬ definedName c1.parserCfg.toParserConfig c1.state name)
    (display : MathDisplay) :
    ∃ e c2, Gives c1 (.withGlobalState src display) (.one (.err e)) c2 ∧ e.kind = .tooManyExpansions := by
  obtain ⟨f, hf⟩ := chain_form chain ht
  obtain ⟨n0, e, g', h1, h2⟩ := fails_parses (cfg := c1.parserCfg) (P := (· = .tooManyExpansions)) display hw hf.fixed ho
    fun k hk => ⟨_, rfl, fun l _ hl => chain_fails hk (endFor_plainly none) chain ht l (hl ▸ hn)⟩
  refine ⟨e, { c1 with state := g' }, ⟨n0, fun n hn => ?_⟩, h1⟩
  simp only [perform, Converter.convertWithGlobalState, convert, h2 n hn]
  rfl

/-- C55. The same without global state -/
theorem C55_too_many_local (c1 : Converter) (chain : Chain) (ht : chain.proper = true) (hn : c1.parserCfg.maxExpansions < chain.links)
    (src : Str) (hw : Prints chain.lexemes src)
    (ho : ∀ name, Lexeme.command name ∈ chain.lexemes → ¬ definedName c1.parserCfg.toParserConfig {} name) (display : MathDisplay) :
    ∃ e, Gives c1 (.withLocalState src display) (.one (.err e)) c1 ∧ e.kind = .tooManyExpansions := by
  obtain ⟨f, hf⟩ := chain_form chain ht
  obtain ⟨n0, e, g', h1, h2⟩ := fails_parses (cfg := c1.parserCfg) (g := {}) (P := (· = .tooManyExpansions)) display hw hf.fixed ho
    fun k hk => ⟨_, rfl, fun l _ hl => chain_fails hk (endFor_plainly none) chain ht l (hl ▸ hn)⟩
  refine ⟨e, ⟨n0, fun n hn => ?_⟩, h1⟩
  simp only [perform, Converter.convertWithLocalState, convert, h2 n hn]
  rfl

/-- The tokens of a formula with a mistake after commands, and the error -/
theorem after_parses {cfg : SnippetConfig} {g : GlobalState} {src : Str} {x : Links} {b : Broken} (display : MathDisplay)
    (hx : linksProper x = true) (hn : x.length ≤ cfg.maxExpansions) (hb : b.proper none false = true)
    (hw : Prints (linksLexemes x ++ b.lexemes) src)
    (ho : ∀ name, Lexeme.command name ∈ linksLexemes x ++ b.lexemes → ¬ definedName cfg.toParserConfig g name) :
    ∃ n0 e g', b.Reason none e.kind ∧ ∀ n, n0 ≤ n → parseSnippet n cfg g src display = .err e g' := by
  obtain ⟨-, -, -, h3, -⟩ := broken_fails (cfg := cfg.toParserConfig)
    (k := ⟨⟨cfg.customCmds, g.customCmds, {}⟩, 0, [], none, false, {}, display.style, none, 0⟩) ⟨rfl, rfl⟩ b hb
  refine fails_parses display hw (fixed_append (links_fixed hx) h3) ho fun k hk => ?_
  obtain ⟨K, h1, h2, -, h4⟩ := broken_fails (cfg := cfg.toParserConfig) hk b hb
  refine ⟨K, h1, fun l he hl => ?_⟩
  exact (links_fails hk (endFor_plainly none) h2 (broken_loose hb) x hx l
    (fun n _ => h4 { l with left := n } (by show l.env.allowColumns = false; rw [he]) (by show l.env.numbered = none; rw [he])) (hl ▸ hn)).2

/-- C56. The mistake may also come after commands which are expanded, as many as the limit allows. -/
theorem C56_after_commands (c1 : Converter) (x : Links) (hx : linksProper x = true) (hn : x.length ≤ c1.parserCfg.maxExpansions)
    (b : Broken) (hb : b.proper none false = true) (src : Str) (hw : Prints (linksLexemes x ++ b.lexemes) src)
    (ho : ∀ name, Lexeme.command name ∈ linksLexemes x ++ b.lexemes → ¬ definedName c1.parserCfg.toParserConfig c1.state name)
    (display : MathDisplay) :
    ∃ e c2, Gives c1 (.withGlobalState src display) (.one (.err e)) c2 ∧ b.Reason none e.kind := by
  obtain ⟨n0, e, g', h1, h2⟩ := after_parses (cfg := c1.parserCfg) display hx hn hb hw ho
  refine ⟨e, { c1 with state := g' }, ⟨n0, fun n hn => ?_⟩, h1⟩
  simp only [perform, Converter.convertWithGlobalState, convert, h2 n hn]
  rfl

/-- C56. The same without global state -/
theorem C56_after_commands_local (c1 : Converter) (x : Links) (hx : linksProper x = true) (hn : x.length ≤ c1.parserCfg.maxExpansions)
    (b : Broken) (hb : b.proper none false = true) (src : Str) (hw : Prints (linksLexemes x ++ b.lexemes) src)
    (ho : ∀ name, Lexeme.command name ∈ linksLexemes x ++ b.lexemes → ¬ definedName c1.parserCfg.toParserConfig {} name)
    (display : MathDisplay) :
    ∃ e, Gives c1 (.withLocalState src display) (.one (.err e)) c1 ∧ b.Reason none e.kind := by
  obtain ⟨n0, e, g', h1, h2⟩ := after_parses (cfg := c1.parserCfg) (g := {}) display hx hn hb hw ho
  refine ⟨e, ⟨n0, fun n hn => ?_⟩, h1⟩
  simp only [perform, Converter.convertWithLocalState, convert, h2 n hn]
  rfl

/-! ### There are such sources -/

theorem scriptMark_print (above : Bool) : printable (scriptMark above) = true := by cases above <;> decide

theorem taker_print {x : Taker} (h : x.proper = true) : Solid false x.lexemes := by
  cases x with
  | root => exact .cons command_sqrt .nil
  | accent row =>
    exact .cons (List.all_eq_true.1 accents_print row (List.mem_append_left _ (of_decide_eq_true h))) .nil
  | brace row =>
    exact .cons (List.all_eq_true.1 accents_print row (List.mem_append_right _ (of_decide_eq_true h))) .nil
  | phantom name => exact .cons (name_print (List.mem_append_right _ (of_decide_eq_true h))) .nil
  | stroke row => exact .cons (List.all_eq_true.1 strokes_print row (of_decide_eq_true h)) .nil
  | stack above => cases above <;> exact .cons (by decide) .nil
  | arrow row => exact .cons (List.all_eq_true.1 arrows_print row (of_decide_eq_true h)) .nil
  | fraction binomial name =>
    refine .cons (name_print ?_) .nil
    have h' : name ∈ if binomial then binomialNames else fractionNames := of_decide_eq_true h
    cases binomial <;> simp_all
  | over binomial name a =>
    simp only [Taker.proper, Bool.and_eq_true, decide_eq_true_eq] at h
    refine .cons (name_print ?_) (arg_print a h.2)
    have h' := h.1
    cases binomial <;> simp_all
  | script n above => exact solid_append (nuc_print false n _ _ h) (.cons (scriptMark_print above) .nil)

theorem opening_print {o : Opening} (h : o.proper = true) : Solid false o.lexemes := by
  cases o with
  | brace => exact .cons (by decide) .nil
  | left d => exact .cons command_left (.cons (List.all_eq_true.1 delims_print d (of_decide_eq_true h)) .nil)
  | begins row => exact .cons (List.all_eq_true.1 tables_print row (of_decide_eq_true h)) .nil
  | argument x => exact solid_append (taker_print h) (.cons (by decide) .nil)

theorem stray_print {x : Stray} {around : Option Opening} {columns : Bool}
    (h : x.misplaced around columns = true ∨ x.noArgument = true) : Solid false x.lexemes := by
  cases x with
  | brace => exact .cons (by decide) .nil
  | right d =>
    have : d ∈ delimRows := by
      rcases h with h | h
      · simp only [Stray.misplaced, Bool.and_eq_true, decide_eq_true_eq] at h
        exact h.1
      · exact of_decide_eq_true h
    exact .cons command_right (.cons (List.all_eq_true.1 delims_print d this) .nil)
  | ends row =>
    have : row ∈ tableRows := by
      rcases h with h | h
      · simp only [Stray.misplaced, Bool.and_eq_true, decide_eq_true_eq] at h
        exact h.1
      · exact of_decide_eq_true h
    exact .cons (opens_closes (List.all_eq_true.1 tables_print row this)) .nil
  | amp => exact .cons (by decide) .nil
  | dollar => exact .cons (by decide) .nil
  | stop => exact .nil

theorem broken_print : ∀ {b : Broken} {around : Option Opening} {columns : Bool}, b.proper around columns = true → Solid false b.lexemes
  | .here f x rest, around, columns, h => by
    unfold Broken.proper at h
    simp only [Bool.and_eq_true] at h
    exact solid_append (tex_print false true f h.1.1.1)
      (solid_append (stray_print (.inl h.1.2)) (tex_print false false rest h.1.1.2))
  | .renamed f row row' t rest, around, columns, h => by
    unfold Broken.proper at h
    simp only [Bool.and_eq_true, decide_eq_true_eq] at h
    obtain ⟨⟨⟨⟨⟨h1, h2⟩, h3⟩, h4⟩, -⟩, h6⟩ := h
    exact solid_append (tex_print false true f h1) (.cons (List.all_eq_true.1 tables_print row h3) (solid_append (table_print _ t h6)
      (.cons (opens_closes (List.all_eq_true.1 tables_print row' h4)) (tex_print false false rest h2))))
  | .missing f x s rest, around, columns, h => by
    unfold Broken.proper at h
    simp only [Bool.and_eq_true] at h
    obtain ⟨⟨⟨⟨⟨h1, h2⟩, h3⟩, h4⟩, -⟩, -⟩ := h
    exact solid_append (tex_print false true f h1) (solid_append (taker_print h3)
      (solid_append (stray_print (around := none) (columns := false) (.inr h4)) (tex_print false false rest h2)))
  | .marks f n above mark rest, around, columns, h => by
    unfold Broken.proper at h
    simp only [Bool.and_eq_true, decide_eq_true_eq] at h
    obtain ⟨⟨⟨⟨h1, h2⟩, h3⟩, h4⟩, -⟩ := h
    refine solid_append (tex_print false true f h1) (solid_append (taker_print h3) (.cons ?_ (tex_print false false rest h2)))
    simp only [List.mem_cons, List.not_mem_nil, or_false] at h4
    rcases h4 with rfl | rfl | rfl <;> decide
  | .twice f n above a b rest, around, columns, h => by
    unfold Broken.proper at h
    simp only [Bool.and_eq_true] at h
    obtain ⟨⟨⟨⟨⟨h1, h2⟩, h3⟩, h4⟩, h5⟩, -⟩ := h
    exact solid_append (tex_print false true f h1) (solid_append (taker_print h3) (solid_append (arg_print a h4)
      (.cons (scriptMark_print above) (solid_append (arg_print b h5) (tex_print false false rest h2)))))
  | .inside f o b, around, columns, h => by
    unfold Broken.proper at h
    simp only [Bool.and_eq_true] at h
    exact solid_append (tex_print false true f h.1.1.1) (solid_append (opening_print h.1.1.2) (broken_print h.1.2))
  | .cell f row b, around, columns, h => by
    unfold Broken.proper at h
    simp only [Bool.and_eq_true] at h
    refine solid_append (tex_print false true f h.1.1) (.cons ?_ (broken_print h.2))
    cases row <;> decide

/-- There is a source for every formula with a mistake. -/
theorem C56_written (b : Broken) (h : b.proper none false = true) : ∃ src, Prints b.lexemes src := ⟨_, prints_all (broken_print h)⟩

theorem cmd_print {x : LinkCmd} (h : x.proper = true) : Solid false x.lexemes := by
  cases x with
  | plain row => exact .cons (List.all_eq_true.1 compound_print row (of_decide_eq_true h)) .nil
  | wrap row a =>
    simp only [LinkCmd.proper, Bool.and_eq_true, decide_eq_true_eq] at h
    exact .cons (List.all_eq_true.1 wrap_print row h.1.1.1) (.cons (by decide) (solid_append (tex_print false true a h.1.1.2) (.cons (by decide) .nil)))
  | fenced row a =>
    simp only [LinkCmd.proper, Bool.and_eq_true, decide_eq_true_eq] at h
    exact .cons (List.all_eq_true.1 fenceRow_print row h.1.1.1) (.cons (by decide)
      (solid_append (tex_print false false a h.1.1.2) (.cons (by decide) .nil)))

theorem links_print : ∀ {x : Links}, linksProper x = true → Solid false (linksLexemes x)
  | [], _ => .nil
  | (f, y) :: rest, h => by
    simp only [linksProper, List.all_cons, Bool.and_eq_true] at h
    exact solid_append (tex_print false true f h.1.1) (solid_append (cmd_print h.1.2) (links_print h.2))

/-- The same with commands in front -/
theorem C56_written_after (x : Links) (hx : linksProper x = true) (b : Broken) (h : b.proper none false = true) :
    ∃ src, Prints (linksLexemes x ++ b.lexemes) src := ⟨_, prints_all (solid_append (links_print hx) (broken_print h))⟩

/-! ### The hypotheses are met -/

/-- `onceConfig` allows one command; the chain has five. -/
example : chainExample.proper = true ∧ onceConfig.maxExpansions < chainExample.links := by decide +kernel

/-- `x\ldots y^2\iff \bra{u}`, and then the broken formula of C56 -/
def linksExample : Links :=
  [(letters c!"x" .nil, .plain ⟨c!"ldots", [some 0x2E, some 0x2E, some 0x2E]⟩),
   (.item (.char 'y') (.sup (.char '2')) .nil, .plain ⟨c!"iff", [none, some 0x27FA, none]⟩),
   (.nil, .wrap ⟨c!"bra", 0x27E8, 0x7C⟩ (letters c!"u" .nil))]

example : linksProper linksExample = true ∧ linksExample.length ≤ plainConfig.maxExpansions := by decide +kernel

example : String.ofList (printLexemes (linksLexemes linksExample ++ (brokenExample .brace (letters c!"z" .nil)).lexemes)) =
    "x\\ldots y^2\\iff \\bra {u}x\\left (\\begin{pmatrix}y}z" := by decide +kernel

end Verif

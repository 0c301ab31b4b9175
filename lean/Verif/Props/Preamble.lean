import Verif.Lemmas.PreambleRun
import Verif.Lemmas.Inline
import Verif.Lemmas.Witness
import Verif.Props.Scripts
/-! C10: definitions at the beginning of a source. -/
namespace Verif
open Model Spec

variable {rest : List LexerOutput} {st st' : CmdStores} {cfg : ParserConfig}

/-- C10. Take a source which consists of definitions and a formula after them. The names in the formula have the
meaning which the definitions, one after the other, give them. The conversion gives the meaning of the formula with
these macros, and the macros which remain known to the converter are those which have been defined for the session.
What is missing: definitions between the parts of a formula, and those in arguments of macros, for which the claim is
false (`C10_redefinition_too_late`, `C10_no_new_name_in_argument`); and formulas which `Form` does not cover. -/
theorem C10_definitions_partial (c : Converter) {src : Str} {f : Form} (display : MathDisplay)
    (hp : BeginsWith c.parserCfg.toParserConfig c.state src (.ok st') rest)
    (hf : f.ok false = true) (hl : f.linked (macrosOf c.parserCfg.toParserConfig st'))
    (hs : Reads (rest.map (tokOf c.parserCfg.toParserConfig st')) (f.tokens ++ [⟨.eoi, false⟩])) :
    match f.value c.parserCfg.maxExpansions c.state display with
    | .ok (nodes, l) => Gives c (.withGlobalState src display)
        (.one (.ok (emitSnippet c.emitterCfg l.labels src display nodes)))
        { c with state := ⟨l.count, l.labels, st'.document⟩ }
    | .error k => ∃ e c', e.kind = k ∧ Gives c (.withGlobalState src display) (.one (.err e)) c' := by
  have h := preamble_parses (cfg := c.parserCfg) display hp hf hl hs
  cases hv : f.value c.parserCfg.maxExpansions c.state display with
  | error k =>
    rw [hv] at h
    obtain ⟨n0, e, g', h1, h2⟩ := h
    refine ⟨e, { c with state := g' }, h1, n0, fun n hn => ?_⟩
    simp only [perform, Converter.convertWithGlobalState, convert, h2 n hn]
    rfl
  | ok p =>
    obtain ⟨nodes, l⟩ := p
    rw [hv] at h
    obtain ⟨n0, h2⟩ := h
    refine ⟨n0, fun n hn => ?_⟩
    simp only [perform, Converter.convertWithGlobalState, convert, h2 n hn]
    rfl

/-- C10, without global state -/
theorem C10_definitions_local_partial (c : Converter) {src : Str} {f : Form} (display : MathDisplay)
    (hp : BeginsWith c.parserCfg.toParserConfig {} src (.ok st') rest)
    (hf : f.ok false = true) (hl : f.linked (macrosOf c.parserCfg.toParserConfig st'))
    (hs : Reads (rest.map (tokOf c.parserCfg.toParserConfig st')) (f.tokens ++ [⟨.eoi, false⟩])) :
    match f.value c.parserCfg.maxExpansions {} display with
    | .ok (nodes, l) => Gives c (.withLocalState src display)
        (.one (.ok (emitSnippet c.emitterCfg l.labels src display nodes))) c
    | .error k => ∃ e, e.kind = k ∧ Gives c (.withLocalState src display) (.one (.err e)) c := by
  have h := preamble_parses (cfg := c.parserCfg) display hp hf hl hs
  cases hv : f.value c.parserCfg.maxExpansions {} display with
  | error k =>
    rw [hv] at h
    obtain ⟨n0, e, g', h1, h2⟩ := h
    refine ⟨e, h1, n0, fun n hn => ?_⟩
    simp only [perform, Converter.convertWithLocalState, convert, h2 n hn]
    rfl
  | ok p =>
    obtain ⟨nodes, l⟩ := p
    rw [hv] at h
    obtain ⟨n0, h2⟩ := h
    refine ⟨n0, fun n hn => ?_⟩
    simp only [perform, Converter.convertWithLocalState, convert, h2 n hn]
    rfl

/-- C10. If one of the definitions is not allowed, the conversion fails because of it, whatever comes after it. -/
theorem C10_rejected (c : Converter) {src : Str} {k : LatexErrKind} (display : MathDisplay)
    (hp : BeginsWith c.parserCfg.toParserConfig c.state src (.error k) rest) :
    ∃ e c', e.kind = k ∧ Gives c (.withGlobalState src display) (.one (.err e)) c' := by
  obtain ⟨n0, e, g', h1, h2⟩ := preamble_fails (cfg := c.parserCfg) display hp
  refine ⟨e, { c with state := g' }, h1, n0, fun n hn => ?_⟩
  simp only [perform, Converter.convertWithGlobalState, convert, h2 n hn]
  rfl

/-- C10, without global state -/
theorem C10_rejected_local (c : Converter) {src : Str} {k : LatexErrKind} (display : MathDisplay)
    (hp : BeginsWith c.parserCfg.toParserConfig {} src (.error k) rest) :
    ∃ e, e.kind = k ∧ Gives c (.withLocalState src display) (.one (.err e)) c := by
  obtain ⟨n0, e, g', h1, h2⟩ := preamble_fails (cfg := c.parserCfg) display hp
  refine ⟨e, h1, n0, fun n hn => ?_⟩
  simp only [perform, Converter.convertWithLocalState, convert, h2 n hn]
  rfl

/-! ### What a definition does -/

/-- The definition is accepted. -/
def Accepted (d : Defn) (cfg : ParserConfig) (st : CmdStores) : Prop := ∃ st', d.effect cfg st = .ok st'

/-- C10. A definition with an acceptable body is accepted exactly if: the name is unknown, for `\newcommand`; the name is
known, for `\renewcommand`; always, for `\providecommand`, `\def`, `\gdef` and `\let`. -/
theorem C10_guards (d : Defn) {body : List RecordedToken} (hb : d.body = .ok body) :
    Accepted d cfg st ↔ match d.mode with
      | some .new => known cfg st d.name = none
      | some .renew => known cfg st d.name ≠ none
      | some .provide | none => True := by
  obtain ⟨mode, name, n, b, cls, g⟩ := d
  cases hb
  unfold Accepted Defn.effect
  dsimp only
  cases mode with
  | none => simp [Except.map]
  | some mode => cases mode <;> cases known cfg st name <;> simp [Except.map]

/-- C10. The errors of `\newcommand` and `\renewcommand` -/
theorem C10_guard_errors (d : Defn) :
    (d.mode = some .new → known cfg st d.name ≠ none → d.effect cfg st = .error .commandAlreadyDefined) ∧
    (d.mode = some .renew → known cfg st d.name = none → d.effect cfg st = .error .commandNotDefined) := by
  obtain ⟨mode, name, n, b, cls, g⟩ := d
  unfold Defn.effect
  dsimp only
  constructor
  · rintro rfl h
    cases hk : known cfg st name with
    | none => exact absurd hk h
    | some t => rfl
  · rintro rfl h
    rw [h]

/-- The macro which a definition makes -/
def Means (cfg : ParserConfig) (st : CmdStores) (name : Str) (arity : Nat) (body : List RecordedToken) : Prop :=
  ∃ t, known cfg st name = some t ∧ macrosOf cfg st t = some (arity, body.map (pieceOf (known cfg st)))

theorem body_append {s : CustomCmds} {l : List RecordedToken} {m} {i j : Nat} {b : List RecordedToken}
    (h : s.body i j = some b) : (⟨s.tokens ++ l, m⟩ : CustomCmds).body i j = some b := by
  unfold CustomCmds.body sliceGet at h ⊢
  dsimp only
  split at h
  · rename_i hij
    cases h
    rw [if_pos ⟨hij.1, by rw [List.length_append]; omega⟩, List.drop_append_of_le_length (by omega),
      List.take_append_of_le_length (by rw [List.length_drop]; omega)]
  · cases h

theorem getBody_withDefinition {name : Str} {n : Nat} {body b : List RecordedToken} {cls : Option Class} {g : Bool}
    {src : CmdSource} {i j : Nat} (h : st.getBody src i j = some b) :
    (withDefinition st name n body cls g).getBody src i j = some b := by
  unfold withDefinition CmdStores.getBody CmdStores.store at *
  cases g <;> cases src <;> dsimp only [if_true, if_false, Bool.false_eq_true] at h ⊢ <;>
    first | exact h | exact body_append h | exact body_append (l := []) h

/-- C10. After a definition which is accepted, the name stands for the macro which was defined, unless
`\providecommand` found the name to be known already; then nothing has changed. -/
theorem C10_new_meaning (d : Defn) {body : List RecordedToken} (hb : d.body = .ok body)
    (h : d.effect cfg st = .ok st') :
    (d.mode = some .provide ∧ known cfg st d.name ≠ none ∧ st' = st) ∨ Means cfg st' d.name d.arity body := by
  obtain ⟨mode, name, n, b, cls, g⟩ := d
  cases hb
  unfold Defn.effect at h
  dsimp only at h ⊢
  split at h
  · cases h
  · cases h
  · rename_i hk
    cases h
    exact .inl ⟨rfl, by rw [hk]; simp, rfl⟩
  · cases h
    right
    refine ⟨newRef st n body cls g, by rw [known_withDefinition, if_pos rfl], ?_⟩
    unfold newRef macrosOf
    dsimp only
    have : (withDefinition st name n body cls g).getBody (if g = true then .document else .loc)
        (st.store (if g = true then .document else .loc)).tokens.length
        ((st.store (if g = true then .document else .loc)).tokens.length + body.length) = some body := by
      unfold withDefinition CmdStores.getBody CmdStores.store CustomCmds.body sliceGet
      cases g <;> simp
    rw [this]
    rfl

/-- C10. A definition changes the meaning of no other name, … -/
theorem C10_other_names (d : Defn) (h : d.effect cfg st = .ok st') (x : Str) (hx : x ≠ d.name) :
    known cfg st' x = known cfg st x := by
  obtain ⟨mode, name, n, b, cls, g⟩ := d
  unfold Defn.effect at h
  dsimp only at h hx
  cases b with
  | error e =>
    split at h <;> cases h
  | ok body =>
    split at h
    · cases h
    · cases h
    · cases h; rfl
    · cases h
      rw [known_withDefinition, if_neg hx]

/-- C10. … and what is recorded for the macros which are known stays the same. (The names in it are looked up when the
macro is used.) -/
theorem C10_old_bodies (d : Defn) (h : d.effect cfg st = .ok st') {src : CmdSource} {i j : Nat}
    {b : List RecordedToken} (hb : st.getBody src i j = some b) : st'.getBody src i j = some b := by
  obtain ⟨mode, name, n, b', cls, g⟩ := d
  unfold Defn.effect at h
  dsimp only at h
  cases b' with
  | error e => split at h <;> cases h
  | ok body =>
    split at h
    · cases h
    · cases h
    · cases h; exact hb
    · cases h; exact getBody_withDefinition hb

/-- C10. The macros for the whole session change only by definitions for the whole session. -/
theorem C10_scope (d : Defn) (h : d.effect cfg st = .ok st') (hg : d.isGlobal = false) : st'.document = st.document := by
  obtain ⟨mode, name, n, b, cls, g⟩ := d
  cases hg
  unfold Defn.effect at h
  dsimp only at h
  cases b with
  | error e => split at h <;> cases h
  | ok body =>
    split at h
    · cases h
    · cases h
    · cases h; rfl
    · cases h; rfl

/-! ### Written out -/

/-- C10 and C44 together. A source with definitions and a formula which uses them gives the same nodes, labels and
numbers as the source in which the macros are written out. -/
theorem C10_written_out_partial (c : Converter) {src src' : Str} {f : Form} (display : MathDisplay)
    (hp : BeginsWith c.parserCfg.toParserConfig c.state src (.ok st') rest)
    (hf : f.ok false = true) (hl : f.linked (macrosOf c.parserCfg.toParserConfig st'))
    (hs : Reads (rest.map (tokOf c.parserCfg.toParserConfig st')) (f.tokens ++ [⟨.eoi, false⟩]))
    (hi : f.inlined.ok false = true) (hc : f.SameClasses) (hn : f.calls ≤ c.parserCfg.maxExpansions)
    (hs' : Spells c.parserCfg.toParserConfig c.state src' f.inlined.tokens) :
    (∃ nodes, ∃ l : Loc,
      Gives c (.withGlobalState src' display) (.one (.ok (emitSnippet c.emitterCfg l.labels src' display nodes)))
        { c with state := ⟨l.count, l.labels, c.state.customCmds⟩ } ∧
      Gives c (.withGlobalState src display) (.one (.ok (emitSnippet c.emitterCfg l.labels src display nodes)))
        { c with state := ⟨l.count, l.labels, st'.document⟩ }) ∨
    (∃ e e' c' c'', e.kind = e'.kind ∧ Gives c (.withGlobalState src' display) (.one (.err e')) c' ∧
      Gives c (.withGlobalState src display) (.one (.err e)) c'') := by
  have h1 := C10_definitions_partial c display hp hf hl hs
  have h2 := formula_converts c display hi (form_inlined_linked _ f) hs'
  have h3 := value_inlined hc c.parserCfg.maxExpansions c.state display
  cases hv : f.inlined.value c.parserCfg.maxExpansions c.state display with
  | error k =>
    rw [hv] at h2 h3
    obtain ⟨e', c', g1, g2⟩ := h2
    rw [h3 hn] at h1
    obtain ⟨e, c'', g3, g4⟩ := h1
    exact .inr ⟨e, e', c', c'', g3.trans g1.symm, g2, g4⟩
  | ok p =>
    obtain ⟨nodes, l⟩ := p
    rw [hv] at h2 h3
    dsimp only at h3
    rw [h3, if_pos hn] at h1
    exact .inl ⟨nodes, l, h2, h1⟩

/-! ### An example -/

/-- The parser's configuration of a new converter -/
def plainParser : ParserConfig := ((Converter.new plainConfig).toOption.map fun c => c.parserCfg.toParserConfig).getD {}

/-- The source of the example -/
def preambleSource : Str := c!"\\newcommand\\x[1]{a#1} \\global\\def\\y{b}\\x{c}\\y"

/-- The definitions at its beginning -/
def preambleDefs : List LexerOutput :=
  [.commandName c!"newcommand" ⟨0, 11⟩, .commandName c!"x" ⟨11, 13⟩, .token ⟨.squareBracketOpen, ⟨13, 14⟩⟩,
    .token ⟨.digit '1', ⟨14, 15⟩⟩, .token ⟨.squareBracketClose, ⟨15, 16⟩⟩, .token ⟨.groupBegin, ⟨16, 17⟩⟩,
    .token ⟨Lexer.charToken 'a', ⟨17, 18⟩⟩, .token ⟨.customCmdArgInput 0, ⟨18, 20⟩⟩, .token ⟨.groupEnd, ⟨20, 21⟩⟩,
    .token ⟨.whitespace, ⟨21, 22⟩⟩, .commandName c!"global" ⟨22, 29⟩, .commandName c!"def" ⟨29, 33⟩,
    .commandName c!"y" ⟨33, 35⟩, .token ⟨.groupBegin, ⟨35, 36⟩⟩, .token ⟨Lexer.charToken 'b', ⟨36, 37⟩⟩,
    .token ⟨.groupEnd, ⟨37, 38⟩⟩]

/-- What is known after them -/
def preambleStores : CmdStores :=
  withDefinition (withDefinition ⟨plainParser.customCmds, {}, {}⟩ c!"x" 1 [.token (ch 'a'), .token (.customCmdArg 0)]
    (some .default) false) c!"y" 0 [.token (ch 'b')] (some .default) true

/-- The formula after them -/
def preambleForm : Form :=
  .call (.customCmdRef .loc 1 (some .default) 0 2) [.braces [⟨ch 'c', false⟩]] 2
    (.item (.atom (ch 'a')) .nil (.item (.atom (ch 'c')) .nil
      (.call (.customCmdRef .document 0 (some .default) 0 1) [] 1 (.item (.atom (ch 'b')) .nil .nil))))

theorem blanks_nil : Blanks [] := by intro o h; cases h

theorem preamble_first : Defines plainParser ⟨plainParser.customCmds, {}, {}⟩ (preambleDefs.take 9)
    ⟨some .new, c!"x", 1, .ok [.token (ch 'a'), .token (.customCmdArg 0)], some .default, false⟩ := by
  have hx : tokOf plainParser ⟨plainParser.customCmds, {}, {}⟩ (.commandName c!"x" ⟨11, 13⟩) =
    .unresolvedCommand c!"x" := by kernel_rfl
  exact .command (w := []) (c := .commandName c!"newcommand" ⟨0, 11⟩) (name := c!"x") (mode := .new)
    (p := [] ++ [.commandName c!"x" ⟨11, 13⟩]) (a := (preambleDefs.drop 2).take 3) (n := 1)
    (body := (preambleDefs.drop 6).take 2) (b := [] ++ (preambleDefs.drop 5).take 4)
    blanks_nil (by kernel_rfl) (.plain blanks_nil (by rw [hx]; intro h; cases h))
    (.some (w := []) (w' := []) (w'' := []) (c := '1') blanks_nil rfl blanks_nil rfl (by decide) blanks_nil rfl)
    (.group blanks_nil (.mk rfl rfl rfl (by
      intro o ho h
      have ho : o ∈ [LexerOutput.token ⟨Lexer.charToken 'a', ⟨17, 18⟩⟩, .token ⟨.customCmdArgInput 0, ⟨18, 20⟩⟩] := ho
      rcases List.mem_cons.1 ho with rfl | ho
      · cases h
      · rw [List.mem_singleton.1 ho] at h; cases h)))

/-- The commands which are known after the first definition -/
def preambleStores1 : CmdStores :=
  withDefinition ⟨plainParser.customCmds, {}, {}⟩ c!"x" 1 [.token (ch 'a'), .token (.customCmdArg 0)] (some .default) false

theorem preamble_second : Defines plainParser preambleStores1 (preambleDefs.drop 9)
    ⟨none, c!"y", 0, .ok [.token (ch 'b')], some .default, true⟩ :=
  .definition (gl := [.token ⟨.whitespace, ⟨21, 22⟩⟩] ++ .commandName c!"global" ⟨22, 29⟩ :: []) (w := []) (w' := [])
    (w'' := []) (g := false) (ps := []) (n := 0) (body := (preambleDefs.drop 14).take 1) (b := preambleDefs.drop 13)
    (.cons (by intro o ho; rw [List.mem_singleton.1 ho]; rfl) (by kernel_rfl) .nil) blanks_nil (by kernel_rfl)
    blanks_nil blanks_nil rfl
    (.mk rfl rfl rfl (by
      intro o ho h
      have ho : o ∈ [LexerOutput.token ⟨Lexer.charToken 'b', ⟨36, 37⟩⟩] := ho
      rw [List.mem_singleton.1 ho] at h; cases h))

/-- `\newcommand\x[1]{a#1} \global\def\y{b}` at the beginning of a source -/
theorem preamble_example : BeginsWith plainParser {} preambleSource (.ok preambleStores)
    ((tokensOf preambleSource).1.drop 16) := by
  refine ⟨preambleDefs, by kernel_rfl, ?_⟩
  refine .cons (l := preambleDefs.take 9) (rest := preambleDefs.drop 9) preamble_first (st' := preambleStores1) ?_ ?_
  · kernel_rfl
  · exact .cons (l := preambleDefs.drop 9) (rest := []) preamble_second rfl .nil

/-- The formula after it meets the conditions of `C10_definitions_partial`. -/
example : preambleForm.ok false = true ∧ preambleForm.linked (macrosOf plainParser preambleStores) ∧
    reads (((tokensOf preambleSource).1.drop 16).map (tokOf plainParser preambleStores))
      (preambleForm.tokens ++ [⟨.eoi, false⟩]) = true :=
  ⟨by decide +kernel, form_links _ (by decide +kernel), by decide +kernel⟩

example : Converts plainConfig preambleSource .inline c!"<math><mi>a</mi><mi>c</mi><mi>b</mi></math>" :=
  converts_of 60 fun n => by kernel_rfl

/-- A definition which is not allowed -/
example : BeginsWith plainParser {} c!"\\newcommand\\alpha{b}" (.error .commandAlreadyDefined)
    [.token ⟨.eoi, ⟨20, 20⟩⟩] := by
  let d : List LexerOutput := [.commandName c!"newcommand" ⟨0, 11⟩, .commandName c!"alpha" ⟨11, 17⟩,
    .token ⟨.groupBegin, ⟨17, 18⟩⟩, .token ⟨Lexer.charToken 'b', ⟨18, 19⟩⟩, .token ⟨.groupEnd, ⟨19, 20⟩⟩]
  have hx : (match tokOf plainParser ⟨plainParser.customCmds, {}, {}⟩ (.commandName c!"alpha" ⟨11, 17⟩) with
    | .groupBegin => true
    | _ => false) = false := by kernel_rfl
  refine ⟨d, by kernel_rfl, ?_⟩
  refine .fail (l := d) (rest := []) (.command (w := []) (c := .commandName c!"newcommand" ⟨0, 11⟩) (name := c!"alpha")
    (mode := .new) (p := [] ++ [.commandName c!"alpha" ⟨11, 17⟩]) (a := []) (n := 0) (body := (d.drop 3).take 1)
    (b := [] ++ d.drop 2) blanks_nil (by kernel_rfl) (.plain blanks_nil (by intro h; rw [h] at hx; cases hx)) .none
    (.group blanks_nil (.mk rfl rfl rfl (by
      intro o ho h
      have ho : o ∈ [LexerOutput.token ⟨Lexer.charToken 'b', ⟨18, 19⟩⟩] := ho
      rw [List.mem_singleton.1 ho] at h; cases h)))) ?_
  refine (C10_guard_errors _).1 rfl ?_
  have : (known plainParser ⟨plainParser.customCmds, {}, {}⟩ c!"alpha").isSome = true := by kernel_rfl
  intro h
  have h : known plainParser ⟨plainParser.customCmds, {}, {}⟩ c!"alpha" = none := h
  rw [h] at this
  cases this

example : Rejects plainConfig c!"\\newcommand\\alpha{b}" .inline .commandAlreadyDefined :=
  rejects_of 60 fun n => by kernel_rfl

end Verif

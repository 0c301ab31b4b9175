import Verif.Lemmas.RecMain
import Verif.Model.Convert
import Verif.Props.Definitions
import Verif.Props.Config
/-! From the parser to the interface: what a whole snippet does. -/
namespace Verif
open Model Spec Lexer' TokenQueue Logic

variable [L : Limits]

/-- The definitions at the start of a snippet -/
def startStores (cfg : ParserConfig) (g : GlobalState) : CmdStores := ⟨cfg.customCmds, g.customCmds, {}⟩

/-- What a snippet does to the global state -/
def Done (cfg : SnippetConfig) (g g' : GlobalState) : Prop :=
  ∃ ops stores' h', (∀ op ∈ ops, DefOp.own cfg.toParserConfig op) ∧
    DefState.run cfg.builtin ⟨startStores cfg.toParserConfig g, []⟩ ops = some ⟨stores', h'⟩ ∧
    stores'.document = g'.customCmds ∧ unfolds ops ≤ cfg.maxExpansions ∧ StoresPlain stores' ∧
    CountsOn ⟨g.equationCount, g.labelMap⟩ ⟨g'.equationCount, g'.labelMap⟩

/-- What can come out of a snippet -/
def SnippetOk (cfg : SnippetConfig) (g : GlobalState) (latex : Str) : Res GlobalState (List Node) → Prop
  | .ok ast g' => Done cfg g g' ∧
      Yield cfg.toParserConfig ⟨g.equationCount, g.labelMap⟩ ast ⟨g'.equationCount, g'.labelMap⟩
  | .err e g' => Done cfg g g' ∧ ErrGood latex e
  | .panic => False
  | .fuel => False

theorem RR.done {cfg : SnippetConfig} {g : GlobalState} {s s' : PState} {h h' : List Token}
    (hq : RQ cfg.toParserConfig (TokenQueue.initial cfg.toParserConfig latex g) [] s.q h)
    (hl : s.expansionsLeft = cfg.maxExpansions) (hr : RR cfg.toParserConfig s h s' h')
    (hp : StoresPlain (startStores cfg.toParserConfig g)) : Done cfg g s'.q.globalState := by
  obtain ⟨ops, hw, hrun⟩ := hq.defs
  obtain ⟨ops', hw', hrun', hu⟩ := hr.defs
  refine ⟨ops ++ ops', s'.q.stores, h', ?_, run_append' hrun hrun', rfl, ?_, hr.plain (hq.plain hp), ?_⟩
  · intro op hop
    rcases List.mem_append.1 hop with hop | hop
    · exact quiet_within (hw op hop)
    · exact hw' op hop
  · rw [unfolds_append, unfolds_quiet hw]; omega
  · have hc : ctr s = ⟨g.equationCount, g.labelMap⟩ := by
      unfold ctr
      rw [hq.count, hq.labels]; rfl
    have := hr.count
    rw [hc] at this
    exact this

/-- Every snippet has a result, if there is enough fuel, and it is always the same. -/
theorem parseSnippet_spec (cfg : SnippetConfig) (g : GlobalState) (latex : Str) (display : MathDisplay)
    (hp : StoresPlain (startStores cfg.toParserConfig g)) (hd : DefInv ⟨startStores cfg.toParserConfig g, []⟩)
    (hnames : NamesOk (Lexer.new latex)) :
    ∃ n0 r, (∀ n, n0 ≤ n → parseSnippet n cfg g latex display = r) ∧ SnippetOk cfg g latex r := by
  have hlex : LexAt latex (initial cfg.toParserConfig latex g).lexer := ⟨⟨[], rfl, rfl⟩, hnames⟩
  rcases new_spec cfg.toParserConfig latex g with ⟨q, hn, he, hi⟩ | ⟨e, q, hn, he, herr⟩
  · obtain ⟨h, hrq, hl, ht, hst⟩ := he.step (h := []) hlex hp (by intro t ht; cases ht)
    have hg : GP latex (initialState cfg.maxExpansions q display.style) h :=
      ⟨⟨hi, hl, ht, by show StoresPlain q.stores; rw [hst]; exact hp, hrq.inv hd⟩, (by intro t ht; cases ht),
        (by intro n l hn; cases hn)⟩
    cases ev_parse (cfg := cfg.toParserConfig) hg with
    | ok n0 ast s' h' hm hr hi' hq =>
      refine ⟨n0, .ok ast s'.q.globalState, fun n hnn => ?_, hr.done hrq rfl hp, ?_⟩
      · unfold parseSnippet; rw [hn]; simp only; rw [hm n hnn]
      · have := hq.2
        have hc : ctr (initialState cfg.maxExpansions q display.style) = ⟨g.equationCount, g.labelMap⟩ := by
          show (⟨q.equationCount, q.labelMap⟩ : Counters) = _
          rw [hrq.count, hrq.labels]; rfl
        rw [hc] at this
        exact this
    | err n0 e s' h' hm hr hgood =>
      refine ⟨n0, .err e s'.q.globalState, fun n hnn => ?_, hr.done hrq rfl hp, hgood⟩
      unfold parseSnippet; rw [hn]; simp only; rw [hm n hnn]
  · obtain ⟨h, hrq, hl, ht, hst⟩ := he.step (h := []) hlex hp (by intro t ht; cases ht)
    refine ⟨0, .err e q.globalState, fun n _ => ?_, ?_, hl.error herr⟩
    · unfold parseSnippet; rw [hn]
    · exact RR.done (s := { (initialState cfg.maxExpansions q display.style) with q := q }) hrq rfl (RR.refl ..) hp

/-! ### The macros of the configuration -/

/-- A recorded token which is not a reference -/
def RecOwn : RecordedToken → Prop
  | .token t => plain t = true ∨ argOk t = true
  | .commandName name => nameOk name = true

theorem macroBodyLoop_plain {builtin : Str → Option Token} {fuel : Nat} {l : Lexer} {acc m : MacroBody}
    (hacc : ∀ r ∈ acc.body, RecOwn r) (hn9 : acc.numArgs ≤ 9) (hl : NamesOk l)
    (h : macroBodyLoop builtin fuel l acc = .ok m) :
    (∀ r ∈ m.body, RecOwn r) ∧ m.numArgs ≤ 9 := by
  have snoc : ∀ (body : List RecordedToken) (r : RecordedToken), (∀ r ∈ body, RecOwn r) →
      RecOwn r → ∀ x ∈ body ++ [r], RecOwn x := by
    intro body r h1 h2 x hx
    rcases List.mem_append.1 hx with hx | hx
    · exact h1 x hx
    · rw [List.mem_singleton.1 hx]; exact h2
  induction fuel generalizing l acc with
  | zero => unfold macroBodyLoop at h; cases h; exact ⟨hacc, hn9⟩
  | succ fuel ih =>
    unfold macroBodyLoop at h
    cases hn : l.nextToken with
    | error e => rw [hn] at h; cases h
    | ok r =>
      obtain ⟨out, l'⟩ := r
      have ho := nextToken_outOk hn
      rw [hn] at h
      cases out with
      | commandName name span =>
        simp only at h
        split at h
        · exact ih (snoc _ (.commandName name) hacc (hl.first hn)) (by exact hn9) (hl.next hn) h
        · exact ih (snoc _ (.commandName name) hacc (hl.first hn)) (by exact hn9) (hl.next hn) h
      | token t =>
        simp only [OutOk, lexOk, Bool.and_eq_true] at ho
        simp only at h
        split at h
        · cases h; exact ⟨hacc, hn9⟩
        · rename_i n hk
          rw [hk] at ho
          have hlt : n < 9 := by simpa [plain, payloadOk] using ho.1
          refine ih (snoc _ (.token _) hacc (Or.inr ?_)) (by simp only; omega) (hl.next hn) h
          simpa [argOk] using hlt
        · exact ih (snoc _ (.token _) hacc (Or.inl ho.1)) (by exact hn9) (hl.next hn) h

theorem readMacros_plain {builtin : Str → Option Token} {idx : Nat} {macros : List (Str × Str)} {c c' : CustomCmds}
    {un un'} (hm : ∀ m ∈ macros, NamesOk (Lexer.new m.2)) (hc : ∀ r ∈ c.tokens, RecOwn r)
    (hc9 : ∀ n d, c.map.get n = some d → d.numArgs ≤ 9)
    (h : readMacros builtin idx macros c un = .ok (c', un')) :
    (∀ r ∈ c'.tokens, RecOwn r) ∧ ∀ n d, c'.map.get n = some d → d.numArgs ≤ 9 := by
  induction macros generalizing idx c un with
  | nil => unfold readMacros at h; cases h; exact ⟨hc, hc9⟩
  | cons m rest ih =>
    obtain ⟨name, definition⟩ := m
    unfold readMacros at h
    split at h
    · cases h
    · cases hb : macroBody builtin definition with
      | error e => rw [hb] at h; cases h
      | ok mb =>
        rw [hb] at h
        have hb9 := macroBodyLoop_plain (acc := {}) (by intro r hr; cases hr) (Nat.zero_le _)
          (hm (name, definition) (by simp)) hb
        refine ih (fun m h => hm m (List.mem_cons_of_mem _ h)) ?_ (by
          unfold CustomCmds.insert
          split
          · exact hc9
          · exact arity_insert hc9 hb9.2) h
        unfold CustomCmds.insert
        split
        · exact hc
        · intro r hr
          have hb := hb9.1
          rcases List.mem_append.1 (show r ∈ c.tokens ++ mb.body from hr) with hr | hr
          · exact hc r hr
          · exact hb r hr

/-- What is known about the macros of a converter -/
structure NewOk (cfg : ParserConfig) : Prop where
  config : ConfigOk cfg.customCmds
  plain : ∀ r ∈ cfg.customCmds.tokens, RecOk r
  arity : ∀ n d, cfg.customCmds.map.get n = some d → d.numArgs ≤ 9

theorem new_ok {config : MathCoreConfig} {c : Converter} (h : Converter.new config = .ok c)
    (hm : ∀ m ∈ config.macros, NamesOk (Lexer.new m.2)) :
    NewOk c.parserCfg.toParserConfig ∧ c.state = {} := by
  unfold Converter.new at h
  cases hp : parseCustomCommands config.macros config.unicodeSubstitution config.allowUnreliableRendering with
  | error e => rw [hp] at h; cases h
  | ok cmds =>
    rw [hp] at h
    cases h
    unfold parseCustomCommands at hp
    have hs := readMacros_spec (resolveBuiltinCmd config.allowUnreliableRendering config.unicodeSubstitution) 0
      config.macros {} [] (by intro n d hd; cases hd)
    cases hr : readMacros (resolveBuiltinCmd config.allowUnreliableRendering config.unicodeSubstitution) 0
      config.macros {} [] with
    | error e => rw [hr] at hp; cases hp
    | ok r =>
      obtain ⟨c', un⟩ := r
      rw [hr] at hp hs
      obtain ⟨hpl, h9⟩ := readMacros_plain hm (by intro r hr; cases hr) (by intro n d hd; cases hd) hr
      simp only at hp
      split at hp
      · cases hp
      · cases hp
        refine ⟨⟨⟨?_, hs.2.1⟩, ?_, h9⟩, rfl⟩
        · intro r hr
          cases r with
          | token t =>
            rcases hpl _ hr with h | h
            · exact notRef_of_plain h
            · cases t <;> first | (cases h; done) | trivial
          | commandName n => trivial
        · intro r hr
          cases r with
          | token t => exact (hpl _ hr).imp id .inr
          | commandName n => exact hpl _ hr

/-! ### Sessions -/

/-- What holds of the global state between calls -/
structure StateOk (cfg : ParserConfig) (g : GlobalState) : Prop where
  reach : DefReachable cfg.builtin cfg.customCmds ⟨startStores cfg g, []⟩
  plain : StoresPlain (startStores cfg g)

theorem StateOk.empty {cfg : ParserConfig} (hc : NewOk cfg) (count labels) : StateOk cfg ⟨count, labels, {}⟩ := by
  refine ⟨⟨[], rfl⟩, fun src r hr => ?_, fun src n d hd => ?_⟩
  · cases src with
    | config => exact hc.plain r hr
    | document => cases hr
    | loc => cases hr
  · cases src with
    | config => exact hc.arity n d hd
    | document => cases hd
    | loc => cases hd

theorem Done.state {cfg : SnippetConfig} {g g' : GlobalState} (hc : NewOk cfg.toParserConfig)
    (hg : StateOk cfg.toParserConfig g) (hd : Done cfg g g') : StateOk cfg.toParserConfig g' := by
  obtain ⟨ops, stores', h', hw, hrun, hdoc, -, hpl, -⟩ := hd
  have inv := reachable_inv (builtin_ok cfg.toParserConfig) hc.config hg.reach
  have hcfg := (run_within (builtin_ok cfg.toParserConfig) inv (fun op h => (hw op h).1) hrun).2.2
  have he : startStores cfg.toParserConfig g' = { stores' with loc := {} } := by
    simp only [startStores, CmdStores.mk.injEq, and_true]
    exact ⟨hcfg.symm, hdoc.symm⟩
  refine ⟨?_, ?_⟩
  · rw [he]
    exact reachable_run hg.reach (run_append.2 ⟨_, hrun, show DefState.run _ _ [.endSnippet] = _ from rfl⟩)
  · rw [he]
    refine ⟨fun src r hr => ?_, fun src n d hd => ?_⟩
    · cases src with
      | config => exact hpl.bodies .config r hr
      | document => exact hpl.bodies .document r hr
      | loc => cases hr
    · cases src with
      | config => exact hpl.arity .config n d hd
      | document => exact hpl.arity .document n d hd
      | loc => cases hd

theorem StateOk.inv {cfg : ParserConfig} {g : GlobalState} (hc : NewOk cfg) (hg : StateOk cfg g) :
    DefInv ⟨startStores cfg g, []⟩ := reachable_inv (builtin_ok cfg) hc.config hg.reach

/-- The result of a snippet between calls (see `parseSnippet_spec`) -/
theorem parseSnippet_next (cfg : SnippetConfig) (g : GlobalState) (latex : Str) (display : MathDisplay)
    (hc : NewOk cfg.toParserConfig) (hg : StateOk cfg.toParserConfig g) (hnames : NamesOk (Lexer.new latex)) :
    ∃ n0 r, (∀ n, n0 ≤ n → parseSnippet n cfg g latex display = r) ∧ SnippetOk cfg g latex r :=
  parseSnippet_spec cfg g latex display hg.plain (hg.inv hc) hnames

/-- The state after a snippet, successful or not -/
theorem SnippetOk.state {cfg : SnippetConfig} {g : GlobalState} {latex : Str} {r : Res GlobalState (List Node)}
    (hc : NewOk cfg.toParserConfig) (hg : StateOk cfg.toParserConfig g) (hr : SnippetOk cfg g latex r) :
    StateOk cfg.toParserConfig (r.stateOr g) := by
  cases r with
  | ok ast g' => exact hr.1.state hc hg
  | err e g' => exact hr.1.state hc hg
  | panic => exact hr.elim
  | fuel => exact hr.elim

end Verif

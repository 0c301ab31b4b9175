import Verif.Lemmas.Uses
import Verif.Props.Output
/-! Properties C11 and C43, for sources in which certain commands are not mentioned. -/
namespace Verif
open Model Spec

/-! ### C43 -/

/-- The commands which can lead to an internal error -/
def Spec.riskyCommands : List Str := [c!"set", c!"Set", c!"Braket", c!"newcommand", c!"providecommand"]

/-- Without these commands -/
@[instance_reducible] def Limits.noRisk : Limits := ⟨false, true, true⟩

theorem noRisk_sourceOk {src : Str} (h : Avoids riskyCommands src) : @SourceOk .noRisk src := by
  intro i name span hi
  have hn := avoids_not_lexed h (by decide) hi
  have h1 : [c!"set", c!"Set", c!"Braket"].contains name = false := by
    rw [Bool.eq_false_iff] at hn ⊢
    intro hc
    refine hn (List.contains_iff_mem.2 ?_)
    have := List.contains_iff_mem.1 hc
    simp only [riskyCommands, List.mem_cons, List.not_mem_nil, or_false] at this ⊢
    rcases this with h | h | h <;> simp [h]
  have h2 : [c!"newcommand", c!"providecommand"].contains name = false := by
    rw [Bool.eq_false_iff] at hn ⊢
    intro hc
    refine hn (List.contains_iff_mem.2 ?_)
    have := List.contains_iff_mem.1 hc
    simp only [riskyCommands, List.mem_cons, List.not_mem_nil, or_false] at this ⊢
    rcases this with h | h <;> simp [h]
  unfold nameOk
  rw [h1, h2]
  rfl

/-- C43, in part. If `\set`, `\Set`, `\Braket`, `\newcommand` and `\providecommand` are mentioned neither in the macros of
the configuration nor in anything which is converted, then no conversion reports an internal error: any
configuration, any calls, any sources. (With these commands, internal errors are possible: see
`C43_internal_error_set`, `C43_internal_error_braket`, `C43_internal_error_definition` and `C43_internal_error_definition_strict`.) -/
theorem C43_no_internal_error_partial (config : MathCoreConfig) (c : Converter) (hc : Converter.new config = .ok c)
    (calls : List Call) (h : ∀ src ∈ allSources config calls, Avoids riskyCommands src) :
    ∃ steps, ∀ n, steps ≤ n → ∀ r ∈ (session n c calls).1, ¬ ReportsInternal r := by
  have hmac : ∀ m ∈ config.macros, @SourceOk .noRisk m.2 := fun m hm =>
    noRisk_sourceOk (h m.2 (List.mem_append_left _ (List.mem_map_of_mem hm)))
  obtain ⟨n0, rs, c', h1, -, -, -, h2⟩ := @session_spec' .noRisk c (@ConvOk.new' .noRisk _ _ hc hmac) calls
    fun call hcall latex hl =>
      noRisk_sourceOk (h latex (List.mem_append_right _ (List.mem_flatMap.2 ⟨call, hcall, hl⟩)))
  refine ⟨n0, fun n hn r hr hi => ?_⟩
  rw [h1 n hn] at hr
  rcases h2 r hr hi with h | h <;> cases h

/-- There are such calls, also with definitions, and with errors of other kinds. -/
example : ∀ src ∈ allSources exampleConfig [.withGlobalState c!"\\def\\x#1{\\frac{#1}{2}}\\x y" .block,
    .all [(c!"\\renewcommand\\half{.5}\\half", .inline), (c!"\\setminus_}", .inline)]], Avoids riskyCommands src := by
  unfold Avoids
  decide +kernel

/-! ### C11 -/

/-- Without global definitions -/
@[instance_reducible] def Limits.noGlobals : Limits := ⟨true, false, false⟩

theorem nameOk_noGlobals {name : Str} (h : globalCommands.contains name = false) : @nameOk .noGlobals name = true := by
  have h1 : [c!"global", c!"gdef"].contains name = false := h
  unfold nameOk
  rw [h1]
  rfl

theorem noGlobals_sourceOk {src : Str} (h : Avoids globalCommands src) : @SourceOk .noGlobals src :=
  fun _ _ _ hi => nameOk_noGlobals (avoids_not_lexed h (by decide) hi)

mutual
theorem plain_noGlobals : ∀ t : Token, plain t = true → globalIn t = false → @plain .noGlobals t = true
  | .mathOrTextMode t c, h, hg => by
    simp only [plain, Bool.and_eq_true, globalIn] at h hg ⊢
    exact ⟨⟨plain_noGlobals t h.1.1 hg, h.1.2⟩, h.2⟩
  | .customCmd n body, h, hg => by
    simp only [plain, Bool.and_eq_true, globalIn] at h hg ⊢
    exact ⟨h.1, plainAll_noGlobals body h.2 hg⟩
  | .mathChoiceInternal _ d t s ss, h, hg => by
    simp only [plain, Bool.and_eq_true, globalIn, Bool.or_eq_false_iff] at h hg ⊢
    exact ⟨⟨⟨plain_noGlobals d h.1.1.1 hg.1.1.1, plain_noGlobals t h.1.1.2 hg.1.1.2⟩,
      plain_noGlobals s h.1.2 hg.1.2⟩, plain_noGlobals ss h.2 hg.2⟩
  | .customCmdRef .., h, _ => by simp [plain] at h
  | .globalPrefix, _, hg => by cases hg
  | .defCmd g, _, hg => by
    simp only [globalIn] at hg
    subst hg; rfl
  | .unresolvedCommand n, _, hg => nameOk_noGlobals hg
  | .customCmdArg i, h, _ => h
  | .customCmdArgInput i, h, _ => h
  | .eoi, h, _ | .beginEnv .., h, _ | .endEnv .., h, _ | .newColumn, h, _ | .newLine, h, _ | .hline .., h, _
  | .noNumber, h, _
  | .tag .., h, _ | .label, h, _ | .eqRef, h, _ | .left, h, _ | .right, h, _ | .middle, h, _ | .squareBracketOpen, h, _
  | .squareBracketClose, h, _ | .groupBegin, h, _ | .groupEnd, h, _ | .dollar, h, _ | .frac .., h, _
  | .infixGenFrac .., h, _
  | .genfrac, h, _ | .underscore, h, _ | .circumflex, h, _ | .prescript, h, _ | .sideset, h, _ | .binom .., h, _
  | .overset, h, _
  | .underset, h, _ | .overUnderBrace .., h, _ | .sqrt, h, _ | .limits .., h, _ | .space .., h, _ | .customSpace .., h, _
  | .kernOrSkip .., h, _ | .nonBreakingSpace, h, _ | .whitespace, h, _ | .transform .., h, _ | .transformSwitch .., h, _
  | .big .., h, _ | .accent .., h, _ | .ord .., h, _ | .op .., h, _ | .binaryOp .., h, _ | .relation .., h, _
  | .opening .., h, _
  | .closing .., h, _ | .punctuation .., h, _ | .inner .., h, _ | .prime .., h, _ | .dots, h, _ | .forceOrd .., h, _
  | .forceBinaryOp .., h, _ | .forceRelation .., h, _ | .forceOpen .., h, _ | .forceClose .., h, _
  | .forcePunctuation .., h, _
  | .forceMathInner .., h, _ | .forceLargeOp .., h, _ | .mathClass .., h, _ | .xarrow .., h, _ | .letter .., h, _
  | .uprightLetter .., h, _ | .digit .., h, _ | .pseudoOperator .., h, _ | .pseudoOperatorLimits .., h, _
  | .enclose .., h, _
  | .operatorName .., h, _ | .overlay .., h, _ | .text .., h, _ | .style .., h, _ | .cramped, h, _ | .color, h, _
  | .phantom .., h, _
  | .newCommand .., h, _ | .letCmd, h, _ | .textMode .., h, _ | .verticalLineDef .., h, _
  | .internalStringLiteral .., h, _ | .relax, h, _ | .raiseBox, h, _ | .mathChoice, h, _ => h
theorem plainAll_noGlobals : ∀ l : List Token, plainAll l = true → globalInAny l = false → @plainAll .noGlobals l = true
  | [], _, _ => rfl
  | t :: ts, h, hg => by
    simp only [plainAll, Bool.and_eq_true, Bool.or_eq_true, globalInAny, Bool.or_eq_false_iff] at h hg ⊢
    exact ⟨h.1.imp (fun h => plain_noGlobals t h hg.1) id, plainAll_noGlobals ts h.2 hg.2⟩
end

theorem recOk_noGlobals {c : CustomCmds} (h : ∀ r ∈ c.tokens, RecOk r) (hg : storesGlobal c = false) :
    ∀ r ∈ c.tokens, @RecOk .noGlobals r := by
  intro r hr
  have hr' := List.any_eq_false.1 hg r hr
  have := h r hr
  cases r with
  | token t =>
    simp only [Bool.not_eq_true] at hr'
    exact this.imp (fun h => plain_noGlobals t h hr') id
  | commandName n =>
    simp only [Bool.not_eq_true] at hr'
    exact nameOk_noGlobals hr'

theorem convOk_noGlobals {c : Converter} (h : ConvOk c) (h1 : storesGlobal c.parserCfg.customCmds = false)
    (h2 : storesGlobal c.state.customCmds = false) : @ConvOk .noGlobals c := by
  refine @ConvOk.mk .noGlobals _ (@NewOk.mk .noGlobals _ h.cfg.config (recOk_noGlobals h.cfg.plain h1) h.cfg.arity)
    (@StateOk.mk .noGlobals _ _ h.state.reach (@StoresPlain.mk .noGlobals _ ?_ h.state.plain.arity))
  intro src
  cases src with
  | config => exact recOk_noGlobals (h.state.plain.bodies .config) h1
  | document => exact recOk_noGlobals (h.state.plain.bodies .document) h2
  | loc => exact nofun

theorem run_document {builtin : Str → Option Token} {ops : List DefOp} {s s' : DefState}
    (hops : ∀ op ∈ ops, op.withinSnippet) (hl : ∀ op ∈ ops, ∀ name, ¬ op.definesGlobally name)
    (h : s.run builtin ops = some s') : s'.stores.document = s.stores.document := by
  induction ops generalizing s with
  | nil => cases h; rfl
  | cons op ops ih =>
    simp only [DefState.run, Option.bind_eq_some_iff] at h
    obtain ⟨s1, h1, h2⟩ := h
    rw [ih (fun o ho => hops o (List.mem_cons_of_mem _ ho)) (fun o ho => hl o (List.mem_cons_of_mem _ ho)) h2]
    have hop := hops op (by simp)
    have hlo := hl op (by simp)
    cases op with
    | lookup name =>
      simp only [DefState.apply, Option.map_eq_some_iff] at h1
      obtain ⟨t, -, rfl⟩ := h1; rfl
    | define name numArgs body cls replace isGlobal =>
      have : isGlobal = false := by
        cases isGlobal with
        | false => rfl
        | true => exact absurd ⟨rfl, rfl⟩ (hlo name)
      subst this
      simp only [DefState.apply, Option.bind_eq_some_iff, Option.map_eq_some_iff] at h1
      obtain ⟨b, -, st, hst, rfl⟩ := h1
      simp only [CmdStores.define] at hst
      rw [if_neg (by decide)] at hst
      generalize (if replace = true then _ else _ : Bool × CustomCmds) = x at hst
      split at hst
      · cases hst; rfl
      · cases hst
    | «unfold» i =>
      simp only [DefState.apply, Option.bind_eq_some_iff, Option.map_eq_some_iff] at h1
      obtain ⟨t, -, b, -, rfl⟩ := h1; rfl
    | endSnippet => exact hop.elim
    | reset => exact hop.elim

theorem done_noGlobals {cfg : SnippetConfig} {g g' : GlobalState} (hgg : cfg.globalGroup = false)
    (h : @Done .noGlobals cfg g g') : g'.customCmds = g.customCmds := by
  obtain ⟨ops, stores', h', hw, hrun, hdoc, -⟩ := h
  rw [← hdoc]
  refine run_document (fun op h => (hw op h).1) (fun op hop name hd => ?_) hrun
  have := (hw op hop).2
  cases op with
  | define n k b cl r isGlobal =>
    rcases this (by simpa [DefOp.definesGlobally] using hd.2) with h | h
    · rw [hgg] at h; cases h
    · cases h
  | _ => exact hd.elim

theorem new_globalGroup {config : MathCoreConfig} {c : Converter} (h : Converter.new config = .ok c) :
    c.parserCfg.globalGroup = config.globalGroup := by
  unfold Converter.new at h
  split at h
  · cases h
  · cases h; rfl

/-- C11, by a condition on the source. The option `global_group` is off; `\global` and `\gdef` are not mentioned in the
source, and they are not in the stored bodies of macros. Then the definitions which later conversions see are not
changed, whether the conversion succeeds or fails, and whatever was converted before. -/
theorem C11_only_global (config : MathCoreConfig) (c c1 c2 : Converter) (hc : Converter.new config = .ok c)
    (hgg : config.globalGroup = false) (calls : List Call) (hr : Reaches c calls c1)
    (h1 : storesGlobal c1.parserCfg.customCmds = false) (h2 : storesGlobal c1.state.customCmds = false)
    (src : Str) (hsrc : Avoids globalCommands src) (display : MathDisplay) (r : Reply)
    (h : Gives c1 (.withGlobalState src display) r c2) :
    c2.state.customCmds = c1.state.customCmds ∧ ∀ k name, meaningFor c2 k name = meaningFor c1 k name := by
  have hok := convOk_noGlobals (reaches_ok hr (.new hc)) h1 h2
  have hcfg : c1.parserCfg.globalGroup = false := by
    rw [(reaches_cfg hr).1, new_globalGroup hc, hgg]
  have hd := done_noGlobals hcfg (@conversion_done .noGlobals _ _ hok _ _ _ (noGlobals_sourceOk hsrc) h)
  refine ⟨hd, fun k name => ?_⟩
  have hp : c2.parserCfg = c1.parserCfg := by
    obtain ⟨n, h⟩ := h
    have := (perform_cfg n c1 (.withGlobalState src display)).1
    rw [h n (Nat.le_refl _)] at this
    exact this
  unfold meaningFor
  rw [hd, hp]

/-- C11, for whole sessions. If the option `global_group` is off, and `\global` and `\gdef` are mentioned neither in the
macros of the configuration nor in anything which is converted, then there are never any definitions which last longer
than the conversion in which they are made: every name means to the next conversion what it means to the first. -/
theorem C11_session (config : MathCoreConfig) (c c1 : Converter) (hc : Converter.new config = .ok c)
    (hgg : config.globalGroup = false) (calls : List Call)
    (h : ∀ src ∈ allSources config calls, Avoids globalCommands src) (hr : Reaches c calls c1) :
    ∀ k name, meaningFor c1 k name = meaningFor c k name := by
  have hok : @ConvOk .noGlobals c := @ConvOk.new' .noGlobals _ _ hc fun m hm =>
    noGlobals_sourceOk (h m.2 (List.mem_append_left _ (List.mem_map_of_mem hm)))
  have hs : ∀ call ∈ calls, ∀ latex ∈ call.sources, Avoids globalCommands latex := fun call hcall latex hl =>
    h latex (List.mem_append_right _ (List.mem_flatMap.2 ⟨call, hcall, hl⟩))
  have hg : c.parserCfg.globalGroup = false := by rw [new_globalGroup hc, hgg]
  have he : c.state.customCmds = {} := by rw [(new_ok hc fun _ _ => sourceOk_nothing _).2]
  have key : c1.state.customCmds = {} := by
    clear hc h
    induction calls generalizing c with
    | nil =>
      obtain ⟨n, hr⟩ := hr
      rw [← hr n (Nat.le_refl _)]
      exact he
    | cons call calls ih =>
      obtain ⟨n1, r, c', h1, -, h2, -⟩ := @perform_spec .noGlobals c hok call fun latex hl =>
        noGlobals_sourceOk (hs call (by simp) latex hl)
      have hcfg : c'.parserCfg = c.parserCfg := by
        have := (perform_cfg n1 c call).1
        rw [h1 n1 (Nat.le_refl _)] at this
        exact this
      refine ih c' ?_ h2 (fun call hcall => hs call (List.mem_cons_of_mem _ hcall)) (by rw [hcfg]; exact hg) ?_
      · obtain ⟨n, hr⟩ := hr
        refine ⟨max n n1, fun m hm => ?_⟩
        rw [← hr m (by omega)]
        simp only [after, session, h1 m (by omega)]
      · cases call with
        | withGlobalState latex display =>
          have hl := hs (.withGlobalState latex display) (by simp) latex (by simp [Call.sources])
          rw [done_noGlobals hg (@conversion_done .noGlobals _ _ hok latex display r (noGlobals_sourceOk hl) ⟨n1, h1⟩),
            he]
        | withLocalState latex display =>
          have := h1 n1 (Nat.le_refl _)
          simp only [perform, Prod.mk.injEq] at this
          rw [← this.2, he]
        | all snippets =>
          have := h1 n1 (Nat.le_refl _)
          simp only [perform, Prod.mk.injEq] at this
          rw [← this.2, he]
        | reset =>
          have := h1 n1 (Nat.le_refl _)
          simp only [perform, Prod.mk.injEq] at this
          rw [← this.2]; rfl
  intro k name
  unfold meaningFor
  rw [key, he, (reaches_cfg hr).1]

/-- There are such calls. -/
example : exampleConfig.globalGroup = false ∧
    ∀ src ∈ allSources exampleConfig [.withGlobalState c!"\\def\\x#1{\\frac{#1}{2}}\\x y" .block,
      .withGlobalState c!"\\newcommand\\x{\\half}\\y" .inline], Avoids globalCommands src := by
  unfold Avoids
  decide +kernel

/-- The stored bodies after one conversion -/
def bodiesAfter (src : Str) : Option (Bool × Bool × Nat) :=
  match Converter.new exampleConfig with
  | .ok c =>
    let c1 := after 100 c [.withGlobalState src .inline]
    some (storesGlobal c1.parserCfg.customCmds, storesGlobal c1.state.customCmds, c1.state.customCmds.tokens.length)
  | .error _ => none

/-- There are definitions which last, in whose bodies there is no command for global definitions. -/
example : bodiesAfter c!"\\gdef\\x{\\half}\\x" = some (false, false, 1) := by decide +kernel

end Verif

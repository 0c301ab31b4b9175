import Verif.Lemmas.Snippet
import Verif.Spec.Answers
/-! What calls of the interface do. -/
namespace Verif
open Model Spec

variable [L : Limits]

/-! ### One call -/

/-- The converter is in a state which can be reached. -/
structure ConvOk (c : Converter) : Prop where
  cfg : NewOk c.parserCfg.toParserConfig
  state : StateOk c.parserCfg.toParserConfig c.state

/-- None of the names in the source is excluded. -/
def SourceOk (latex : Str) : Prop := NamesOk (Lexer.new latex)

theorem ConvOk.new' {config : MathCoreConfig} {c : Converter} (h : Converter.new config = .ok c)
    (hm : ∀ m ∈ config.macros, SourceOk m.2) : ConvOk c := by
  obtain ⟨h1, h2⟩ := new_ok h hm
  exact ⟨h1, by rw [h2]; exact StateOk.empty h1 _ _⟩

/-- What a conversion comes to -/
theorem convert_spec {cfg : SnippetConfig} {g : GlobalState} (hc : NewOk cfg.toParserConfig)
    (hg : StateOk cfg.toParserConfig g) (flags : EmitFlags) (latex : Str) (display : MathDisplay)
    (hl : SourceOk latex) :
    ∃ n0 r, (∀ n, n0 ≤ n → convert n cfg flags g latex display = r) ∧
      Returned r.outcome ∧ PointsInto latex r.outcome ∧ StateOk cfg.toParserConfig (r.stateOr g) ∧
      (∀ e, r.outcome = .err e → e.kind = .internal → MayFail) := by
  obtain ⟨n0, r, hr, hok⟩ := parseSnippet_next cfg g latex display hc hg hl
  have hs := hok.state hc hg
  cases r with
  | ok ast g' =>
    refine ⟨n0, .ok (emitSnippet flags g'.labelMap latex display ast) g', fun n hn => ?_, trivial, trivial, hs,
      nofun⟩
    unfold convert; rw [hr n hn]
  | err e g' =>
    refine ⟨n0, .err e g', fun n hn => ?_, trivial, hok.2.inside, hs,
      fun e he => by cases he; exact hok.2.kind⟩
    unfold convert; rw [hr n hn]
  | panic => exact hok.elim
  | fuel => exact hok.elim

theorem parseAll_total {cfg : SnippetConfig} (hc : NewOk cfg.toParserConfig) (snippets : List (Str × MathDisplay))
    {g : GlobalState} (hg : StateOk cfg.toParserConfig g) (hl : ∀ s ∈ snippets, SourceOk s.1) :
    ∃ n0 outs g', (∀ n, n0 ≤ n → Converter.parseAll n cfg g snippets = (outs, g')) ∧
      outs.length = snippets.length ∧
      ∀ (i : Nat) latex display, snippets[i]? = some (latex, display) → ∀ r, outs[i]? = some r →
        (match r with | .ok _ => True | .err e => ErrGood latex e | .panic => False | .fuel => False) := by
  induction snippets generalizing g with
  | nil => exact ⟨0, [], g, fun _ _ => rfl, rfl, by simp⟩
  | cons s rest ih =>
    obtain ⟨latex, display⟩ := s
    obtain ⟨n1, r, hr, hok⟩ := parseSnippet_next cfg g latex display hc hg (hl (latex, display) (by simp))
    obtain ⟨n2, outs, g', ho, hlen, hall⟩ := ih (hok.state hc hg) fun s h => hl s (List.mem_cons_of_mem _ h)
    refine ⟨max n1 n2, r.outcome :: outs, g', fun n hn => ?_, by simp [hlen], ?_⟩
    · simp only [Converter.parseAll, hr n (Nat.le_trans (Nat.le_max_left ..) hn),
        ho n (Nat.le_trans (Nat.le_max_right ..) hn)]
    · intro i l d hi x hx
      cases i with
      | zero =>
        simp only [List.getElem?_cons_zero, Option.some.injEq, Prod.mk.injEq] at hi hx
        obtain ⟨rfl, rfl⟩ := hi
        subst hx
        cases r with
        | ok ast g' => trivial
        | err e g' => exact hok.2
        | panic => exact hok.elim
        | fuel => exact hok.elim
      | succ i => exact hall i l d hi x hx

omit L in
theorem internal_one {r : Outcome Out} (h : ReportsInternal (.one r)) : ∃ e, r = .err e ∧ e.kind = .internal := by
  unfold ReportsInternal replyTexts at h
  rw [List.mem_singleton] at h
  cases r with
  | err e =>
    simp only [replyTexts.one, ReplyText.error.injEq] at h
    exact ⟨e, rfl, h.symm⟩
  | _ => cases h

/-- Every call returns. -/
theorem perform_spec {c : Converter} (hc : ConvOk c) (call : Call) (hl : ∀ latex ∈ call.sources, SourceOk latex) :
    ∃ n0 r c', (∀ n, n0 ≤ n → perform n c call = (r, c')) ∧ Answers call r ∧ ConvOk c' ∧
      (ReportsInternal r → MayFail) := by
  cases call with
  | withGlobalState latex display =>
    obtain ⟨n0, r, hr, h1, h2, h3, h4⟩ := convert_spec hc.cfg hc.state c.emitterCfg latex display
      (hl latex (by simp [Call.sources]))
    refine ⟨n0, .one r.outcome, { c with state := r.stateOr c.state }, fun n hn => ?_, ⟨h1, h2⟩, ⟨hc.cfg, h3⟩, ?_⟩
    · simp only [perform, Converter.convertWithGlobalState, hr n hn]
    · intro h
      obtain ⟨e, he, hk⟩ := internal_one h
      exact h4 e he hk
  | withLocalState latex display =>
    obtain ⟨n0, r, hr, h1, h2, h3, h4⟩ := convert_spec hc.cfg (StateOk.empty hc.cfg 0 []) c.emitterCfg latex display
      (hl latex (by simp [Call.sources]))
    refine ⟨n0, .one r.outcome, c, fun n hn => ?_, ⟨h1, h2⟩, hc, ?_⟩
    · simp only [perform, Converter.convertWithLocalState]
      rw [show ({} : GlobalState) = ⟨0, [], {}⟩ from rfl, hr n hn]
    · intro h
      obtain ⟨e, he, hk⟩ := internal_one h
      exact h4 e he hk
  | all snippets =>
    obtain ⟨n0, outs, g', ho, hlen, hall⟩ := parseAll_total hc.cfg snippets (StateOk.empty hc.cfg 0 [])
      (fun s h => hl s.1 (List.mem_map_of_mem h))
    have key : ∀ (i : Nat) latex display r, snippets[i]? = some (latex, display) →
        (List.zipWith (fun (latex, display) ast =>
          Converter.emitResult c.emitterCfg g'.labelMap latex display ast) snippets outs)[i]? = some r →
        Returned r ∧ PointsInto latex r ∧ ∀ e, r = .err e → e.kind = .internal → MayFail := by
      intro i latex display r hi hr
      rw [List.getElem?_zipWith, hi] at hr
      cases hx : outs[i]? with
      | none => rw [hx] at hr; cases hr
      | some x =>
        rw [hx] at hr
        have := hall i latex display hi x hx
        cases hr
        cases x with
        | ok ast => exact ⟨trivial, trivial, nofun⟩
        | err e => exact ⟨trivial, this.inside, fun _ he => by cases he; exact this.kind⟩
        | panic => exact this.elim
        | fuel => exact this.elim
    refine ⟨n0, .many (List.zipWith (fun (latex, display) ast =>
      Converter.emitResult c.emitterCfg g'.labelMap latex display ast) snippets outs), c, fun n hn => ?_,
      ⟨by simp [hlen], fun i latex display r hi hr => ?_⟩, hc, ?_⟩
    · simp only [perform, Converter.convertAll]
      rw [show ({} : GlobalState) = ⟨0, [], {}⟩ from rfl, ho n hn]
    · exact ⟨(key i latex display r hi hr).1, (key i latex display r hi hr).2.1⟩
    · intro h
      unfold ReportsInternal replyTexts at h
      obtain ⟨r, hr, h⟩ := List.mem_map.1 h
      obtain ⟨i, hi⟩ := List.getElem?_of_mem hr
      cases hs : snippets[i]? with
      | none => rw [List.getElem?_zipWith, hs] at hi; cases hi
      | some s =>
        obtain ⟨latex, display⟩ := s
        have := (key i latex display r hs hi).2.2
        cases r with
        | err e =>
          simp only [replyTexts.one, ReplyText.error.injEq] at h
          exact this e rfl h
        | _ => cases h
  | reset =>
    exact ⟨0, .unit, c.resetGlobalState, fun _ _ => rfl, trivial, ⟨hc.cfg, StateOk.empty hc.cfg 0 []⟩, nofun⟩

theorem session_spec' {c : Converter} (hc : ConvOk c) (calls : List Call)
    (hl : ∀ call ∈ calls, ∀ latex ∈ call.sources, SourceOk latex) :
    ∃ n0 rs c', (∀ n, n0 ≤ n → session n c calls = (rs, c')) ∧ rs.length = calls.length ∧
      (∀ (i : Nat) call r, calls[i]? = some call → rs[i]? = some r → Answers call r) ∧ ConvOk c' ∧
      (∀ r ∈ rs, ReportsInternal r → MayFail) := by
  induction calls generalizing c with
  | nil => exact ⟨0, [], c, fun _ _ => rfl, rfl, by simp, hc, nofun⟩
  | cons call calls ih =>
    obtain ⟨n1, r, c1, h1, h2, h3, h8⟩ := perform_spec hc call (hl call (by simp))
    obtain ⟨n2, rs, c2, h4, h5, h6, h7, h9⟩ := ih h3 fun call h => hl call (List.mem_cons_of_mem _ h)
    refine ⟨max n1 n2, r :: rs, c2, fun n hn => ?_, by simp [h5], ?_, h7, List.forall_mem_cons.2 ⟨h8, h9⟩⟩
    · simp only [session, h1 n (by omega), h4 n (by omega)]
    · intro i call' r' hi hr
      cases i with
      | zero =>
        simp only [List.getElem?_cons_zero, Option.some.injEq] at hi hr
        subst hi hr; exact h2
      | succ i => exact h6 i call' r' hi hr


/-- What any conversion with the global state does to the definitions -/
theorem conversion_done {c c' : Converter} (hc : ConvOk c) {src : Str} {display : MathDisplay} {r : Reply}
    (hl : SourceOk src) (h : Gives c (.withGlobalState src display) r c') : Done c.parserCfg c.state c'.state := by
  obtain ⟨n0, r', hr, hok⟩ := parseSnippet_next c.parserCfg c.state src display hc.cfg hc.state hl
  obtain ⟨n1, h1⟩ := h
  replace h1 := h1 (max n0 n1) (by omega)
  have h2 := hr (max n0 n1) (by omega)
  simp only [perform, Converter.convertWithGlobalState, convert, h2] at h1
  cases r' with
  | ok ast g' =>
    simp only [Res.outcome, Res.stateOr, Prod.mk.injEq] at h1
    obtain ⟨-, h4⟩ := h1
    subst h4
    exact hok.1
  | err e g' =>
    simp only [Res.outcome, Res.stateOr, Prod.mk.injEq] at h1
    obtain ⟨-, h4⟩ := h1
    subst h4
    exact hok.1
  | panic => exact hok.elim
  | fuel => exact hok.elim

/-! Nothing excluded -/

omit L in
theorem sourceOk_nothing (latex : Str) : @SourceOk .nothing latex := fun _ _ _ _ => rfl

end Verif

import Verif.Lemmas.CallSpec
import Verif.Lemmas.NoLimits
import Verif.Props.Sessions
import Verif.Lemmas.Blind
/-! Properties C42, C07, C11, C15 and C20 for whole calls of the interface: what every conversion does, for
every source, every configuration and every history. -/
namespace Verif
open Model Spec

theorem ConvOk.new {config : MathCoreConfig} {c : Converter} (h : Converter.new config = .ok c) : ConvOk c :=
  .new' h fun _ _ => sourceOk_nothing _

theorem session_spec {c : Converter} (hc : ConvOk c) (calls : List Call) :
    ∃ n0 rs c', (∀ n, n0 ≤ n → session n c calls = (rs, c')) ∧ rs.length = calls.length ∧
      (∀ (i : Nat) call r, calls[i]? = some call → rs[i]? = some r → Answers call r) ∧ ConvOk c' := by
  obtain ⟨n0, rs, c', h1, h2, h3, h4, -⟩ := session_spec' hc calls fun _ _ _ _ => sourceOk_nothing _
  exact ⟨n0, rs, c', h1, h2, h3, h4⟩

/-- C42 and C07. Every sequence of calls of a new converter comes to an end: there are replies `rs`, one for
every call, which the calls give with any sufficient number of steps. No conversion panics, whatever the source
and the history; a conversion which fails reports a range of its own source, with both ends between characters. -/
theorem C42_every_call_returns (config : MathCoreConfig) (c : Converter) (h : Converter.new config = .ok c)
    (calls : List Call) :
    ∃ steps rs, (∀ n, steps ≤ n → (session n c calls).1 = rs) ∧ rs.length = calls.length ∧
      ∀ (i : Nat) call r, calls[i]? = some call → rs[i]? = some r → Answers call r := by
  obtain ⟨n0, rs, c', h1, h2, h3, -⟩ := session_spec (.new h) calls
  exact ⟨n0, rs, fun n hn => by rw [h1 n hn], h2, h3⟩

/-- There are such converters, and calls of all kinds, with a snippet which fails. -/
example : ∃ c, Converter.new exampleConfig = .ok c ∧
    (session 100 c [.withGlobalState c!"\\half x" .inline, .withLocalState c!"ä}" .block,
      .all exampleBatch, .reset]).1.length = 4 := by
  cases h : Converter.new exampleConfig with
  | ok c => exact ⟨c, rfl, rfl⟩
  | error e => exact absurd (show (Converter.new exampleConfig).isOk = true by decide +kernel) (by rw [h]; exact Bool.false_ne_true)

theorem gives_unique {c call r r' c1 c2} (h : Gives c call r c1) (h' : Gives c call r' c2) : r = r' ∧ c1 = c2 := by
  obtain ⟨n1, h1⟩ := h
  obtain ⟨n2, h2⟩ := h'
  have := (h1 (max n1 n2) (Nat.le_max_left ..)).symm.trans (h2 (max n1 n2) (Nat.le_max_right ..))
  simpa using this

theorem reaches_ok {c c' calls} (h : Reaches c calls c') (hc : ConvOk c) : ConvOk c' := by
  obtain ⟨n0, rs, c1, h1, -, -, h4⟩ := session_spec hc calls
  obtain ⟨n1, h2⟩ := h
  have h3 := h2 (max n0 n1) (Nat.le_max_right ..)
  have h5 := h1 (max n0 n1) (Nat.le_max_left ..)
  unfold after at h3
  rw [h5] at h3
  exact h3 ▸ h4

/-! ### C15 -/

namespace Spec

/-- The converter with another limit on the number of expansions -/
def withLimit (c : Converter) (limit : Nat) : Converter :=
  { c with parserCfg := { c.parserCfg with maxExpansions := limit } }

/-- The reply is that the limit on the number of expansions was exceeded. -/
def LimitExceeded : Reply → Prop
  | .one (.err e) => e.kind = .tooManyExpansions
  | _ => False

/-- A call which converts a single snippet -/
def Call.single : Call → Prop
  | .withGlobalState .. | .withLocalState .. => True
  | _ => False

end Spec

/-- The parser, with a given limit -/
theorem parseSnippet_more (n : Nat) (cfg : ParserConfig) (g : GlobalState) (latex : Str) (display : MathDisplay)
    (k d : Nat) :
    match parseSnippet n ⟨cfg, k⟩ g latex display with
    | .err e g' => e.kind = .tooManyExpansions ∨ parseSnippet n ⟨cfg, k + d⟩ g latex display = .err e g'
    | r => parseSnippet n ⟨cfg, k + d⟩ g latex display = r := by
  unfold parseSnippet
  cases TokenQueue.new cfg latex g with
  | ok _ q =>
    simp only
    have h := blind_parse n cfg (initialState k q display.style) d
    rw [show (initialState k q display.style).more d = initialState (k + d) q display.style from rfl] at h
    cases hr : parse n cfg (initialState k q display.style) with
    | ok a s => rw [hr] at h; rw [show parse n cfg _ = _ from h]; rfl
    | err e s =>
      rw [hr] at h
      rcases h with h | h
      · exact .inl h
      · rw [h]; exact .inr rfl
    | panic => rw [hr] at h; rw [show parse n cfg _ = _ from h]
    | fuel => rw [hr] at h; rw [show parse n cfg _ = _ from h]
  | err e q => exact .inr rfl
  | panic => rfl
  | fuel => rfl

theorem convert_more {n : Nat} {cfg : ParserConfig} {flags : EmitFlags} {g : GlobalState} {latex : Str}
    {display : MathDisplay} {k d : Nat} {r} (h : convert n ⟨cfg, k⟩ flags g latex display = r)
    (hr : ¬ LimitExceeded (.one r.outcome)) : convert n ⟨cfg, k + d⟩ flags g latex display = r := by
  have hm := parseSnippet_more n cfg g latex display k d
  unfold convert at h ⊢
  cases hp : parseSnippet n ⟨cfg, k⟩ g latex display with
  | ok ast g' => rw [hp] at hm h; simp only at hm; rw [hm]; exact h
  | err e g' =>
    rw [hp] at hm h
    rcases hm with hm | hm
    · subst h; exact absurd hm hr
    · rw [hm]; exact h
  | panic => rw [hp] at hm h; simp only at hm; rw [hm]; exact h
  | fuel => rw [hp] at hm h; simp only at hm; rw [hm]; exact h

theorem gives_more {c : Converter} {call : Call} (hcall : call.single) {k d : Nat} {r c'}
    (h : Gives (withLimit c k) call r (withLimit c' k)) (hr : ¬ LimitExceeded r) :
    Gives (withLimit c (k + d)) call r (withLimit c' (k + d)) := by
  obtain ⟨n0, h⟩ := h
  refine ⟨n0, fun n hn => ?_⟩
  have h := h n hn
  cases call with
  | withGlobalState latex display =>
    simp only [perform, Converter.convertWithGlobalState, Prod.mk.injEq] at h ⊢
    obtain ⟨h1, h2⟩ := h
    have := convert_more (d := d) rfl (by rw [h1]; exact hr)
    simp only [withLimit] at this h1 h2 ⊢
    rw [this]
    refine ⟨h1, ?_⟩
    simp only [Converter.mk.injEq, SnippetConfig.mk.injEq, and_true] at h2 ⊢
    exact h2
  | withLocalState latex display =>
    simp only [perform, Converter.convertWithLocalState, Prod.mk.injEq] at h ⊢
    obtain ⟨h1, h2⟩ := h
    have := convert_more (d := d) rfl (by rw [h1]; exact hr)
    simp only [withLimit] at this h1 h2 ⊢
    rw [this]
    refine ⟨h1, ?_⟩
    simp only [Converter.mk.injEq, SnippetConfig.mk.injEq, and_true] at h2 ⊢
    exact h2
  | all _ => exact hcall.elim
  | reset => exact hcall.elim

/-- C15. Whatever has happened before, a conversion needs a certain number of expansions, possibly infinitely
many: with any lower limit it fails because the limit is exceeded, and with any other limit it gives a result
and leaves a state which do not depend on the limit. In particular it always comes to an end. -/
theorem C15_limit (config : MathCoreConfig) (c : Converter) (h : Converter.new config = .ok c)
    (calls : List Call) (c' : Converter) (hc : Reaches c calls c') (call : Call) (hcall : call.single) :
    (∀ limit, ∃ r c'', Gives (withLimit c' limit) call r c'' ∧ LimitExceeded r) ∨
    ∃ needed r c'',
      (∀ limit, limit < needed → ∃ r c'', Gives (withLimit c' limit) call r c'' ∧ LimitExceeded r) ∧
      (∀ limit, needed ≤ limit → Gives (withLimit c' limit) call r (withLimit c'' limit)) ∧ ¬ LimitExceeded r := by
  have hok := reaches_ok hc (.new h)
  have hall : ∀ limit, ∃ r c'', Gives (withLimit c' limit) call r (withLimit c'' limit) := by
    intro limit
    have hl : ConvOk (withLimit c' limit) := ⟨hok.cfg, hok.state⟩
    obtain ⟨n0, r, c'', h1, -, -⟩ := perform_spec hl call fun _ _ => sourceOk_nothing _
    have hcfg := (perform_cfg n0 (withLimit c' limit) call).1
    rw [h1 n0 (Nat.le_refl _)] at hcfg
    refine ⟨r, c'', n0, fun n hn => ?_⟩
    rw [h1 n hn]
    have : withLimit c'' limit = c'' := by
      obtain ⟨e, s, p⟩ := c''
      simp only at hcfg
      subst hcfg
      rfl
    rw [this]
  by_cases hx : ∃ limit r c'', Gives (withLimit c' limit) call r (withLimit c'' limit) ∧ ¬ LimitExceeded r
  · obtain ⟨limit, hl⟩ := hx
    -- the least such limit
    have least : ∀ m, (∃ r c'', Gives (withLimit c' m) call r (withLimit c'' m) ∧ ¬ LimitExceeded r) →
        ∃ k, (∃ r c'', Gives (withLimit c' k) call r (withLimit c'' k) ∧ ¬ LimitExceeded r) ∧
          ∀ l, l < k → ¬ ∃ r c'', Gives (withLimit c' l) call r (withLimit c'' l) ∧ ¬ LimitExceeded r := by
      intro m
      induction m using Nat.strongRecOn with
      | ind m ih =>
        intro hm
        by_cases hl : ∃ l, l < m ∧ ∃ r c'', Gives (withLimit c' l) call r (withLimit c'' l) ∧ ¬ LimitExceeded r
        · obtain ⟨l, h1, h2⟩ := hl
          exact ih l h1 h2
        · exact ⟨m, hm, fun l h1 h2 => hl ⟨l, h1, h2⟩⟩
    obtain ⟨k, ⟨r, c'', h1, h2⟩, h3⟩ := least limit hl
    refine .inr ⟨k, r, c'', fun l hlt => ?_, fun l hle => ?_, h2⟩
    · obtain ⟨r', c1, h4⟩ := hall l
      refine ⟨r', _, h4, ?_⟩
      exact Classical.byContradiction fun hn => h3 l hlt ⟨r', c1, h4, hn⟩
    · obtain ⟨d, rfl⟩ : ∃ d, l = k + d := ⟨l - k, by omega⟩
      exact gives_more hcall h1 h2
  · refine .inl fun limit => ?_
    obtain ⟨r, c1, h4⟩ := hall limit
    exact ⟨r, _, h4, Classical.byContradiction fun hn => hx ⟨limit, r, c1, h4, hn⟩⟩

/-- Does the conversion exceed this limit? -/
def exceeds (source : Str) (limit : Nat) : Bool :=
  match Converter.new { exampleConfig with maxExpansions := limit } with
  | .ok c => match c.convertWithLocalState 200 source .inline with
    | .err e => e.kind = .tooManyExpansions
    | _ => false
  | .error _ => false

/-- This snippet needs three expansions. -/
example : (List.range 6).map (exceeds c!"\\newcommand\\a{x}\\newcommand\\b{\\a\\a}\\b") =
    [true, true, true, false, false, false] := by decide +kernel

/-- This one needs infinitely many. -/
example : exceeds c!"\\newcommand\\a{\\a}\\a" 20 = true := by decide +kernel

end Verif

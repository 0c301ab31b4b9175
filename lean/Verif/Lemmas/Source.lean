import Verif.Spec.Source
import Verif.Lemmas.Grammar
import Verif.Props.Lexing
import Verif.Props.Calls
/-! From the tokens of a source to what the interface returns. -/
namespace Verif
open Model Spec Lexer' TokenQueue

theorem sameTok_eq {a b : Token} (h : sameTok a b = true) : a = b := by
  fun_induction sameTok a b <;> simp_all

theorem reads_spec {ts : List Token} {xs : List Tk} (h : reads ts xs = true) : Reads ts xs := by
  fun_induction reads ts xs with
  | case1 => exact .nil
  | case2 t ts x xs ih1 ih2 =>
    simp only [Bool.or_eq_true, Bool.and_eq_true, Bool.not_eq_true'] at h
    rcases h with ⟨h1, h2⟩ | ⟨⟨h1, h2⟩, h3⟩
    · obtain ⟨x, b⟩ := x
      cases sameTok_eq h1
      exact .tok (ih1 h2)
    · cases sameTok_eq h1
      exact .ws h2 (ih2 h3)
  | case3 => cases h

theorem spells_spec {cfg : ParserConfig} {g : GlobalState} {src : Str} {ts : List Tk}
    (h : spells cfg g src ts = true) : Spells cfg g src ts := by
  unfold spells at h
  simp only [Bool.and_eq_true, Option.isNone_iff_eq_none] at h
  exact ⟨h.1, reads_spec h.2⟩

/-- The stream of tokens of a lexer -/
theorem nthLexed_read {n : Nat} {l : Lexer} (hn : l.rest.length < n) (he : (readTokens n l).2 = none) (i : Nat) :
    ∃ o, nthLexed i l = .ok o ∧ ∀ o', (readTokens n l).1[i]? = some o' → o = o' := by
  induction n generalizing l i with
  | zero => omega
  | succ n ih =>
    unfold readTokens at he ⊢
    cases h : l.nextToken with
    | error e => rw [h] at he; cases he
    | ok p =>
      obtain ⟨out, l'⟩ := p
      rw [h] at he
      dsimp only at he ⊢
      by_cases hx : isEoi out = true
      · rw [if_pos hx]
        have hst := C04_stays l l' out h hx
        have hall : ∀ i, nthLexed i l' = .ok out := by
          intro i
          induction i with
          | zero => simp [nthLexed, hst, Except.map]
          | succ i ih => simp only [nthLexed, hst, ih]
        cases i with
        | zero =>
          refine ⟨out, by simp [nthLexed, h, Except.map], ?_⟩
          intro o' ho
          simpa using ho
        | succ i =>
          refine ⟨out, by simp only [nthLexed, h, hall], ?_⟩
          intro o' ho
          simp at ho
      · rw [if_neg hx] at he ⊢
        dsimp only at he ⊢
        cases i with
        | zero =>
          refine ⟨out, by simp [nthLexed, h, Except.map], ?_⟩
          intro o' ho
          simpa using ho
        | succ i =>
          have hlt : l'.rest.length < n := by
            obtain ⟨gap, text, after, hk⟩ := nextToken_ok h
            have ht := List.length_pos_iff.2 (hk.progress (by simpa using hx))
            have := congrArg List.length hk.rest
            simp only [List.length_append] at this
            omega
          obtain ⟨o, h1, h2⟩ := ih hlt he i
          refine ⟨o, by simp only [nthLexed, h, h1], ?_⟩
          intro o' ho
          exact h2 o' (by simpa using ho)

theorem comes_of_reads {ts : List Token} {xs : List Tk} (h : Reads ts xs) : ∀ {u : Stream},
    (∀ i t, ts[i]? = some t → ∃ qt, u i = .ok qt ∧ qt.tok = t) → Comes u xs := by
  induction h with
  | nil => intro u _; trivial
  | @tok t ts b xs h ih =>
    intro u hu
    obtain ⟨qt, h1, h2⟩ := hu 0 t rfl
    refine ⟨0, qt, fun _ => rfl, (by intro j hj; omega), h1, h2, ih ?_⟩
    intro i t' ht
    obtain ⟨qt', h3, h4⟩ := hu (i + 1) t' ht
    exact ⟨qt', by show u (0 + 1 + i) = _; rw [show 0 + 1 + i = i + 1 by omega]; exact h3, h4⟩
  | @ws ts x xs hx h ih =>
    intro u hu
    obtain ⟨qt, h1, h2⟩ := hu 0 .whitespace rfl
    obtain ⟨k, q', g1, g2, g3, g4, g5⟩ := ih (u := u.drop 1) (by
      intro i t' ht
      obtain ⟨qt', h3, h4⟩ := hu (i + 1) t' ht
      exact ⟨qt', by show u (1 + i) = _; rw [show 1 + i = i + 1 by omega]; exact h3, h4⟩)
    refine ⟨k + 1, q', (by intro h'; rw [hx] at h'; cases h'), ?_, ?_, g4, ?_⟩
    · intro j hj
      cases j with
      | zero => exact ⟨qt, h1, by rw [h2]; rfl⟩
      | succ j =>
        obtain ⟨w, h3, h4⟩ := g2 j (by omega)
        exact ⟨w, by rw [← h3]; show u (j + 1) = u (1 + j); rw [show 1 + j = j + 1 by omega], h4⟩
    · rw [← g3]
      show u (k + 1) = u (1 + k)
      rw [show 1 + k = k + 1 by omega]
    · have : u.drop (k + 1 + 1) = (u.drop 1).drop (k + 1) := by
        funext i
        show u _ = u _
        congr 1
        omega
      rw [this]
      exact g5

/-- The parser's state at the beginning of a source -/
theorem _root_.Verif.Spec.Spells.start {cfg : ParserConfig} {g : GlobalState} {src : Str} {ts : List Tk} (h : Spells cfg g src ts)
    (m : Nat) (style : Style) : ∃ q, TokenQueue.new cfg src g = .ok () q ∧
      Is cfg (initialState m q style) (ts ++ [⟨.eoi, false⟩])
        ⟨⟨cfg.customCmds, g.customCmds, {}⟩, g.equationCount, g.labelMap, none, false, {}, style, none, m⟩ := by
  obtain ⟨h1, h2⟩ := h
  have hstream : ∀ i, ∃ o, upcoming cfg (initial cfg src g) i =
      .ok (resolveLexed cfg ⟨cfg.customCmds, g.customCmds, {}⟩ o) ∧ ∀ o', (tokensOf src).1[i]? = some o' → o = o' := by
    intro i
    obtain ⟨o, g1, g2⟩ := nthLexed_read (l := Lexer.new src) (Nat.lt_succ_self _) h1 i
    refine ⟨o, ?_, g2⟩
    show (nthLexed (i - 0) (Lexer.new src)).map _ = _
    rw [Nat.sub_zero, g1]
    rfl
  rcases ensure_spec cfg (initial cfg src g) rfl with ⟨q, hq, he, hi⟩ | ⟨e, q, hq, hr⟩
  · refine ⟨q, hq, hi, ?_, ?_, ?_⟩
    · intro i
      obtain ⟨o, g1, -⟩ := hstream i
      exact ⟨_, by show upcoming cfg q i = _; rw [he.upcoming]; exact g1⟩
    · show Comes (upcoming cfg q) _
      rw [he.upcoming]
      refine comes_of_reads h2 fun i t ht => ?_
      obtain ⟨o, g1, g2⟩ := hstream i
      rw [List.getElem?_map] at ht
      cases hx : (tokensOf src).1[i]? with
      | none => rw [hx] at ht; cases ht
      | some o' =>
        rw [hx] at ht
        cases g2 o' hx
        cases ht
        exact ⟨_, g1, rfl⟩
    · obtain ⟨ts, -, -, h3, h4, h5, -⟩ := he
      unfold Model.PState.ctx initialState
      rw [Ctx.mk.injEq]
      exact ⟨h3, h4, h5, rfl, rfl, rfl, rfl, rfl, rfl⟩
  · obtain ⟨i, hi⟩ := hr.stream
    obtain ⟨o, g1, -⟩ := hstream i
    rw [g1] at hi
    cases hi

/-- Parsing a source which stands for a formula -/
theorem formula_parses {cfg : SnippetConfig} {g : GlobalState} {src : Str} {f : Form} (display : MathDisplay)
    (hf : f.ok false = true) (hl : f.linked (knownMacros cfg.toParserConfig g))
    (hs : Spells cfg.toParserConfig g src f.tokens) :
    match f.value cfg.maxExpansions g display with
    | .ok (nodes, l) => ∃ n0, ∀ n, n0 ≤ n →
        parseSnippet n cfg g src display = .ok nodes ⟨l.count, l.labels, g.customCmds⟩
    | .error k => ∃ n0 e g', e.kind = k ∧ ∀ n, n0 ≤ n → parseSnippet n cfg g src display = .err e g' := by
  obtain ⟨q, hq, his⟩ := Spells.start hs cfg.maxExpansions display.style
  have hends : Ends (.endToken .eoi) false ⟨.eoi, false⟩ :=
    ⟨rfl, rfl, rfl, fun _ => rfl, (by intro _ h; cases h), rfl, rfl⟩
  let l0 : Loc := ⟨display.style, {}, g.equationCount, g.labelMap, cfg.maxExpansions, false⟩
  let k : Ctx :=
    ⟨⟨cfg.customCmds, g.customCmds, {}⟩, g.equationCount, g.labelMap, none, false, {}, display.style, none,
      cfg.maxExpansions⟩
  have hd := does_sequence (keep := true) rfl rfl (form_does cfg.toParserConfig k ⟨rfl, rfl⟩ f (prev := .opening)
    (nodes := []) (l := l0) (fol := []) hf hl hends).1
  have hv : f.value cfg.maxExpansions g display = f.denote l0 .opening (leadClass [⟨.eoi, false⟩]) := rfl
  rw [hv]
  cases hx : f.denote l0 .opening (leadClass [⟨.eoi, false⟩]) with
  | error e =>
    rw [hx] at hd
    obtain ⟨n0, er, s', h1, h2⟩ := hd _ his
    refine ⟨n0, er, s'.q.globalState, h2, fun n hn => ?_⟩
    unfold parseSnippet
    rw [hq]
    have h3 : parse n cfg.toParserConfig (initialState cfg.maxExpansions q display.style) = _ := h1 n hn
    dsimp only
    rw [h3]
  | ok p =>
    obtain ⟨nodes, l⟩ := p
    rw [hx] at hd
    obtain ⟨n0, s', h1, h2⟩ := hd _ his
    refine ⟨n0, fun n hn => ?_⟩
    unfold parseSnippet
    rw [hq]
    have h3 : parse n cfg.toParserConfig (initialState cfg.maxExpansions q display.style) = _ := h1 n hn
    dsimp only
    rw [h3]
    have hc := h2.ctx
    dsimp only
    congr 1
    unfold globalState
    have e1 : s'.q.equationCount = l.count := congrArg Ctx.count hc
    have e2 : s'.q.labelMap = l.labels := congrArg Ctx.labels hc
    have e3 : s'.q.stores.document = g.customCmds := congrArg (fun c => c.stores.document) hc
    rw [e1, e2, e3]

/-- What the interface returns for a source which stands for a formula -/
theorem formula_converts (c : Converter) {src : Str} {f : Form} (display : MathDisplay)
    (hf : f.ok false = true) (hl : f.linked (knownMacros c.parserCfg.toParserConfig c.state))
    (hs : Spells c.parserCfg.toParserConfig c.state src f.tokens) :
    match f.value c.parserCfg.maxExpansions c.state display with
    | .ok (nodes, l) => Gives c (.withGlobalState src display)
        (.one (.ok (emitSnippet c.emitterCfg l.labels src display nodes)))
        { c with state := ⟨l.count, l.labels, c.state.customCmds⟩ }
    | .error k => ∃ e c', e.kind = k ∧ Gives c (.withGlobalState src display) (.one (.err e)) c' := by
  have h := formula_parses (cfg := c.parserCfg) display hf hl hs
  cases hv : f.value c.parserCfg.maxExpansions c.state display with
  | error k =>
    rw [hv] at h
    obtain ⟨n0, e, g', h1, h2⟩ := h
    refine ⟨e, { c with state := g' }, h1, n0, fun n hn => ?_⟩
    simp only [perform, Converter.convertWithGlobalState, convert, h2 n hn]
    rfl
  | ok p =>
    obtain ⟨nodes, l⟩ := p
    rw [hv] at h
    obtain ⟨n0, h2⟩ := h
    refine ⟨n0, fun n hn => ?_⟩
    simp only [perform, Converter.convertWithGlobalState, convert, h2 n hn]
    rfl

/-- The same without global state -/
theorem formula_converts_local (c : Converter) {src : Str} {f : Form} (display : MathDisplay)
    (hf : f.ok false = true) (hl : f.linked (knownMacros c.parserCfg.toParserConfig {}))
    (hs : Spells c.parserCfg.toParserConfig {} src f.tokens) :
    match f.value c.parserCfg.maxExpansions {} display with
    | .ok (nodes, l) => Gives c (.withLocalState src display)
        (.one (.ok (emitSnippet c.emitterCfg l.labels src display nodes))) c
    | .error k => ∃ e, e.kind = k ∧ Gives c (.withLocalState src display) (.one (.err e)) c := by
  have h := formula_parses (cfg := c.parserCfg) display hf hl hs
  cases hv : f.value c.parserCfg.maxExpansions {} display with
  | error k =>
    rw [hv] at h
    obtain ⟨n0, e, g', h1, h2⟩ := h
    refine ⟨e, h1, n0, fun n hn => ?_⟩
    simp only [perform, Converter.convertWithLocalState, convert, h2 n hn]
    rfl
  | ok p =>
    obtain ⟨nodes, l⟩ := p
    rw [hv] at h
    obtain ⟨n0, h2⟩ := h
    refine ⟨n0, fun n hn => ?_⟩
    simp only [perform, Converter.convertWithLocalState, convert, h2 n hn]
    rfl

end Verif

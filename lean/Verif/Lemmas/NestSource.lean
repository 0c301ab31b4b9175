import Verif.Lemmas.NestArms
import Verif.Lemmas.Source
import Verif.Props.Calls
/-! From the parser to conversions: the tokens of a source. -/
namespace Verif
open Model Spec Lexer' TokenQueue

theorem argOk_fit {t : Token} (h : argOk t = true) : fit t = true := by
  cases t <;> first | (cases h; done) | exact h

mutual
theorem plain_fit : ∀ t : Token, plain t = true → fit t = true
  | .mathOrTextMode t c, h => by
    simp only [plain, Bool.and_eq_true] at h
    rw [fit, plain_fit t h.1.1, h.2.1.2, h.2.1.1.1, h.2.2]
    rfl
  | .customCmd n body, h => by
    rw [plain, Bool.and_eq_true] at h
    rw [fit, h.1, plainAll_fit body h.2]
    rfl
  | .mathChoiceInternal _ d t s ss, h => by
    rw [plain, Bool.and_eq_true, Bool.and_eq_true, Bool.and_eq_true] at h
    rw [fit, plain_fit d h.1.1.1, plain_fit t h.1.1.2, plain_fit s h.1.2, plain_fit ss h.2]
    rfl
  | .customCmdArg i, h => by simp [plain, payloadOk] at h
  | .customCmdArgInput i, h => by simpa [plain, payloadOk, fit] using h
  | .customCmdRef .., h => by simp [plain] at h
  | .eoi, _ | .beginEnv .., _ | .endEnv .., _ | .newColumn, _ | .newLine, _ | .hline .., _ | .noNumber, _
  | .tag .., _ | .label, _ | .eqRef, _ | .left, _ | .right, _ | .middle, _ | .squareBracketOpen, _
  | .squareBracketClose, _ | .groupBegin, _ | .groupEnd, _ | .dollar, _ | .frac .., _ | .infixGenFrac .., _
  | .genfrac, _ | .underscore, _ | .circumflex, _ | .prescript, _ | .sideset, _ | .binom .., _ | .overset, _
  | .underset, _ | .overUnderBrace .., _ | .sqrt, _ | .limits .., _ | .space .., _ | .customSpace .., _
  | .kernOrSkip .., _ | .nonBreakingSpace, _ | .whitespace, _ | .transform .., _ | .transformSwitch .., _
  | .big .., _ | .accent .., _ | .ord .., _ | .op .., _ | .binaryOp .., _ | .relation .., _ | .opening .., _
  | .closing .., _ | .punctuation .., _ | .inner .., _ | .prime .., _ | .dots, _ | .forceOrd .., _
  | .forceBinaryOp .., _ | .forceRelation .., _ | .forceOpen .., _ | .forceClose .., _ | .forcePunctuation .., _
  | .forceMathInner .., _ | .forceLargeOp .., _ | .mathClass .., _ | .xarrow .., _ | .letter .., _
  | .uprightLetter .., _ | .digit .., _ | .pseudoOperator .., _ | .pseudoOperatorLimits .., _ | .enclose .., _
  | .operatorName .., _ | .overlay .., _ | .text .., _ | .style .., _ | .cramped, _ | .color, _ | .phantom .., _
  | .newCommand .., _ | .letCmd, _ | .defCmd .., _ | .globalPrefix, _ | .textMode .., _ | .verticalLineDef .., _
  | .unresolvedCommand .., _ | .internalStringLiteral .., _ | .relax, _ | .raiseBox, _ | .mathChoice, _ => rfl
theorem plainAll_fit : ∀ l : List Token, plainAll l = true → fitAll l = true
  | [], _ => rfl
  | t :: ts, h => by
    rw [plainAll, Bool.and_eq_true, Bool.or_eq_true] at h
    rw [fitAll, plainAll_fit ts h.2, h.1.elim (plain_fit t) argOk_fit]
    rfl
end

theorem StoresPlain.fit {st : CmdStores} (h : StoresPlain st) : StoresFit st := by
  refine ⟨fun src r hr => ?_, h.arity⟩
  have := h.bodies src r hr
  cases r with
  | token t =>
    rcases this with h1 | ⟨_, _, _, _, _, h1, rfl⟩ | h1
    · exact plain_fit t h1
    · simpa [RecFit, Verif.fit] using h1
    · exact argOk_fit h1
  | commandName _ => trivial

theorem resolveLexed_fit {cfg : ParserConfig} {st : CmdStores} {l l' : Lexer} {o} (hs : StoresFit st)
    (h : l.nextToken = .ok (o, l')) : QFit (resolveLexed cfg st o) := by
  have ho := nextToken_fit h
  cases o with
  | token t => exact ⟨ho, fun _ => rfl⟩
  | commandName name span =>
    cases hn : st.resolveCommand cfg.builtin name with
    | none =>
      simp only [resolveLexed, hn, Option.getD_none]
      exact ⟨rfl, nofun⟩
    | some t =>
      simp only [resolveLexed, hn, Option.getD_some]
      refine ⟨resolve_fit hs hn, fun hw => ?_⟩
      have := (resolve_props hn).1
      simp only at hw
      rw [this] at hw
      cases hw

theorem nthLexed_fit {cfg : ParserConfig} {st : CmdStores} (hs : StoresFit st) {i : Nat} {l : Lexer} {o}
    (h : nthLexed i l = .ok o) : QFit (resolveLexed cfg st o) := by
  induction i generalizing l with
  | zero =>
    unfold nthLexed at h
    cases hn : l.nextToken with
    | error e => rw [hn] at h; cases h
    | ok p =>
      rw [hn] at h
      cases h
      exact resolveLexed_fit hs hn
  | succ i ih =>
    unfold nthLexed at h
    cases hn : l.nextToken with
    | error e => rw [hn] at h; cases h
    | ok p =>
      rw [hn] at h
      exact ih h

theorem good_source {cfg : ParserConfig} {st : CmdStores} {src : Str} (hs : StoresFit st) :
    AllFit st (sourceStream cfg st src) := by
  refine ⟨hs, fun i t ht => ?_⟩
  unfold sourceStream at ht
  cases hn : nthLexed i (Lexer.new src) with
  | error e => rw [hn] at ht; cases ht
  | ok o =>
    rw [hn] at ht
    cases ht
    exact nthLexed_fit hs hn

theorem snippet_word {fuel : Nat} {cfg : SnippetConfig} {g : GlobalState} {src : Str} {display : MathDisplay} {nodes g'}
    (hp : StoresPlain ⟨cfg.customCmds, g.customCmds, {}⟩) (h : parseSnippet fuel cfg g src display = .ok nodes g') :
    ∃ w st' u', Unfolds cfg.toParserConfig ⟨cfg.customCmds, g.customCmds, {}⟩
        (sourceStream cfg.toParserConfig ⟨cfg.customCmds, g.customCmds, {}⟩ src) w st' u' ∧ AtEnd u' ∧
      (TextArgs w → Nested w) := by
  have hu : upcoming cfg.toParserConfig (initial cfg.toParserConfig src g) =
      sourceStream cfg.toParserConfig ⟨cfg.customCmds, g.customCmds, {}⟩ src := rfl
  unfold parseSnippet at h
  rcases ensure_spec cfg.toParserConfig (initial cfg.toParserConfig src g) rfl with ⟨q, hq, he, hi⟩ | ⟨e, q, hq, hr⟩
  · have hn : TokenQueue.new cfg.toParserConfig src g = .ok () q := hq
    rw [hn] at h
    dsimp only at h
    cases hp' : parse fuel cfg.toParserConfig (initialState cfg.maxExpansions q display.style) with
    | ok a s' =>
      have hst : q.stores = ⟨cfg.customCmds, g.customCmds, {}⟩ := by
        obtain ⟨ts, -, -, h3, -⟩ := he
        exact h3
      have hgood := good_source (cfg := cfg.toParserConfig) (src := src) hp.fit
      obtain ⟨-, h2, w, h3, h4⟩ := parse_word (s := initialState cfg.maxExpansions q display.style) hi (by
        show AllFit q.stores (upcoming cfg.toParserConfig q)
        rw [he.upcoming, hst, hu]; exact hgood) hp'
      have h3' : Unfolds cfg.toParserConfig q.stores (upcoming cfg.toParserConfig q) w s'.q.stores
        (upcoming cfg.toParserConfig s'.q) := h3
      rw [he.upcoming, hst, hu] at h3'
      exact ⟨w, _, _, h3', h2, fun ht => h4 ht [] rfl⟩
    | err e s' => rw [hp'] at h; cases h
    | panic => rw [hp'] at h; cases h
    | fuel => rw [hp'] at h; cases h
  · have hn : TokenQueue.new cfg.toParserConfig src g = .err e q := hq
    rw [hn] at h
    cases h

theorem convertsOne_word {c c' : Converter} {call : Call} {src : Str} {st : CmdStores} {out : Out} (hc : ConvOk c)
    (ho : ConvertsOne c call src st) (h : Gives c call (.one (.ok out)) c') :
    ∃ w st' u', Unfolds c.parserCfg.toParserConfig st (sourceStream c.parserCfg.toParserConfig st src) w st' u' ∧
      AtEnd u' ∧ (TextArgs w → Nested w) := by
  obtain ⟨n, h⟩ := h
  replace h := h n (Nat.le_refl _)
  cases ho with
  | @withGlobalState _ display =>
    simp only [perform, Converter.convertWithGlobalState, convert, Prod.mk.injEq, Reply.one.injEq] at h
    cases hp : parseSnippet n c.parserCfg c.state src display with
    | ok ast g' => exact snippet_word hc.state.plain hp
    | err e g' => rw [hp] at h; cases h.1
    | panic => rw [hp] at h; cases h.1
    | fuel => rw [hp] at h; cases h.1
  | @withLocalState _ display =>
    simp only [perform, Converter.convertWithLocalState, convert, Prod.mk.injEq, Reply.one.injEq] at h
    cases hp : parseSnippet n c.parserCfg {} src display with
    | ok ast g' =>
      have := snippet_word (StateOk.empty hc.cfg 0 []).plain hp
      exact this
    | err e g' => rw [hp] at h; cases h.1
    | panic => rw [hp] at h; cases h.1
    | fuel => rw [hp] at h; cases h.1

/-! ### Sources without macros -/

/-- Nothing in the stream is a macro or a definition. -/
def NoMacros (u : Stream) : Prop :=
  ∀ i t, u i = .ok t → isMacro t.tok.unwrapMath = false ∧ isDefinition t.tok.unwrapMath = false

theorem Replaced.isMacro {cfg : ParserConfig} {st : CmdStores} {u : Stream} {span tok ts rest}
    (h : Replaced cfg st u span tok ts rest) : Spec.isMacro tok = true := by
  cases h <;> rfl

/-- The word is what is read. -/
theorem unfolds_plain {cfg : ParserConfig} {st : CmdStores} {u : Stream} {w st' u'} (h : Unfolds cfg st u w st' u')
    (hn : NoMacros u) : u' = u.drop w.length ∧
      ∀ i x, w[i]? = some x → x ≠ .eoi ∧ ∃ t keep, u i = .ok t ∧ x = (asRead keep t).tok := by
  induction h with
  | nil => exact ⟨(Stream.drop_zero _).symm, by simp⟩
  | @read st u t w st' u' keep h1 h2 h3 h4 _ ih =>
    obtain ⟨h5, h6⟩ := ih fun i t ht => hn _ t ht
    refine ⟨?_, fun i x hx => ?_⟩
    · rw [h5, Stream.drop_drop, List.length_cons, Nat.add_comm]
    · cases i with
      | zero =>
        cases hx
        exact ⟨h4, t, keep, h1, rfl⟩
      | succ i =>
        obtain ⟨g1, t', keep', g2, g3⟩ := h6 i x hx
        refine ⟨g1, t', keep', ?_, g3⟩
        rw [← g2]
        show u (i + 1) = u (1 + i)
        rw [Nat.add_comm]
  | expand h1 h2 _ _ =>
    have := (hn _ _ h1.1).1
    rw [Replaced.isMacro h2] at this
    cases this
  | define h1 h2 _ _ _ _ _ =>
    have := (hn _ _ h1.1).2
    rw [h2] at this
    cases this

theorem nthLexed_mem {n : Nat} {l : Lexer} (hn : l.rest.length < n) {i : Nat} {o} (h : nthLexed i l = .ok o) :
    o ∈ (readTokens n l).1 := by
  induction n generalizing l i with
  | zero => omega
  | succ n ih =>
    unfold readTokens
    cases hx : l.nextToken with
    | error e => cases i <;> (unfold nthLexed at h; rw [hx] at h; cases h)
    | ok p =>
      obtain ⟨out, l'⟩ := p
      dsimp only
      by_cases he : isEoi out = true
      · rw [if_pos he]
        have hst := C04_stays l l' out hx he
        have hall : ∀ i, nthLexed i l' = .ok out := by
          intro i
          induction i with
          | zero => simp [nthLexed, hst, Except.map]
          | succ i ih => simp only [nthLexed, hst, ih]
        cases i with
        | zero => simp only [nthLexed, hx, Except.map] at h; cases h; simp
        | succ i => simp only [nthLexed, hx, hall] at h; cases h; simp
      · rw [if_neg he]
        cases i with
        | zero => simp only [nthLexed, hx, Except.map] at h; cases h; simp
        | succ i =>
          simp only [nthLexed, hx] at h
          obtain ⟨gap, text, after, hk⟩ := nextToken_ok hx
          have ht := List.length_pos_iff.2 (hk.progress (by simpa using he))
          have := congrArg List.length hk.rest
          simp only [List.length_append] at this
          exact List.mem_cons_of_mem _ (ih (by omega) h)

/-- The first token which says that the source has ended is the last one. -/
theorem read_to_end {n : Nat} {l : Lexer} (hn : l.rest.length < n) {k : Nat} {o} (ho : nthLexed k l = .ok o)
    (he : isEoi o = true) (hk : ∀ i < k, ∃ o, nthLexed i l = .ok o ∧ isEoi o = false) :
    (readTokens n l).2 = none ∧ (readTokens n l).1.length = k + 1 := by
  induction n generalizing l k with
  | zero => omega
  | succ n ih =>
    unfold readTokens
    cases hx : l.nextToken with
    | error e => cases k <;> (unfold nthLexed at ho; rw [hx] at ho; cases ho)
    | ok p =>
      obtain ⟨out, l'⟩ := p
      dsimp only
      cases k with
      | zero =>
        simp only [nthLexed, hx, Except.map] at ho
        cases ho
        rw [if_pos he]
        exact ⟨rfl, rfl⟩
      | succ k =>
        simp only [nthLexed, hx] at ho
        obtain ⟨o0, h0, h0'⟩ := hk 0 (by omega)
        simp only [nthLexed, hx, Except.map] at h0
        cases h0
        rw [if_neg (by rw [h0']; exact Bool.false_ne_true)]
        obtain ⟨gap, text, after, hg⟩ := nextToken_ok hx
        have ht := List.length_pos_iff.2 (hg.progress (by simpa using h0'))
        have := congrArg List.length hg.rest
        simp only [List.length_append] at this
        obtain ⟨g1, g2⟩ := ih (by omega) ho (fun i hi => by
          obtain ⟨o1, h1, h2⟩ := hk (i + 1) (by omega)
          simp only [nthLexed, hx] at h1
          exact ⟨o1, h1, h2⟩)
        exact ⟨g1, by rw [List.length_cons, g2]⟩

/-- The same token, possibly in text mode -/
def Alike (x y : Token) : Prop :=
  x = y ∨ ∃ c, x = .mathOrTextMode y c ∧ calm y = true ∧ y.isWs = false

theorem Alike.step {x y : Token} (h : Alike x y) (st : List Opener) : nestStep st x = nestStep st y := by
  rcases h with rfl | ⟨c, rfl, h, -⟩
  · rfl
  · rw [calm_step h, calm_step (t := .mathOrTextMode y c) rfl]

theorem Alike.ws {x y : Token} (h : Alike x y) : x.isWs = y.isWs := by
  rcases h with rfl | ⟨c, rfl, -, h⟩
  · rfl
  · rw [h]; rfl

theorem alike_of {t : QueuedTok} {keep} (h : fit t.tok = true) : Alike (asRead keep t).tok t.tok.unwrapMath := by
  obtain ⟨tok, span, name⟩ := t
  unfold asRead
  cases keep with
  | false => left; rfl
  | true =>
    cases tok with
    | mathOrTextMode t c =>
      right
      simp only [fit, Bool.and_eq_true, Bool.not_eq_true'] at h
      exact ⟨c, rfl, h.1.2.1, h.1.2.2⟩
    | _ => left; rfl

/-- The same tokens, possibly in text mode -/
inductive AlikeAll : List Token → List Token → Prop
  | nil : AlikeAll [] []
  | cons {x y v w} : Alike x y → AlikeAll v w → AlikeAll (x :: v) (y :: w)

theorem alike_nest {v w : List Token} (h : AlikeAll v w) (st) : nest st v = nest st w := by
  induction h generalizing st with
  | nil => rfl
  | cons h1 _ ih =>
    rw [nest, nest, h1.step]
    cases nestStep st _ with
    | none => rfl
    | some st => exact ih st

theorem alike_filter {v w : List Token} (h : AlikeAll v w) :
    AlikeAll (v.filter fun t => !t.isWs) (w.filter fun t => !t.isWs) := by
  induction h with
  | nil => exact .nil
  | cons h1 _ ih =>
    rw [List.filter_cons, List.filter_cons, h1.ws]
    split
    · exact .cons h1 ih
    · exact ih

theorem AlikeAll.append_left {v1 v2 w : List Token} (h : AlikeAll (v1 ++ v2) w) :
    ∃ w1 w2, w = w1 ++ w2 ∧ AlikeAll v1 w1 ∧ AlikeAll v2 w2 := by
  induction v1 generalizing w with
  | nil => exact ⟨[], w, rfl, .nil, h⟩
  | cons x v1 ih =>
    cases h with
    | cons h1 h2 =>
      obtain ⟨w1, w2, rfl, h3, h4⟩ := ih h2
      exact ⟨_ :: w1, w2, rfl, .cons h1 h3, h4⟩

theorem Alike.same {x y : Token} (h : Alike x y) (hx : ∀ t c, x ≠ .mathOrTextMode t c) : x = y := by
  rcases h with h | ⟨c, h, -, -⟩
  · exact h
  · exact absurd h (hx _ _)

theorem Alike.ne {x y z : Token} (h : Alike x y) (hz : calm z = false) (hx : x ≠ z) : y ≠ z := by
  rcases h with rfl | ⟨c, rfl, h, -⟩
  · exact hx
  · rintro rfl; rw [h] at hz; cases hz

theorem AlikeAll.ne {v w : List Token} (h : AlikeAll v w) (hv : ∀ t ∈ v, t ≠ .groupBegin ∧ t ≠ .groupEnd) :
    ∀ t ∈ w, t ≠ .groupBegin ∧ t ≠ .groupEnd := by
  induction h with
  | nil => simp
  | cons h1 _ ih =>
    intro t ht
    rcases List.mem_cons.1 ht with rfl | ht
    · exact ⟨h1.ne rfl (hv _ (by simp)).1, h1.ne rfl (hv _ (by simp)).2⟩
    · exact ih (fun t ht => hv t (by simp [ht])) t ht

theorem AlikeAll.head {v w : List Token} (h : AlikeAll v w) (hv : TextHead v) : TextHead w := by
  cases hv with
  | @cmd t ht =>
    cases h with
    | cons h1 h2 =>
      cases h2
      rw [← h1.same (by rintro t c rfl; cases ht)]
      exact .cmd ht
  | @raise t ht =>
    cases h with
    | cons h1 h2 =>
      cases h2 with
      | cons h2 h3 =>
        cases h3
        rw [← h1.same (by rintro t c ⟨⟩)]
        exact .raise (h2.ne rfl ht)
  | @raiseGroup l hl =>
    cases h with
    | cons h1 h2 =>
      cases h2 with
      | cons h2 h3 =>
        rw [← h1.same (by rintro t c ⟨⟩), ← h2.same (by rintro t c ⟨⟩)]
        obtain ⟨w1, w2, rfl, h4, h5⟩ := h3.append_left
        cases h5 with
        | cons h5 h6 =>
          cases h6
          rw [← h5.same (by rintro t c ⟨⟩)]
          exact .raiseGroup (h4.ne hl)

theorem alike_textArgs {v w : List Token} (h : AlikeAll v w) (hw : TextArgs w) : TextArgs v := by
  intro pre hd t post he hh
  have hf := alike_filter h
  rw [he] at hf
  obtain ⟨w1, w2, h1, -, h2⟩ := hf.append_left
  obtain ⟨w3, w4, rfl, h3, h4⟩ := h2.append_left
  cases h4 with
  | @cons _ y _ w5 h4 h5 =>
    obtain ⟨g1, g2⟩ := hw w1 w3 y w5 h1 (h3.head hh)
    rcases h4 with rfl | ⟨c, rfl, -, -⟩
    · exact ⟨g1, g2⟩
    · exact ⟨rfl, nofun⟩

theorem alikeAll_of {v : List Token} {w : List Token} (hl : v.length = w.length)
    (h : ∀ (i : Nat) x y, v[i]? = some x → w[i]? = some y → Alike x y) : AlikeAll v w := by
  induction v generalizing w with
  | nil =>
    cases w with
    | nil => exact .nil
    | cons => cases hl
  | cons x v ih =>
    cases w with
    | nil => cases hl
    | cons y w => exact .cons (h 0 x y rfl rfl) (ih (by simpa using hl) fun i x y hx hy => h (i + 1) x y hx hy)

theorem resolve_eoi {cfg : ParserConfig} {st : CmdStores} {o : LexerOutput} :
    (resolveLexed cfg st o).tok = .eoi ↔ isEoi o = true := by
  cases o with
  | token t =>
    obtain ⟨tok, span⟩ := t
    show tok = .eoi ↔ _
    cases tok <;> simp [isEoi]
  | commandName name span =>
    cases hn : st.resolveCommand cfg.builtin name with
    | none => simp [resolveLexed, hn, isEoi]
    | some t =>
      have := (resolve_props hn).2.1
      simp only [resolveLexed, hn, Option.getD_some, isEoi]
      constructor
      · rintro rfl; cases this
      · intro h; cases h

/-- A source in which there are no macros is read as it is. -/
theorem source_word {cfg : ParserConfig} {st : CmdStores} {src : Str} {w st' u'} (hs : StoresFit st)
    (hn : ∀ o ∈ (tokensOf src).1, isMacro (resolveLexed cfg st o).tok.unwrapMath = false ∧
      isDefinition (resolveLexed cfg st o).tok.unwrapMath = false)
    (h : Unfolds cfg st (sourceStream cfg st src) w st' u') (he : AtEnd u') :
    (tokensOf src).2 = none ∧ ∃ a b, (tokensOf src).1 = a ++ b ∧ AlikeAll w (mathTokens cfg st a) ∧
      ∀ t ∈ mathTokens cfg st b, calm t = true := by
  have hno : NoMacros (sourceStream cfg st src) := by
    intro i t ht
    unfold sourceStream at ht
    cases hx : nthLexed i (Lexer.new src) with
    | error e => rw [hx] at ht; cases ht
    | ok o =>
      rw [hx] at ht
      cases ht
      exact hn o (nthLexed_mem (by simp [Lexer.new]) hx)
  obtain ⟨rfl, hw⟩ := unfolds_plain h hno
  obtain ⟨p, t, ⟨h1, -, h3⟩, h4⟩ := he
  have hlex : ∀ i t, sourceStream cfg st src i = .ok t → ∃ o, nthLexed i (Lexer.new src) = .ok o ∧
      t = resolveLexed cfg st o := by
    intro i t ht
    unfold sourceStream at ht
    cases hx : nthLexed i (Lexer.new src) with
    | error e => rw [hx] at ht; cases ht
    | ok o => rw [hx] at ht; cases ht; exact ⟨o, rfl, rfl⟩
  obtain ⟨o, ho, rfl⟩ := hlex (w.length + p) t h1
  have hbefore : ∀ i < w.length + p, ∃ o, nthLexed i (Lexer.new src) = .ok o ∧ isEoi o = false ∧
      (w.length ≤ i → (resolveLexed cfg st o).tok.isWs = true) := by
    intro i hi
    by_cases hiw : i < w.length
    · obtain ⟨g1, t, keep, g2, g3⟩ := hw i w[i] (List.getElem?_eq_getElem hiw)
      obtain ⟨o, g4, rfl⟩ := hlex i t g2
      refine ⟨o, g4, ?_, by omega⟩
      cases hx : isEoi o with
      | false => rfl
      | true =>
        have := (resolve_eoi (cfg := cfg) (st := st)).2 hx
        refine absurd ?_ g1
        rw [g3]
        unfold asRead QueuedTok.unwrapMath
        split <;> simp [this, Token.unwrapMath]
    · obtain ⟨t, g1, g2⟩ := h3 (i - w.length) (by omega)
      have g1' : sourceStream cfg st src i = .ok t := by
        rw [← g1]; show _ = sourceStream cfg st src (w.length + (i - w.length)); congr 1; omega
      obtain ⟨o, g4, rfl⟩ := hlex i t g1'
      have g5 : (resolveLexed cfg st o).tok.isWs = true := by unfold NonWs at g2; simpa using g2
      refine ⟨o, g4, ?_, fun _ => g5⟩
      cases hx : isEoi o with
      | false => rfl
      | true =>
        have := (resolve_eoi (cfg := cfg) (st := st)).2 hx
        rw [this] at g5; cases g5
  obtain ⟨hnone, hlen⟩ := read_to_end (n := src.length + 1) (l := Lexer.new src) (by simp [Lexer.new]) ho
    ((resolve_eoi (cfg := cfg) (st := st)).1 h4) fun i hi => by
      obtain ⟨o, g1, g2, -⟩ := hbefore i hi
      exact ⟨o, g1, g2⟩
  have hnth : ∀ i o', (tokensOf src).1[i]? = some o' → nthLexed i (Lexer.new src) = .ok o' := by
    intro i o' hi
    obtain ⟨o, g1, g2⟩ := nthLexed_read (n := src.length + 1) (l := Lexer.new src) (by simp [Lexer.new]) hnone i
    rw [g1, g2 o' hi]
  refine ⟨hnone, (tokensOf src).1.take w.length, (tokensOf src).1.drop w.length, (List.take_append_drop ..).symm, ?_, ?_⟩
  · refine alikeAll_of ?_ ?_
    · have : (tokensOf src).1.length = w.length + p + 1 := hlen
      simp [mathTokens, List.length_take]; omega
    · intro i x y hx hy
      obtain ⟨-, t, keep, g2, rfl⟩ := hw i x hx
      unfold mathTokens at hy
      rw [List.getElem?_map, List.getElem?_take] at hy
      split at hy
      · cases hz : (tokensOf src).1[i]? with
        | none => rw [hz] at hy; cases hy
        | some o' =>
          rw [hz] at hy
          cases hy
          obtain ⟨o, g4, rfl⟩ := hlex i t g2
          have := (hnth i o' hz).symm.trans g4
          cases this
          exact alike_of (nthLexed_fit hs g4).1
      · cases hy
  · intro t ht
    unfold mathTokens at ht
    obtain ⟨o', ho', rfl⟩ := List.mem_map.1 ht
    obtain ⟨j, hj⟩ := List.getElem?_of_mem ho'
    rw [List.getElem?_drop] at hj
    have hj' := hnth _ _ hj
    have hlt : w.length + j < w.length + p + 1 := by
      have : (tokensOf src).1.length = w.length + p + 1 := hlen
      rw [← this]
      exact (List.getElem?_eq_some_iff.1 hj).1
    by_cases hjp : j = p
    · subst hjp
      rw [ho] at hj'
      cases hj'
      rw [h4]; rfl
    · obtain ⟨o, g1, -, g3⟩ := hbefore (w.length + j) (by omega)
      rw [g1] at hj'
      cases hj'
      have := g3 (by omega)
      cases hk : (resolveLexed cfg st o').tok <;> rw [hk] at this <;> first | (cases this; done) | rfl

end Verif

import Verif.Lemmas.Preamble
import Verif.Lemmas.Source
/-! Sources which begin with definitions. -/
namespace Verif
open Model Spec Lexer' TokenQueue

variable {cfg : ParserConfig} {s : PState} {outs rest : List LexerOutput} {c : Ctx} {st : CmdStores}

/-! ### One definition -/

/-- What the parser does with the first token of a definition -/
structure DefStart (cfg : ParserConfig) (c : Ctx) (l rest : List LexerOutput) (r : Except LatexErrKind CmdStores)
    (w : List LexerOutput) (o : LexerOutput) (tl : List LexerOutput) (m : P Unit) : Prop where
  eq : l ++ rest = w ++ o :: tl
  blanks : Blanks w
  notWs : isWs o = false
  named : Named (tokOf cfg c.stores o).unwrapMath = true
  notEoi : (tokOf cfg c.stores o).isEoi = false
  runs : RunDef cfg m tl c rest r
  handles : ∀ e nodes inf, handleTokensWithoutOutput (resolveLexed cfg c.stores o).unwrapMath.ts e nodes inf =
    m >>= fun _ => pure (some (nodes, inf))

theorem defStart {l : List LexerOutput} {d : Defn} (h : Defines cfg c.stores l d) (hraw : ∀ o ∈ l, RawOut o) :
    ∃ w o tl m, DefStart cfg c l rest (d.effect cfg c.stores) w o tl m := by
  cases h with
  | @command w x mode name p n a body b hw hx hp ha hb =>
    refine ⟨w, x, p ++ (a ++ (b ++ rest)), defineCommand mode, by simp, hw, isWs_of_tok hx rfl, named_of hx rfl,
      by rw [hx]; rfl, run_defineCommand hp ha hb fun o ho => hraw o (by simp [ho]), ?_⟩
    intro e nodes inf
    unfold handleTokensWithoutOutput
    rw [tok_next hx]
    rfl
  | @definition gl w x g w' name sp w'' n ps body b hgl hw hx hw' hw'' hps hb =>
    have hb' : ∀ o ∈ b, RawOut o := fun o ho => hraw o (by simp [ho])
    cases hgl with
    | nil =>
      refine ⟨w, x, w' ++ .commandName name sp :: (w'' ++ (ps ++ (b ++ rest))), defCommand g, by simp, hw,
        isWs_of_tok hx rfl, named_of hx rfl, by rw [hx]; rfl, ?_, ?_⟩
      · have := run_defCommand (rest := rest) (g := g) (name := name) (sp := sp) hw' hw'' hps hb hb'
        simpa using this
      · intro e nodes inf
        unfold handleTokensWithoutOutput
        rw [tok_next hx]
        rfl
    | @cons w0 x0 gl hw0 hx0 hgl =>
      refine ⟨w0, x0, gl ++ (w ++ x :: (w' ++ .commandName name sp :: (w'' ++ (ps ++ (b ++ rest))))),
        P.loopFuel >>= globalPrefix, by simp, hw0, isWs_of_tok hx0 rfl, named_of hx0 rfl, by rw [hx0]; rfl, ?_, ?_⟩
      · have hr := run_defCommand (rest := rest) (g := true) (name := name) (sp := sp) hw' hw'' hps hb hb'
        have he : (!(w0 ++ x0 :: gl).isEmpty) = true := by cases w0 <;> rfl
        rw [he, Bool.or_true, Bool.true_or]
        exact run_global hgl hw (Or.inr ⟨⟨g, hx⟩, hr⟩)
      · intro e nodes inf
        unfold handleTokensWithoutOutput
        rw [tok_next hx0]
        rfl
  | @letTok gl w x w' name sp e w'' o hgl hw hx hw' he hw'' ho heoi hn hne hloc =>
    have ho' : RawOut o := hraw o (by simp)
    cases hgl with
    | nil =>
      refine ⟨w, x, w' ++ .commandName name sp :: (e ++ (w'' ++ (o :: rest))), letCommand false, by simp, hw,
        isWs_of_tok hx rfl, named_of hx rfl, by rw [hx]; rfl, ?_, ?_⟩
      · exact run_letCommand (rest := rest) (g := false) (name := name) (sp := sp) hw' he hw'' ho heoi hn hne ho' hloc
      · intro e nodes inf
        unfold handleTokensWithoutOutput
        rw [tok_next hx]
        rfl
    | @cons w0 x0 gl hw0 hx0 hgl =>
      refine ⟨w0, x0, gl ++ (w ++ x :: (w' ++ .commandName name sp :: (e ++ (w'' ++ (o :: rest))))),
        P.loopFuel >>= globalPrefix, by simp, hw0, isWs_of_tok hx0 rfl, named_of hx0 rfl, by rw [hx0]; rfl, ?_, ?_⟩
      · have hem : (!(w0 ++ x0 :: gl).isEmpty) = true := by cases w0 <;> rfl
        rw [hem] at hloc ⊢
        have hr := run_letCommand (rest := rest) (g := true) (name := name) (sp := sp) hw' he hw'' ho heoi hn hne ho' hloc
        exact run_global hgl hw (Or.inl ⟨hx, hr⟩)
      · intro e nodes inf
        unfold handleTokensWithoutOutput
        rw [tok_next hx0]
        rfl

theorem notMatch {t : Token} (h : t.isEoi = false) : SequenceEnd.isMatch (.endToken .eoi) t = false := by
  cases t <;> first | rfl | cases h

/-- One round of the parser's main loop -/
theorem DefStart.round {l tl w : List LexerOutput} {o : LexerOutput} {r : Except LatexErrKind CmdStores} {m : P Unit}
    (h : DefStart cfg c l rest r w o tl m) (hc : c.transform = none) (hs : Ahead cfg s (l ++ rest) c) :
    ∃ s1, Ahead cfg s1 tl c ∧ ∀ n prev nodes inf, (parser (n + 1)).seqLoop (.endToken .eoi) prev nodes inf cfg s =
      (m >>= fun _ => (parser n).seqLoop (.endToken .eoi) prev nodes inf) cfg s1 := by
  rw [h.eq] at hs
  obtain ⟨q1, h1, h2⟩ := hs.next h.blanks h.notWs h.named
  refine ⟨_, h2, fun n prev nodes inf => ?_⟩
  show (parser n).seqLoopStep (.endToken .eoi) prev nodes inf cfg s = _
  unfold Rec.seqLoopStep
  have hp : P.peek cfg s = .ok (resolveLexed cfg c.stores o).ts s := by
    show Res.ok s.q.peek s = _
    rw [hs.peek h.blanks h.notWs]
  have ht : s.transform = none := by rw [← hc, ← hs.ctx]; rfl
  have hm : mergeAndTransformLetters cfg s = .ok none s := by
    unfold mergeAndTransformLetters
    simp only [bind, St.bind, St.get, ht]
    rfl
  show St.bind _ _ _ _ = _
  unfold St.bind
  rw [hp]
  dsimp only
  rw [if_neg (by rw [notMatch (show (resolveLexed cfg c.stores o).ts.tok.isEoi = false from h.notEoi)]; simp)]
  show St.bind _ _ _ _ = _
  unfold St.bind
  rw [hm]
  dsimp only
  show St.bind _ _ _ _ = _
  unfold St.bind
  rw [h1]
  dsimp only
  show St.bind _ _ _ _ = St.bind _ _ _ _
  unfold St.bind
  rw [h.handles]
  cases hx : m cfg { s with q := q1 } <;> simp only [bind, St.bind, hx] <;> rfl

/-- A definition which is accepted -/
theorem defines_ok {l : List LexerOutput} {d : Defn} {st' : CmdStores} (h : Defines cfg c.stores l d)
    (he : d.effect cfg c.stores = .ok st') (hc : c.transform = none) (hs : Ahead cfg s (l ++ rest) c) :
    ∃ s', Ahead cfg s' rest { c with stores := st' } ∧ ∀ n prev nodes inf,
      (parser (n + 1)).seqLoop (.endToken .eoi) prev nodes inf cfg s =
        (parser n).seqLoop (.endToken .eoi) prev nodes inf cfg s' := by
  obtain ⟨w, o, tl, m, hh⟩ := defStart (rest := rest) h (fun o ho => hs.raw (List.mem_append_left _ ho))
  obtain ⟨s1, h1, h2⟩ := hh.round hc hs
  have hr := hh.runs
  rw [he] at hr
  obtain ⟨s2, h3, h4⟩ := hr s1 h1
  refine ⟨s2, h4, fun n prev nodes inf => ?_⟩
  rw [h2]
  show St.bind _ _ _ _ = _
  unfold St.bind
  rw [h3]

/-- A definition which is rejected -/
theorem defines_err {l : List LexerOutput} {d : Defn} {k : LatexErrKind} (h : Defines cfg c.stores l d)
    (he : d.effect cfg c.stores = .error k) (hc : c.transform = none) (hs : Ahead cfg s (l ++ rest) c) :
    ∃ e s', e.kind = k ∧ ∀ n prev nodes inf,
      (parser (n + 1)).seqLoop (.endToken .eoi) prev nodes inf cfg s = .err e s' := by
  obtain ⟨w, o, tl, m, hh⟩ := defStart (rest := rest) h (fun o ho => hs.raw (List.mem_append_left _ ho))
  obtain ⟨s1, h1, h2⟩ := hh.round hc hs
  have hr := hh.runs
  rw [he] at hr
  obtain ⟨e, s2, h3, h4⟩ := hr s1 h1
  refine ⟨e, s2, h4, fun n prev nodes inf => ?_⟩
  rw [h2]
  show St.bind _ _ _ _ = _
  unfold St.bind
  rw [h3]

/-! ### All definitions -/

theorem preamble_ok {l : List LexerOutput} {st st' : CmdStores} (h : Preamble cfg st l (.ok st')) :
    ∀ {s : PState} {c : Ctx}, c.stores = st → c.transform = none → Ahead cfg s (l ++ rest) c →
    ∃ s' k, Ahead cfg s' rest { c with stores := st' } ∧ ∀ n prev nodes inf,
      (parser (n + k)).seqLoop (.endToken .eoi) prev nodes inf cfg s =
        (parser n).seqLoop (.endToken .eoi) prev nodes inf cfg s' := by
  generalize hr : (Except.ok st' : Except LatexErrKind CmdStores) = r at h
  induction h with
  | nil =>
    intro s c hst hc hs
    cases hr
    subst hst
    exact ⟨s, 0, hs, fun n prev nodes inf => rfl⟩
  | cons hd he _ ih =>
    intro s c hst hc hs
    subst hst
    rw [List.append_assoc] at hs
    obtain ⟨s1, h1, h2⟩ := defines_ok hd he hc hs
    obtain ⟨s2, k, h3, h4⟩ := ih hr (c := { c with stores := _ }) rfl hc h1
    refine ⟨s2, k + 1, h3, fun n prev nodes inf => ?_⟩
    rw [← h4]
    exact h2 (n + k) prev nodes inf
  | fail => cases hr

theorem preamble_err {l : List LexerOutput} {st : CmdStores} {k : LatexErrKind} (h : Preamble cfg st l (.error k)) :
    ∀ {s : PState} {c : Ctx}, c.stores = st → c.transform = none → Ahead cfg s (l ++ rest) c →
    ∃ e s' k', e.kind = k ∧ ∀ n prev nodes inf,
      (parser (n + k')).seqLoop (.endToken .eoi) prev nodes inf cfg s = .err e s' := by
  generalize hr : (Except.error k : Except LatexErrKind CmdStores) = r at h
  induction h with
  | nil => cases hr
  | cons hd he _ ih =>
    intro s c hst hc hs
    subst hst
    rw [List.append_assoc] at hs
    obtain ⟨s1, h1, h2⟩ := defines_ok hd he hc hs
    obtain ⟨e, s2, k', h3, h4⟩ := ih hr (c := { c with stores := _ }) rfl hc h1
    refine ⟨e, s2, k' + 1, h3, fun n prev nodes inf => ?_⟩
    rw [← h4 n prev nodes inf]
    exact h2 (n + k') prev nodes inf
  | fail hd he =>
    intro s c hst hc hs
    subst hst
    cases hr
    rw [List.append_assoc] at hs
    obtain ⟨e, s1, h1, h2⟩ := defines_err hd he hc hs
    exact ⟨e, s1, 1, h1, h2⟩

/-! ### The beginning of the source -/

theorem nthLexed_raw {i : Nat} {l : Lexer} {o : LexerOutput} (h : nthLexed i l = .ok o) : RawOut o := by
  induction i generalizing l with
  | zero =>
    unfold nthLexed at h
    cases hx : l.nextToken with
    | error e => rw [hx] at h; cases h
    | ok p => rw [hx] at h; cases h; exact nextTokenFuel_raw (l' := p.2) hx
  | succ i ih =>
    unfold nthLexed at h
    cases hx : l.nextToken with
    | error e => rw [hx] at h; cases h
    | ok p => rw [hx] at h; exact ih h

theorem ahead_start {cfg : ParserConfig} {src : Str} (g : GlobalState) (h1 : (tokensOf src).2 = none)
    (m : Nat) (style : Style) : ∃ q, TokenQueue.new cfg src g = .ok () q ∧
      Ahead cfg (initialState m q style) (tokensOf src).1
        ⟨⟨cfg.customCmds, g.customCmds, {}⟩, g.equationCount, g.labelMap, none, false, {}, style, none, m⟩ := by
  have hstream : ∀ i, ∃ o, RawOut o ∧ upcoming cfg (initial cfg src g) i =
      .ok (resolveLexed cfg ⟨cfg.customCmds, g.customCmds, {}⟩ o) ∧ ∀ o', (tokensOf src).1[i]? = some o' → o = o' := by
    intro i
    obtain ⟨o, g1, g2⟩ := nthLexed_read (l := Lexer.new src) (Nat.lt_succ_self _) h1 i
    refine ⟨o, nthLexed_raw g1, ?_, g2⟩
    show (nthLexed (i - 0) (Lexer.new src)).map _ = _
    rw [Nat.sub_zero, g1]
    rfl
  rcases ensure_spec cfg (initial cfg src g) rfl with ⟨q, hq, he, hi⟩ | ⟨e, q, hq, hr⟩
  · refine ⟨q, hq, hi, ?_, ?_⟩
    · intro i
      have := hstream i
      have hst : q.stores = ⟨cfg.customCmds, g.customCmds, {}⟩ := by
        obtain ⟨ts, -, -, h3, -⟩ := he
        exact h3
      show ∃ o, RawOut o ∧ upcoming cfg q i = .ok (resolveLexed cfg q.stores o) ∧ _
      rw [he.upcoming, hst]
      exact this
    · obtain ⟨ts, -, -, h3, h4, h5, -⟩ := he
      unfold Model.PState.ctx initialState
      rw [Ctx.mk.injEq]
      exact ⟨h3, h4, h5, rfl, rfl, rfl, rfl, rfl, rfl⟩
  · obtain ⟨i, hi⟩ := hr.stream
    obtain ⟨o, -, g1, -⟩ := hstream i
    rw [g1] at hi
    cases hi

theorem Ahead.is {xs : List Tk} (h : Ahead cfg s outs c) (hr : Reads (outs.map (tokOf cfg c.stores)) xs) :
    Is cfg s xs c := by
  refine ⟨h.inv, h.clean, comes_of_reads hr fun i t ht => ?_, h.ctx⟩
  rw [List.getElem?_map] at ht
  cases hx : outs[i]? with
  | none => rw [hx] at ht; cases ht
  | some o =>
    rw [hx] at ht
    cases ht
    refine ⟨_, h.fresh i o hx, ?_⟩
    rw [h.stores]
    rfl

/-! ### The whole source -/

/-- Parsing a source which stands for a formula after definitions -/
theorem preamble_parses {cfg : SnippetConfig} {g : GlobalState} {src : Str} {st' : CmdStores} {f : Form}
    (display : MathDisplay) (hp : BeginsWith cfg.toParserConfig g src (.ok st') rest)
    (hf : f.ok false = true) (hl : f.linked (macrosOf cfg.toParserConfig st'))
    (hs : Reads (rest.map (tokOf cfg.toParserConfig st')) (f.tokens ++ [⟨.eoi, false⟩])) :
    match f.value cfg.maxExpansions g display with
    | .ok (nodes, l) => ∃ n0, ∀ n, n0 ≤ n →
        parseSnippet n cfg g src display = .ok nodes ⟨l.count, l.labels, st'.document⟩
    | .error k => ∃ n0 e g', e.kind = k ∧ ∀ n, n0 ≤ n → parseSnippet n cfg g src display = .err e g' := by
  obtain ⟨pre, h1, h2⟩ := hp
  obtain ⟨q, hq, hst⟩ := ahead_start (cfg := cfg.toParserConfig) (src := src) g (by rw [h1]) cfg.maxExpansions display.style
  rw [h1] at hst
  obtain ⟨s1, m, hs1, hrun⟩ := preamble_ok h2 (c := ⟨⟨cfg.customCmds, g.customCmds, {}⟩, _, _, _, _, _, _, _, _⟩)
    rfl rfl hst
  let l0 : Loc := ⟨display.style, {}, g.equationCount, g.labelMap, cfg.maxExpansions, false⟩
  let k : Ctx :=
    ⟨st', g.equationCount, g.labelMap, none, false, {}, display.style, none, cfg.maxExpansions⟩
  have his : Is cfg.toParserConfig s1 (f.tokens ++ [⟨.eoi, false⟩]) k := hs1.is hs
  have hparse : ∀ n, parse (n + m) cfg.toParserConfig (initialState cfg.maxExpansions q display.style) =
      parse n cfg.toParserConfig s1 := by
    intro n
    unfold parse Rec.parseSequence
    simp only [bind, St.bind, St.get, hrun]
    have e1 : s1.transform = none := congrArg Ctx.transform his.ctx
    have e2 : s1.style = display.style := congrArg Ctx.style his.ctx
    cases (parser n).seqLoop (.endToken .eoi) .opening [] none cfg.toParserConfig s1 with
    | ok p s2 =>
      dsimp only
      cases P.skipIf (!true) cfg.toParserConfig s2 with
      | ok _ s3 => dsimp only [St.modify]; rw [e1, e2]; rfl
      | _ => rfl
    | _ => rfl
  have hends : Ends (.endToken .eoi) false ⟨.eoi, false⟩ :=
    ⟨rfl, rfl, rfl, fun _ => rfl, (by intro _ h; cases h), rfl, rfl⟩
  have hd := does_sequence (keep := true) rfl rfl (form_does cfg.toParserConfig k ⟨rfl, rfl⟩ f (prev := .opening)
    (nodes := []) (l := l0) (fol := []) hf hl hends).1
  have hv : f.value cfg.maxExpansions g display = f.denote l0 .opening (leadClass [⟨.eoi, false⟩]) := rfl
  rw [hv]
  have hstep : ∀ n, m ≤ n → parse n cfg.toParserConfig (initialState cfg.maxExpansions q display.style) =
      parse (n - m) cfg.toParserConfig s1 := by
    intro n hn
    have := hparse (n - m)
    rwa [Nat.sub_add_cancel hn] at this
  cases hx : f.denote l0 .opening (leadClass [⟨.eoi, false⟩]) with
  | error e =>
    rw [hx] at hd
    obtain ⟨n0, er, s', h1, h2⟩ := hd _ his
    refine ⟨n0 + m, er, s'.q.globalState, h2, fun n hn => ?_⟩
    unfold parseSnippet
    rw [hq]
    have h3 : parse (n - m) cfg.toParserConfig s1 = _ := h1 (n - m) (by omega)
    dsimp only
    rw [hstep n (by omega), h3]
  | ok p =>
    obtain ⟨nodes, l⟩ := p
    rw [hx] at hd
    obtain ⟨n0, s', h1, h2⟩ := hd _ his
    refine ⟨n0 + m, fun n hn => ?_⟩
    unfold parseSnippet
    rw [hq]
    have h3 : parse (n - m) cfg.toParserConfig s1 = _ := h1 (n - m) (by omega)
    dsimp only
    rw [hstep n (by omega), h3]
    have hc := h2.ctx
    dsimp only
    congr 1
    unfold globalState
    have e1 : s'.q.equationCount = l.count := congrArg Ctx.count hc
    have e2 : s'.q.labelMap = l.labels := congrArg Ctx.labels hc
    have e3 : s'.q.stores.document = st'.document := congrArg (fun c => c.stores.document) hc
    rw [e1, e2, e3]

/-- Parsing a source in which a definition fails -/
theorem preamble_fails {cfg : SnippetConfig} {g : GlobalState} {src : Str} {k : LatexErrKind}
    (display : MathDisplay) (hp : BeginsWith cfg.toParserConfig g src (.error k) rest) :
    ∃ n0 e g', e.kind = k ∧ ∀ n, n0 ≤ n → parseSnippet n cfg g src display = .err e g' := by
  obtain ⟨pre, h1, h2⟩ := hp
  obtain ⟨q, hq, hst⟩ := ahead_start (cfg := cfg.toParserConfig) (src := src) g (by rw [h1]) cfg.maxExpansions display.style
  rw [h1] at hst
  obtain ⟨e, s1, m, he, hrun⟩ := preamble_err h2 (c := ⟨⟨cfg.customCmds, g.customCmds, {}⟩, _, _, _, _, _, _, _, _⟩)
    rfl rfl hst
  refine ⟨m, e, s1.q.globalState, he, fun n hn => ?_⟩
  obtain ⟨n, rfl⟩ : ∃ j, n = j + m := ⟨n - m, by omega⟩
  have : parse (n + m) cfg.toParserConfig (initialState cfg.maxExpansions q display.style) = .err e s1 := by
    unfold parse Rec.parseSequence
    simp only [bind, St.bind, St.get, hrun]
  unfold parseSnippet
  rw [hq]
  dsimp only
  rw [this]

end Verif

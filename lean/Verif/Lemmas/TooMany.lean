import Verif.Lemmas.Broken
import Verif.Lemmas.Compound
/-! Formulas with more commands than may be expanded, and mistakes after commands. -/
namespace Verif
open Model Spec

variable {cfg : ParserConfig} {k : Ctx} {l l' : Loc} {t : Tk} {ts ts' ts'' fin : List Tk} {K : LatexErrKind} {e : SequenceEnd}

/-- A round which changes what is left, and after which the rest cannot be read -/
theorem spent_fails (hk : k.Plain) (he : Plainly e) (hh : headOk false t.tok = true)
    (hB : ∀ prev sp, ∃ x, Does cfg k (fun n => (parser n).parseToken ⟨t.tok.unwrapMath, sp⟩ .sequence prev) ts l ts' (.ok (x, l')))
    (hs : Starts ts') (hR : Fails cfg k e ts' l' K) : Fails cfg k e (t :: ts) l K := by
  intro prev nodes
  obtain ⟨hg, hq⟩ := headOk_iff hh
  obtain ⟨hw, hn, -, -⟩ := clean_iff.1 (goesOn_iff hg)
  refine Does.step (G := fun n => (parser n).seqLoopStep e prev nodes none) (fun n => rfl) ?_
  unfold Rec.seqLoopStep
  refine Does.peek_bind hw fun sp => ?_
  simp only [goesOn_noMatch hg fun _ => he.1, Bool.false_eq_true, if_false]
  refine Does.after (Does.merge hk) ?_
  refine Does.next_bind hw hn fun sp => ?_
  rw [handle_quiet (x := ⟨t.tok.unwrapMath, sp⟩) hq]
  refine Does.after (m := fun _ => (Pure.pure none : P (Option (List Node × InfixFrac)))) Does.pure ?_
  obtain ⟨x, hx⟩ := hB prev sp
  refine Does.after hx ?_
  unfold Rec.seqTarget
  refine Does.after (does_noScripts (b := {}) (lim := none) hs) ?_
  refine Does.after (m := fun _ => BoundsWithLimits.ensureNoExplicitLimits ⟨{}, none⟩) (a := {}) Does.pure ?_
  exact hR _ _

/-- A symbol is read. -/
theorem symbol_does (hk : k.Plain) {x : Token} (hx : isAtom x.unwrapMath = true) (hs : Stops ts) :
    headOk false x = true ∧ ∀ prev l, ∃ y, ∀ sp, Does cfg k (fun n => (parser n).parseToken ⟨x.unwrapMath, sp⟩ .sequence prev) ts l ts (.ok (y, l)) := by
  have hok : (Base.atom x).ok false ts = true := by
    show (isAtom x.unwrapMath && !(false && _)) = true
    rw [hx]
    rfl
  have hst : ∃ t rest, ts = t :: rest ∧ t.tok.isWs = false := by
    obtain ⟨t, rest, h1, h2⟩ := hs.starts
    exact ⟨t, rest, h1, (clean_iff.1 h2).1⟩
  obtain ⟨t1, tail, g1, g2, g3⟩ := base_does cfg k hk (.atom x) hok trivial hst hs.lead
  unfold Base.tokens at g1
  cases g1
  exact ⟨g2, fun prev l => ⟨_, fun sp => g3 prev l sp⟩⟩

theorem symbol_stops (cfg : ParserConfig) (hk : k.Plain) {x : Token} (hx : isAtom x.unwrapMath = true) (hsc : startsScript x = false) (hs : Stops ts) :
    Stops (⟨x, false⟩ :: ts) := by
  obtain ⟨h1, -⟩ := symbol_does (cfg := cfg) hk hx hs
  refine ⟨⟨_, _, rfl, goesOn_iff (headOk_iff h1).1⟩, HasLead.append (ts := [_]) hs.lead, ?_⟩
  show (!startsScript x) = true
  rw [hsc]
  rfl

theorem symbol_fails (hk : k.Plain) (he : Plainly e) {x : Token} (hx : isAtom x.unwrapMath = true) (hsc : startsScript x = false)
    (hs : Stops ts) (hf : Fails cfg k e ts l K) : Stops (⟨x, false⟩ :: ts) ∧ Fails cfg k e (⟨x, false⟩ :: ts) l K := by
  obtain ⟨h1, h2⟩ := symbol_does (cfg := cfg) hk hx hs
  exact ⟨symbol_stops cfg hk hx hsc hs, spent_fails hk he h1 (fun prev sp => let ⟨y, hy⟩ := h2 prev l; ⟨y, hy sp⟩) hs.starts hf⟩

theorem body_stops (cfg : ParserConfig) (hk : k.Plain) (hs : Stops ts) : ∀ {body : List Token} {xs : List (Option Nat)}, plainItems body xs = true →
    Stops (body.map (⟨·, false⟩) ++ ts)
  | [], _, _ => hs
  | t :: ts, [], h => by cases h
  | t :: ts, x :: xs, h => by
    simp only [plainItems, Bool.and_eq_true] at h
    obtain ⟨h1, -, h3, -⟩ := plainItem_facts h.1
    exact symbol_stops cfg hk h1 h3 (body_stops cfg hk hs h.2)

theorem body_fails (hk : k.Plain) (he : Plainly e) (hs : Stops ts) (hf : Fails cfg k e ts l K) :
    ∀ {body : List Token} {xs : List (Option Nat)}, plainItems body xs = true → Fails cfg k e (body.map (⟨·, false⟩) ++ ts) l K
  | [], _, _ => hf
  | t :: ts, [], h => by cases h
  | t :: ts, x :: xs, h => by
    simp only [plainItems, Bool.and_eq_true] at h
    obtain ⟨h1, -, -, -⟩ := plainItem_facts h.1
    have g1 := body_stops cfg hk hs h.2
    obtain ⟨h3, h4⟩ := symbol_does (cfg := cfg) hk h1 g1
    exact spent_fails hk he h3 (fun prev sp => let ⟨y, hy⟩ := h4 prev l; ⟨y, hy sp⟩) g1.starts (body_fails hk he hs hf h.2)

theorem call_stops {tok : Token} (hb : bodyOf tok ≠ []) (hl : HasLead ts) : Stops (⟨tok, false⟩ :: ts) := by
  obtain ⟨h1, h2, -, -⟩ := bodyOf_call hb
  refine ⟨⟨_, _, rfl, goesOn_iff (headOk_iff (call_head (br := false) h1)).1⟩, HasLead.append (ts := [_]) hl, ?_⟩
  show (!startsScript tok) = true
  rw [h2]
  rfl

/-- A command for which there is nothing left, or after which something is wrong. It is replaced by `y` and `ys`, the
first of which is read up to `ts'`. -/
theorem replaced_fails (hk : k.Plain) (he : Plainly e) {tok y : Token} {args : List CallArg} {body : List Piece} {ys ts' : List Tk} (hc : isCall tok = true)
    (hM : macrosOf cfg k.stores tok = some (args.length, body)) (hn : args.length ≤ 9) (hp : ∀ i, .param i ∈ body → i < 9)
    (hok : ∀ a ∈ args, a.ok = true) (hloose : looseHead ts = true) (hlead : HasLead ts) (hL : Loosens (⟨y, false⟩ :: ys) (called args body))
    (hw : y.isWs = false) (h3 : headOk false y = true)
    (h4 : ∀ prev l, ∃ z, ∀ sp, Does cfg k (fun n => (parser n).parseToken ⟨y.unwrapMath, sp⟩ .sequence prev) (ys ++ ts) l ts' (.ok (z, l)))
    (hs : Starts ts') (hf : ∀ n, l.left = n + 1 → Fails cfg k e ts' { l with left := n } K) (hz : l.left = 0 → K = .tooManyExpansions) :
    Fails cfg k e (⟨tok, false⟩ :: (args.flatMap CallArg.tokens ++ ts)) l K := by
  have hnm : Named y.unwrapMath = true := (clean_iff.1 (goesOn_iff (headOk_iff h3).1)).2.1
  have hcall : ∀ {R : Loc → Except LatexErrKind ((Class × Node) × Loc)} {fin : List Tk} {prev : Class} {sp : Span},
      (∀ l', expandOne l = .ok l' → ∀ sp,
        Does cfg k (fun n => (parser n).parseToken ⟨y.unwrapMath, sp⟩ .sequence prev) (ys ++ ts) l' fin (R l')) →
      Does cfg k (fun n => (parser n).parseToken ⟨tok.unwrapMath, sp⟩ .sequence prev) (args.flatMap CallArg.tokens ++ ts) l fin
        (expandOne l >>= R) := by
    intro R fin prev sp h
    exact does_call (t1 := ⟨y, false⟩) (xs := ⟨y, false⟩ :: ys) hk (call_unwrap hc) ((call_macro hc _ _).trans hM) hn hp hok hloose hlead
      hL rfl hw hnm h
  cases hl : l.left with
  | zero =>
    rw [hz hl]
    refine head_fails (fin := ts) hk he (call_head hc) fun prev sp => ?_
    have h := hcall (R := fun _ => .error .tooManyExpansions) (fin := ts) (prev := prev) (sp := sp) (by
      intro l' h'
      unfold expandOne at h'
      rw [hl] at h'
      cases h')
    unfold expandOne at h
    rw [hl] at h
    exact h
  | succ n =>
    have hex : expandOne l = .ok { l with left := n } := by
      unfold expandOne
      rw [hl]
    refine spent_fails (l' := { l with left := n }) hk he (call_head hc) (fun prev sp => ?_) hs (hf n hl)
    obtain ⟨v, hv⟩ := h4 prev { l with left := n }
    refine ⟨v, ?_⟩
    have h := hcall (R := fun l' => .ok (v, l')) (fin := ts') (prev := prev) (sp := sp) (by
      intro l' h'
      rw [hex] at h'
      cases h'
      exact hv)
    rw [hex] at h
    exact h

/-- The same if the first is a symbol -/
theorem expand_fails (hk : k.Plain) (he : Plainly e) {tok y : Token} {args : List CallArg} {body : List Piece} {ys : List Tk} (hc : isCall tok = true)
    (hM : macrosOf cfg k.stores tok = some (args.length, body)) (hn : args.length ≤ 9) (hp : ∀ i, .param i ∈ body → i < 9)
    (hok : ∀ a ∈ args, a.ok = true) (hloose : looseHead ts = true) (hlead : HasLead ts) (hL : Loosens (⟨y, false⟩ :: ys) (called args body))
    (hy : isAtom y.unwrapMath = true) (hw : y.isWs = false) (hs : Stops (ys ++ ts))
    (hf : ∀ n, l.left = n + 1 → Fails cfg k e (ys ++ ts) { l with left := n } K) (hz : l.left = 0 → K = .tooManyExpansions) :
    Fails cfg k e (⟨tok, false⟩ :: (args.flatMap CallArg.tokens ++ ts)) l K := by
  obtain ⟨h3, h4⟩ := symbol_does (cfg := cfg) hk hy hs
  exact replaced_fails hk he hc hM hn hp hok hloose hlead hL hw h3 h4 hs.starts hf hz

/-- The same for a command without arguments -/
theorem call_fails (hk : k.Plain) (he : Plainly e) {tok : Token} {xs : List (Option Nat)} (hb : bodyOf tok ≠ [])
    (hp : plainItems (bodyOf tok) xs = true) (hs : Stops ts) (hloose : looseHead ts = true)
    (hf : ∀ n, l.left = n + 1 → Fails cfg k e ts { l with left := n } K) (hz : l.left = 0 → K = .tooManyExpansions) :
    Fails cfg k e (⟨tok, false⟩ :: ts) l K := by
  obtain ⟨hc1, -, -, hM⟩ := bodyOf_call hb
  have hL := body_loosens (k.stores.resolveCommand cfg.builtin) hp
  cases hbody : bodyOf tok with
  | nil => exact absurd hbody hb
  | cons y ys =>
    rw [hbody] at hp hM hL
    cases xs with
    | nil => cases hp
    | cons x xs =>
      have hno := body_noParam hp
      simp only [plainItems, Bool.and_eq_true] at hp
      obtain ⟨f1, f2, -⟩ := plainItem_facts hp.1
      exact expand_fails (args := []) (ys := ys.map (⟨·, false⟩)) hk he hc1 (hM _ _) (by decide)
        (by
          intro i hi
          exfalso
          obtain ⟨t', ht', e⟩ := List.mem_map.1 hi
          exact absurd e (hno t' ht' _))
        (by nofun) hloose hs.lead hL f1 f2 (body_stops cfg hk hs hp.2) (fun n hn => body_fails hk he hs (hf n hn) hp.2) hz

theorem starts_stops (hs : Starts ts) (hl : HasLead ts) : Stops ts := ⟨hs, hl, starts_script hs⟩

theorem chain_stops (x : Chain) (h : x.proper = true) : Stops (tks x.lexemes ++ [⟨.eoi, false⟩]) := by
  obtain ⟨f, hf⟩ := chain_form x h
  rw [← hf.tokens]
  exact starts_stops (form_starts hf.ok ⟨_, _, rfl, rfl⟩) (last_lead _)

theorem loose_last {ls : List Lexeme} (h : looseStart ls = true) : looseHead (tks ls ++ [⟨.eoi, false⟩]) = true :=
  looseHead_append (loose_head h) rfl

/-- The tokens of a command with an argument -/
theorem cmd_tokens {name : Str} {tok : Token} {a : Tex} {ls : List Lexeme} (f : Tex) (hb : fixedTok name = some tok) (hne : tks a.lexemes ≠ []) :
    tks (f.lexemes ++ ((.command name :: braced a.lexemes) ++ ls)) ++ [⟨.eoi, false⟩] =
      tks f.lexemes ++ (⟨tok, false⟩ :: ([CallArg.braces (tks a.lexemes)].flatMap CallArg.tokens ++ (tks ls ++ [⟨.eoi, false⟩]))) := by
  have e : (.command name :: braced a.lexemes) ++ ls = .command name :: .char '{' :: (a.lexemes ++ .char '}' :: ls) := by
    simp [braced]
  rw [e, tks_append, tks_cons, tok_cmd hb, tks_cons, tks_append, tks_cons]
  have : (tks a.lexemes).isEmpty = false := List.isEmpty_eq_false_iff.2 hne
  simp only [CallArg.tokens, this, List.flatMap_cons, List.flatMap_nil, List.append_nil, List.append_assoc, List.cons_append, List.nil_append]
  rfl

theorem cmd_arg {a : Tex} {b c : Bool} (h : a.proper b c = true) (hb : a.lexemes.all (fun l => decide (l ≠ .blank)) = true) :
    ∀ x ∈ [CallArg.braces (tks a.lexemes)], x.ok = true := by
  obtain ⟨e1, e2⟩ := even_arg (tex_even h hb)
  intro x hx
  rw [List.mem_singleton.1 hx]
  show ((tks a.lexemes).all _ && braceDepth 0 ((tks a.lexemes).map (·.tok)) == some 0) = true
  rw [e1, e2]
  rfl

/-- A formula, a command for which there is nothing left or after which something is wrong, and what follows -/
theorem cmd_fails (hk : k.Plain) (he : Plainly e) (f : Tex) (h1 : f.proper false true = true) (x : LinkCmd) (hx : x.proper = true) {ls : List Lexeme}
    (hs : Stops (tks ls ++ [⟨.eoi, false⟩])) (hloose : looseStart ls = true)
    (hf : ∀ n, l.left = n + 1 → Fails cfg k e (tks ls ++ [⟨.eoi, false⟩]) { l with left := n } K) (hz : l.left = 0 → K = .tooManyExpansions) :
    Stops (tks (f.lexemes ++ (x.lexemes ++ ls)) ++ [⟨.eoi, false⟩]) ∧ Fails cfg k e (tks (f.lexemes ++ (x.lexemes ++ ls)) ++ [⟨.eoi, false⟩]) l K := by
  cases x with
  | plain row =>
    simp only [LinkCmd.proper, decide_eq_true_eq] at hx
    obtain ⟨tok, hb1, hb2, hb3⟩ := compound_known hx
    have hc := call_fails (cfg := cfg) (l := l) hk he hb2 hb3 hs (loose_last hloose) hf hz
    show Stops (tks (f.lexemes ++ .command row.name :: ls) ++ _) ∧ Fails cfg k e (tks (f.lexemes ++ .command row.name :: ls) ++ _) l K
    rw [tks_append, tks_cons, tok_cmd hb1, List.append_assoc]
    refine tex_fails hk he f h1 (call_stops hb2 hs.lead) ?_ hc
    show (!continuesNumber tok) = true
    rw [(bodyOf_call hb2).2.2.1]
    rfl
  | wrap row a =>
    simp only [LinkCmd.proper, Bool.and_eq_true, decide_eq_true_eq, Bool.not_eq_true', List.isEmpty_eq_false_iff] at hx
    obtain ⟨⟨⟨h2, h4⟩, h5⟩, h6⟩ := hx
    obtain ⟨x, y, hb1, hx, hy, hy'⟩ := wrap_known h2
    obtain ⟨x1, x2, -⟩ := plainItem_facts hx
    obtain ⟨y1, -, y3, -⟩ := plainItem_facts hy
    have hne : tks a.lexemes ≠ [] := fun e => h5 (List.map_eq_nil_iff.1 e)
    have hsy : stops (.item (.atom y) .nil .nil) := by
      refine ⟨?_, ?_⟩
      · show (!startsScript y) = true
        rw [y3]; rfl
      · show (!continuesNumber y) = true
        rw [hy']; rfl
    obtain ⟨A, hA⟩ := tex_form false true a h4 (.item (.atom y) .nil .nil) hsy nofun
    have hyok : (Form.item (.atom y) .nil .nil).ok false = true := by
      show ((isAtom y.unwrapMath && !(false && _)) && true && true) = true
      rw [y1]
      rfl
    have hsa : Stops ((tks a.lexemes ++ [⟨y, false⟩]) ++ (tks ls ++ [⟨.eoi, false⟩])) := by
      have := form_starts (hA.ok hyok) hs.starts
      rw [hA.tokens] at this
      exact starts_stops this (HasLead.append hs.lead)
    have hc := expand_fails (cfg := cfg) (k := k) (e := e) (K := K) (l := l) (tok := .customCmd 1 [x, .customCmdArg 0, y])
      (args := [.braces (tks a.lexemes)]) (y := x) (ys := tks a.lexemes ++ [⟨y, false⟩]) (ts := tks ls ++ [⟨.eoi, false⟩])
      hk he rfl rfl (by show 1 ≤ 9; decide) (wrap_params hx hy _) (cmd_arg h4 h6) (loose_last hloose) hs.lead (wrap_loosens hx hy hne _) x1 x2 hsa
      (fun n hn => by
        have g := symbol_fails hk he y1 y3 hs (hf n hn)
        rw [List.append_assoc]
        refine (tex_fails hk he a h4 g.1 ?_ g.2).2
        show (!continuesNumber y) = true
        rw [hy']; rfl) hz
    unfold LinkCmd.lexemes
    rw [cmd_tokens f hb1 hne]
    exact tex_fails hk he f h1 ⟨⟨_, _, rfl, rfl⟩, HasLead.append (ts := _ :: _) hs.lead, rfl⟩ rfl hc
  | fenced row a =>
    simp only [LinkCmd.proper, Bool.and_eq_true, decide_eq_true_eq, Bool.not_eq_true', List.isEmpty_eq_false_iff] at hx
    obtain ⟨⟨⟨h2, h4⟩, h5⟩, h6⟩ := hx
    obtain ⟨hb1, hb2, hb3⟩ := fence_known h2
    have hne : tks a.lexemes ≠ [] := fun e => h5 (List.map_eq_nil_iff.1 e)
    obtain ⟨A, hA⟩ := tex_form false false a h4 .nil stops_nil fun _ => rfl
    have hH := head_fence (bracket := false) (follows := fun _ => True) hb2 hb3 hA.closed
    have hst : ∃ t r, tks ls ++ [⟨.eoi, false⟩] = t :: r ∧ t.tok.isWs = false := by
      obtain ⟨t, r, g1, g2⟩ := hs.starts
      exact ⟨t, r, g1, (clean_iff.1 g2).1⟩
    obtain ⟨t1, tail, g1, g2, g3⟩ := base_does cfg k hk (.fence row.left.written.tok row.right.written.tok A) (br := false)
      (hH.ok (tks ls ++ [⟨.eoi, false⟩]) trivial) (hH.linked _) hst hs.lead
    have hT : (Base.fence row.left.written.tok row.right.written.tok A).tokens = ⟨.left, false⟩ ::
        (⟨row.left.written.tok, false⟩ :: (tks a.lexemes ++ [⟨.right, false⟩, ⟨row.right.written.tok, false⟩])) := by
      refine hH.tokens.trans ?_
      rw [tks_cons, tok_cmd structure_known.2.1, tks_cons, tks_append, tks_cons, tok_cmd structure_known.2.2.1, delim_loose hb2, tks_cons, delim_loose hb3]
      rfl
    rw [hT] at g1
    cases g1
    have hc := replaced_fails (cfg := cfg) (k := k) (e := e) (K := K) (l := l) (tok := .customCmd 1 (fenceBody row))
      (args := [.braces (tks a.lexemes)]) (y := .left)
      (ys := ⟨row.left.written.tok, false⟩ :: (tks a.lexemes ++ [⟨.right, false⟩, ⟨row.right.written.tok, false⟩]))
      (ts := tks ls ++ [⟨.eoi, false⟩]) (ts' := tks ls ++ [⟨.eoi, false⟩])
      hk he rfl rfl (by show 1 ≤ 9; decide) (fence_params h2 _) (cmd_arg h4 h6) (loose_last hloose) hs.lead (fence_loosens h2 hne _) rfl g2
      (fun prev l => by
        obtain ⟨z, hz⟩ := hH.steady l prev (leadClass (tks ls ++ [⟨.eoi, false⟩]))
        refine ⟨z, fun sp => ?_⟩
        have := g3 prev l sp
        rw [hz] at this
        exact this)
      hs.starts hf hz
    unfold LinkCmd.lexemes
    rw [cmd_tokens f hb1 hne]
    exact tex_fails hk he f h1 ⟨⟨_, _, rfl, rfl⟩, HasLead.append (ts := _ :: _) hs.lead, rfl⟩ rfl hc

/-- Too many commands -/
theorem chain_fails (hk : k.Plain) (he : Plainly e) : (x : Chain) → x.proper = true → ∀ l : Loc, l.left < x.links →
    Fails cfg k e (tks x.lexemes ++ [⟨.eoi, false⟩]) l .tooManyExpansions
  | .last f, _, l, hl => absurd hl (Nat.not_lt_zero _)
  | .link f row rest, h, l, hl => by
    simp only [Chain.proper, Bool.and_eq_true] at h
    obtain ⟨⟨h1, h2⟩, h3⟩ := h
    have hl' : l.left < rest.links + 1 := hl
    exact (cmd_fails hk he f h1 (.plain row) h2 (chain_stops rest h3) (chain_loose h3)
      (fun n hn => chain_fails hk he rest h3 { l with left := n } (by show n < rest.links; omega)) fun _ => rfl).2
  | .wrap f row a rest, h, l, hl => by
    simp only [Chain.proper, Bool.and_eq_true] at h
    obtain ⟨⟨⟨⟨⟨h1, h2⟩, h3⟩, h4⟩, h5⟩, h6⟩ := h
    have hl' : l.left < rest.links + 1 := hl
    have := (cmd_fails hk he f h1 (.wrap row a) (by simp only [LinkCmd.proper, h2, h4, h5, h6, Bool.and_self]) (chain_stops rest h3) (chain_loose h3)
      (fun n hn => chain_fails hk he rest h3 { l with left := n } (by show n < rest.links; omega)) fun _ => rfl).2
    simpa [LinkCmd.lexemes, braced, Chain.lexemes] using this
  | .fenced f row a rest, h, l, hl => by
    simp only [Chain.proper, Bool.and_eq_true] at h
    obtain ⟨⟨⟨⟨⟨h1, h2⟩, h3⟩, h4⟩, h5⟩, h6⟩ := h
    have hl' : l.left < rest.links + 1 := hl
    have := (cmd_fails hk he f h1 (.fenced row a) (by simp only [LinkCmd.proper, h2, h4, h5, h6, Bool.and_self]) (chain_stops rest h3) (chain_loose h3)
      (fun n hn => chain_fails hk he rest h3 { l with left := n } (by show n < rest.links; omega)) fun _ => rfl).2
    simpa [LinkCmd.lexemes, braced, Chain.lexemes] using this

theorem links_loose : ∀ {x : Links} {ls : List Lexeme}, linksProper x = true → looseStart ls = true → looseStart (linksLexemes x ++ ls) = true
  | [], _, _, h => h
  | (f, y) :: rest, ls, h, _ => by
    simp only [linksProper, List.all_cons, Bool.and_eq_true] at h
    have := tex_loose h.1.1 (y.lexemes ++ (linksLexemes rest ++ ls)) (by cases y <;> rfl)
    show looseStart ((f.lexemes ++ (y.lexemes ++ linksLexemes rest)) ++ ls) = true
    rwa [List.append_assoc, List.append_assoc]

theorem cmd_fixed {x : LinkCmd} (h : x.proper = true) : ∀ l ∈ x.lexemes, l.fixed = true := by
  have arg : ∀ {name : Str} {tok : Token} {a : Tex} {c : Bool}, fixedTok name = some tok → a.proper false c = true →
      ∀ l ∈ .command name :: braced a.lexemes, l.fixed = true := by
    intro name tok a c hb ha
    obtain ⟨A, hA⟩ := tex_form false c a ha .nil stops_nil fun _ => rfl
    refine fixed_cons ?_ (fixed_cons rfl (fixed_append hA.fixed (fixed_cons rfl nofun)))
    show (fixedTok name).isSome = true
    rw [hb]
    rfl
  cases x with
  | plain row =>
    obtain ⟨tok, hb1, -⟩ := compound_known (of_decide_eq_true h)
    refine fixed_cons ?_ nofun
    show (fixedTok row.name).isSome = true
    rw [hb1]
    rfl
  | wrap row a =>
    simp only [LinkCmd.proper, Bool.and_eq_true, decide_eq_true_eq] at h
    obtain ⟨_, _, hb1, -⟩ := wrap_known h.1.1.1
    exact arg hb1 h.1.1.2
  | fenced row a =>
    simp only [LinkCmd.proper, Bool.and_eq_true, decide_eq_true_eq] at h
    exact arg (fence_known h.1.1.1).1 h.1.1.2

theorem links_fixed : ∀ {x : Links}, linksProper x = true → ∀ l ∈ linksLexemes x, l.fixed = true
  | [], _ => nofun
  | (f, y) :: rest, h => by
    simp only [linksProper, List.all_cons, Bool.and_eq_true] at h
    obtain ⟨f', hf'⟩ := tex_form false true f h.1.1 .nil stops_nil fun _ => rfl
    exact fixed_append hf'.fixed (fixed_append (cmd_fixed h.1.2) (links_fixed h.2))

/-- Commands, and then a mistake -/
theorem links_fails (hk : k.Plain) (he : Plainly e) {ls : List Lexeme} (hs : Stops (tks ls ++ [⟨.eoi, false⟩]))
    (hloose : looseStart ls = true) : (x : Links) → linksProper x = true → ∀ l : Loc,
    (∀ n, l.left = n + x.length → Fails cfg k e (tks ls ++ [⟨.eoi, false⟩]) { l with left := n } K) → x.length ≤ l.left →
    Stops (tks (linksLexemes x ++ ls) ++ [⟨.eoi, false⟩]) ∧ Fails cfg k e (tks (linksLexemes x ++ ls) ++ [⟨.eoi, false⟩]) l K
  | [], _, l, hf, _ => ⟨hs, hf l.left rfl⟩
  | (f, y) :: rest, h, l, hf, hl => by
    simp only [linksProper, List.all_cons, Bool.and_eq_true] at h
    obtain ⟨⟨h1, h2⟩, h3⟩ := h
    have hl' : rest.length + 1 ≤ l.left := hl
    have ih := fun n (hn : l.left = n + 1) => links_fails hk he hs hloose rest h3 { l with left := n }
      (fun m (hm : n = m + rest.length) => hf m (by show l.left = m + (rest.length + 1); omega)) (by show rest.length ≤ n; omega)
    have hs' := (ih (l.left - 1) (by omega)).1
    show Stops (tks ((f.lexemes ++ (y.lexemes ++ linksLexemes rest)) ++ ls) ++ _) ∧
      Fails cfg k e (tks ((f.lexemes ++ (y.lexemes ++ linksLexemes rest)) ++ ls) ++ _) l K
    rw [List.append_assoc, List.append_assoc]
    exact cmd_fails hk he f h1 y h2 hs' (links_loose h3 hloose) (fun n hn => (ih n hn).2) fun h0 => by omega

theorem taker_loose {x : Taker} (h : x.proper = true) (ls : List Lexeme) : looseStart (x.lexemes ++ ls) = true := by
  cases x with
  | script n above =>
    obtain ⟨l, r, e, hl⟩ := nuc_loose h
    show looseStart ((n.lexemes ++ [_]) ++ ls) = true
    rw [e]
    show (!l.tight) = true
    rw [hl]
    rfl
  | _ => rfl

theorem opening_loose {o : Opening} (h : o.proper = true) (ls : List Lexeme) : looseStart (o.lexemes ++ ls) = true := by
  cases o with
  | argument x =>
    show looseStart ((x.lexemes ++ [.char '{']) ++ ls) = true
    rw [List.append_assoc]
    exact taker_loose h _
  | _ => rfl

theorem broken_loose {b : Broken} {around : Option Opening} {columns : Bool} (h : b.proper around columns = true) :
    looseStart b.lexemes = true := by
  unfold Broken.lexemes
  cases b with
  | here f x rest =>
    unfold Broken.proper at h
    simp only [Bool.and_eq_true] at h
    refine tex_loose h.1.1.1 _ ?_
    cases x with
    | stop =>
      have := stray_fits h.2 rfl
      show looseStart rest.lexemes = true
      rw [this]
      rfl
    | _ => rfl
  | renamed f row row' t rest =>
    unfold Broken.proper at h
    simp only [Bool.and_eq_true] at h
    exact tex_loose h.1.1.1.1.1 _ rfl
  | missing f x s rest =>
    unfold Broken.proper at h
    simp only [Bool.and_eq_true] at h
    exact tex_loose h.1.1.1.1.1 _ (taker_loose h.1.1.1.2 _)
  | marks f n above mark rest =>
    unfold Broken.proper at h
    simp only [Bool.and_eq_true] at h
    exact tex_loose h.1.1.1.1 _ (taker_loose h.1.1.2 _)
  | twice f n above a b rest =>
    unfold Broken.proper at h
    simp only [Bool.and_eq_true] at h
    exact tex_loose h.1.1.1.1.1 _ (taker_loose h.1.1.1.2 _)
  | inside f o b =>
    unfold Broken.proper at h
    simp only [Bool.and_eq_true] at h
    exact tex_loose h.1.1.1 _ (opening_loose h.1.1.2 _)
  | cell f row b =>
    unfold Broken.proper at h
    simp only [Bool.and_eq_true] at h
    refine tex_loose h.1.1 _ ?_
    cases row <;> rfl

end Verif

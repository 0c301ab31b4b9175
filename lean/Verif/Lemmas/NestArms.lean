import Verif.Lemmas.NestText
/-! What the parser reads is properly nested: the recursive functions. -/
namespace Verif
open Model Spec Lexer' TokenQueue

/-- What is read by the functions which are called recursively -/
structure NestRec (r : Rec) : Prop where
  seq : ∀ e c n i, Judg false From (r.seqLoop e c n i)
  seqEnd : ∀ e c n i cfg s a s', r.seqLoop e c n i cfg s = .ok a s' → e.isMatch s'.q.peek.tok = true
  token : ∀ t a c, Judg false (Called t) (r.parseToken t a c)
  bounds : ∀ first ret, Judg false From (r.getBounds first ret)

/-- One step of a proof about what is read -/
syntax "arm_step" : tactic
macro_rules | `(tactic| arm_step) => `(tactic| refine Judg.called ?_)
macro_rules | `(tactic| arm_step) => `(tactic| nest_step)
macro_rules | `(tactic| arm_step) => `(tactic| (refine Judg.called (Judg.after ?_ ?_); focus (quietly; done)))
macro_rules | `(tactic| arm_step) => `(tactic| refine Judg.called_bind ?_)
macro_rules | `(tactic| arm_step) => `(tactic| first
  | exact NestRec.seq ‹_› _ _ _ _ | exact NestRec.token ‹_› _ _ _ | exact NestRec.bounds ‹_› _ _)
/-- Prove something about what is read, step by step. -/
macro "arms" : tactic => `(tactic| repeat' (with_reducible arm_step))

variable {r : Rec}

/-! ### Sequences -/

theorem still_skip : Still (P.skipIf false) := fun cfg s a s' hq h => Still.pure () cfg s a s' hq h

theorem seq_keep (h : NestRec r) (e prev) : Judg false From (r.parseSequence e prev true) := by
  unfold Rec.parseSequence
  refine Judg.still_bind Still.get fun old => ?_
  refine Judg.bind (h.seq _ _ _ _) fun x => ?_
  exact Judg.still (.bind still_skip fun _ => by still)

/-- A sequence with the token which ends it -/
theorem seq_ok (h : NestRec r) {e prev cfg s a s'} (he : e ≠ .eoi) (hq : QInv s.q)
    (hg : AllFit s.q.stores (upcoming cfg s.q)) (hm : r.parseSequence (.endToken e) prev false cfg s = .ok a s') :
    QInv s'.q ∧ s'.env.allowColumns = s.env.allowColumns ∧ ∃ w ws x,
      Unfolds cfg s.q.stores (upcoming cfg s.q) (w ++ (ws ++ [x])) s'.q.stores (upcoming cfg s'.q) ∧
      (TextArgs w → Closed s.env.allowColumns w) ∧ (∀ y ∈ ws, y.isWs = true) ∧ e.isMatch x = true := by
  obtain ⟨old, s0, h0, hm⟩ := bind_inv hm
  cases h0
  obtain ⟨⟨nodes, frac⟩, s1, h1, hm⟩ := bind_inv hm
  obtain ⟨_, s2, h2, hm⟩ := bind_inv hm
  obtain ⟨_, s3, h3, hm⟩ := bind_inv hm
  cases h3
  cases hm
  obtain ⟨a1, a2, w, a3, a4⟩ := h.seq _ _ _ _ cfg s _ _ s1 hq hg rfl h1
  have hend := h.seqEnd _ _ _ _ _ _ _ _ h1
  obtain ⟨_, s3, h3, h4⟩ := bind_inv (show (P.next >>= fun _ => pure () : P Unit) cfg s1 = .ok _ s2 from h2)
  cases h4
  obtain ⟨p, qt, b1, rfl, b2, b3, b4, b5⟩ := next_ok a1 h3
  obtain ⟨p', qt', c1, c2⟩ := peek_first cfg a1
  obtain ⟨rfl, rfl⟩ := b1.unique c1
  rw [c2] at hend
  have hend' : e.isMatch qt.tok = true := hend
  have hx : qt.tok.unwrapMath = qt.tok ∧ single qt.tok = true := by
    revert hend'
    cases qt.tok <;> cases e <;> intro hx <;> first | (cases hx; done) | (exact absurd rfl he) | exact ⟨rfl, rfl⟩
  obtain ⟨ws, d1, d2⟩ := unfolds_first (cfg := cfg) (st := s1.q.stores) false b1 (by rw [asRead_tok_false, hx.1]; exact hx.2)
  rw [asRead_tok_false, hx.1, ← b2] at d2
  refine ⟨b3, (by rw [show s2.env = s1.env from b5]; exact a2), w, ws, qt.tok, ?_, fun ht => a4 ht _ (.inr rfl), d1, hend'⟩
  show Unfolds cfg s.q.stores _ _ s2.q.stores (upcoming cfg s2.q)
  rw [b4]
  exact a3.trans d2

theorem match_square {x : Token} (h : EndToken.isMatch .squareBracketClose x = true) : x = .squareBracketClose := by
  cases x <;> first | rfl | (cases h; done)
theorem match_group {x : Token} (h : EndToken.isMatch .groupClose x = true) : x = .groupEnd := by
  cases x <;> first | rfl | (cases h; done)
theorem match_right {x : Token} (h : EndToken.isMatch .right x = true) : x = .right := by
  cases x <;> first | rfl | (cases h; done)

theorem seq_square (h : NestRec r) (prev) :
    Judg false From (r.parseSequence (.endToken .squareBracketClose) prev false) := by
  rintro cfg s u0 a s' hq hg rfl hm
  obtain ⟨a1, a2, w, ws, x, a3, a4, a5, a6⟩ := seq_ok h (by decide) hq hg hm
  cases match_square a6
  refine ⟨a1, a2, _, a3, fun ht b hb => ?_⟩
  rcases hb with hb | rfl
  · cases hb
  · exact (a4 ht.left).append (Judg.word_quiet a5 rfl _)
macro_rules | `(tactic| arm_step) => `(tactic| exact seq_square ‹_› _)

theorem seq_if (h : NestRec r) (a sp e c) : Judg false From (r.parseSequenceIfInSequence a sp e c true) := by
  unfold Rec.parseSequenceIfInSequence
  split
  · exact seq_keep h _ _
  · exact .fail _ _
macro_rules | `(tactic| arm_step) => `(tactic| exact seq_if ‹_› _ _ _ _)

/-! ### Words in something -/

theorem ws_closed {ws : List Token} (h : ∀ y ∈ ws, y.isWs = true) (b) : Closed b ws :=
  .calm fun y hy => ws_calm (h y hy)

theorem closed_group' {b w ws} (hw : Closed b w) (hws : ∀ y ∈ ws, y.isWs = true) :
    Closed b ([.groupBegin] ++ (w ++ (ws ++ [.groupEnd]))) := by
  have := closed_group (hw.append (ws_closed hws b))
  simpa using this

theorem closed_left {b w ws v v'} (hv : Closed b v) (hw : Closed b w) (hws : ∀ y ∈ ws, y.isWs = true)
    (hv' : Closed b v') : Closed b ([.left] ++ v ++ (w ++ (ws ++ [.right])) ++ v') := by
  intro st hst
  have hst' : inColumns (.left :: st) = b := hst
  simp only [nest_append]
  rw [show nest st [.left] = some (.left :: st) from rfl]
  simp only [Option.bind_some, hv _ hst', hw _ hst', ws_closed hws b _ hst']
  exact hv' st hst

theorem closed_env {b e w ws v} (hv : ∀ b, Closed b v) (hw : Closed (hasColumns e) w) (hws : ∀ y ∈ ws, y.isWs = true) :
    Closed b ([.beginEnv e] ++ v ++ w ++ (ws ++ [.endEnv e])) := by
  intro st hst
  have hst' : inColumns (.env e :: st) = hasColumns e := rfl
  simp only [nest_append]
  rw [show nest st [.beginEnv e] = some (.env e :: st) from rfl]
  simp only [Option.bind_some, hv _ _ hst', hw _ hst', ws_closed hws _ _ hst']
  show (if e = e then some st else none).bind _ = _
  rw [if_pos rfl]; rfl

/-- The words of a computation after an opening token -/
theorem called_word {t : TokSpan} {cfg} {s : PState} {u0} (hI : Called t u0 (upcoming cfg s.q)) (hs : single t.tok = true) :
    ∃ ws : List Token, (∀ y ∈ ws, y.isWs = true) ∧
      Unfolds cfg s.q.stores u0 (ws ++ [t.tok]) s.q.stores (upcoming cfg s.q) := by
  obtain ⟨p, qt, h1, h2, -, h3⟩ := hI
  obtain ⟨ws, h6, h7⟩ := unfolds_first (cfg := cfg) (st := s.q.stores) false h1
    (by rw [asRead_tok_false, h2]; exact hs)
  rw [asRead_tok_false, h2, ← h3] at h7
  exact ⟨ws, h6, h7⟩

/-- What follows `{`, up to and including `}` -/
theorem nest_braced {α β : Type} {m : P α} (h : NestRec r) {t : TokSpan} (ht : t.tok = .groupBegin)
    (hm : Judg false From m) {prev} {f : α → List Node → P β} (hf : ∀ a x, Still (f a x)) :
    Judg false (Called t) (do
      let a ← m
      let content ← r.parseSequence (.endToken .groupClose) prev false
      f a content) := by
  rintro cfg s u0 b s' hq hg hI hx
  obtain ⟨ws0, h0, h1⟩ := called_word hI (by rw [ht]; rfl)
  obtain ⟨x, s1, h2, hx⟩ := bind_inv hx
  obtain ⟨content, s2, h3, h4⟩ := bind_inv hx
  obtain ⟨a1, a2, w, a3, a4⟩ := hm cfg s _ x s1 hq (h1.good hg) rfl h2
  obtain ⟨b1, b2, w', ws, y, b3, b4, b5, b6⟩ := seq_ok h (by decide) a1 (a3.good (h1.good hg)) h3
  obtain ⟨c1, c2, c3, c4⟩ := hf x content cfg s2 b s' b1 h4
  cases match_group b6
  rw [ht] at h1
  refine ⟨c1, (c4.trans b2).trans a2, _, by rw [c2, c3]; exact h1.trans (a3.trans b3), fun htext d hd => ?_⟩
  rcases hd with hd | rfl
  · cases hd
  rw [List.append_assoc, ← List.append_assoc w]
  refine (ws_closed h0 _).append (closed_group' ((a4 htext.right.left _ (.inr rfl)).append ?_) b5)
  rw [a2] at b4
  exact b4 htext.right.right.left

theorem nest_group (h : NestRec r) {t : TokSpan} (ht : t.tok = .groupBegin) (a prev) :
    Judg false (Called t) (r.parseGroup a prev) := by
  intro cfg s u0 b s' hq hg hI hm
  exact nest_braced (m := pure ()) h ht (Judg.still (Still.pure ())) (f := fun _ content =>
    (return .node .default (nodeVecToNode content (a = .arg)) : P Parsed)) (fun _ _ => by still) cfg s u0 b s' hq hg hI hm

theorem nest_left (h : NestRec r) {t : TokSpan} (ht : t.tok = .left) : Judg false (Called t) r.parseLeft := by
  rintro cfg s u0 b s' hq hg hI hx
  obtain ⟨ws0, h0, h1⟩ := called_word hI (by rw [ht]; rfl)
  obtain ⟨x, s1, h2, hx⟩ := bind_inv hx
  obtain ⟨content, s2, h3, h4⟩ := bind_inv hx
  obtain ⟨y, s3, h5, h6⟩ := bind_inv h4
  obtain rfl : s3 = s' := by cases h6; rfl
  obtain ⟨a1, a2, w, a3, a4⟩ := nest_fence (any := false) _ cfg s _ x s1 hq (h1.good hg) rfl h2
  obtain ⟨b1, b2, w', ws, z, b3, b4, b5, b6⟩ := seq_ok h (by decide) a1 (a3.good (h1.good hg)) h3
  obtain ⟨c1, c2, w'', c3, c4⟩ := nest_fence (any := false) _ cfg s2 _ y s3 b1 (b3.good (a3.good (h1.good hg))) rfl h5
  cases match_right b6
  rw [ht] at h1
  refine ⟨c1, (c2.trans b2).trans a2, _, h1.trans ((a3.trans b3).trans c3), fun htext d hd => ?_⟩
  rcases hd with hd | rfl
  · cases hd
  have := closed_left (a4 htext.right.left.left _ (.inr rfl)) (by rw [← a2]; exact b4 htext.right.left.right.left) b5
    (c4 htext.right.right _ (.inr (by rw [b2, a2])))
  have := (ws_closed h0 s.env.allowColumns).append this
  simpa using this

theorem allowsColumns_eq (e : Env) : e.allowsColumns = hasColumns e := by cases e <;> rfl

theorem finishEnv_word {env span spec top content numbered cfg} {s s' : PState} {a} (hq : QInv s.q)
    (h : Rec.finishEnv env span spec top content numbered cfg s = .ok a s') :
    QInv s'.q ∧ s'.env.allowColumns = s.env.allowColumns ∧ ∃ ws : List Token, (∀ y ∈ ws, y.isWs = true) ∧
      Unfolds cfg s.q.stores (upcoming cfg s.q) (ws ++ [.endEnv env]) s'.q.stores (upcoming cfg s'.q) := by
  obtain ⟨t, s1, h1, h2⟩ := bind_inv h
  obtain ⟨p, qt, b1, rfl, b2, b3, b4, b5⟩ := next_ok hq h1
  cases ht : qt.unwrapMath.ts.tok <;> rw [ht] at h2 <;> first | (cases h2; done) | skip
  rename_i e
  dsimp only at h2
  by_cases he : e = env
  · subst he
    rw [if_neg (by simp)] at h2
    have hst : Still (do
        let (info, numRows) ← Rec.numberLastRow numbered span
        match e.constructNode content spec info numRows top with
        | some node => return Parsed.node .closing node
        | none => St.panic : P Parsed) := by still
    obtain ⟨c1, c2, c3, c4⟩ := hst cfg s1 a s' b3 h2
    have ht' : (asRead false qt).tok = .endEnv e := ht
    obtain ⟨ws, d1, d2⟩ := unfolds_first (cfg := cfg) (st := s.q.stores) false b1 (by rw [ht']; rfl)
    rw [ht', ← b2] at d2
    refine ⟨c1, by rw [c4, b5], ws, d1, ?_⟩
    rw [c2, c3, b4]
    exact d2
  · rw [if_pos he] at h2; cases h2

theorem nest_begin (h : NestRec r) {t : TokSpan} {env} (ht : t.tok = .beginEnv env) (span a) :
    Judg false (Called t) (r.parseBegin env span a) := by
  rintro cfg s u0 b s' hq hg hI hx
  obtain ⟨ws0, h0, h1⟩ := called_word hI (by rw [ht]; rfl)
  obtain ⟨spec, s1, h2, hx⟩ := bind_inv hx
  obtain ⟨top, s2, h3, hx⟩ := bind_inv hx
  obtain ⟨old, s2', h4, hx⟩ := bind_inv hx
  cases h4
  obtain ⟨_, s3, h4, hx⟩ := bind_inv hx
  cases h4
  obtain ⟨content, s4, h5, hx⟩ := bind_inv hx
  obtain ⟨_, s4', h6, hx⟩ := bind_inv hx
  cases h6
  obtain ⟨_, s5, h6, hx⟩ := bind_inv hx
  cases h6
  have g1 := h1.good hg
  obtain ⟨a1, a2, w1, a3, a4⟩ := nest_arraySpec (any := true) _ cfg s _ spec s1 hq g1 rfl h2
  have g2 := a3.good g1
  obtain ⟨b1, b2, w2, b3, b4⟩ := nest_hline (any := true) _ cfg s1 _ top s2 a1 g2 rfl h3
  have g3 := b3.good g2
  obtain ⟨c1, c2, w3, c3, c4⟩ := seq_if h _ _ _ _ cfg { s2 with style := env.style, env := env.newState }
    (upcoming cfg s2.q) content s4 b1 g3 rfl h5
  obtain ⟨d1, d2, ws, d3, d4⟩ := finishEnv_word (s := { s4 with style := s2.style, env := s2.env }) c1 hx
  rw [ht] at h1
  refine ⟨d1, d2.trans (b2.trans a2), _, h1.trans (((a3.trans b3).trans c3).trans d4), fun htext d _ => ?_⟩
  have t1 := htext.right.left.left
  have hcol := c4 htext.right.left.right _ (.inr (allowsColumns_eq env).symm)
  have := closed_env (b := d) (e := env) (v := w1 ++ w2) (fun b => (a4 t1.left b (.inl rfl)).append (b4 t1.right b (.inl rfl)))
    hcol d3
  have := (ws_closed h0 d).append this
  simpa using this

/-! ### Scripts -/

theorem nest_next (h : NestRec r) (a) : Judg false From (r.parseNext a) := by unfold Rec.parseNext; arms
macro_rules | `(tactic| arm_step) => `(tactic| exact nest_next ‹_› _)

theorem nest_seqTarget (h : NestRec r) (e n i c t) : Judg false From (r.seqTarget e n i c t) := by
  unfold Rec.seqTarget; arms
macro_rules | `(tactic| arm_step) => `(tactic| exact nest_seqTarget ‹_› _ _ _ _ _)

theorem nest_seqStep (h : NestRec r) (e c n i) : Judg false From (r.seqLoopStep e c n i) := by
  unfold Rec.seqLoopStep
  refine Judg.peek_bind fun t => .of_next ?_
  split
  · exact .still (.pure _)
  · refine Judg.bind nest_merge fun x => ?_
    split
    · exact nest_seqTarget h _ _ _ _ _
    · refine Judg.called_bind fun t => ?_
      refine Judg.handle_bind ?_ fun x => ?_
      · exact Judg.bind (h.token _ _ _) fun _ => nest_seqTarget h _ _ _ _ _
      · exact h.seq _ _ _ _

theorem nest_script (h : NestRec r) : Judg false From r.parseScript := by
  unfold Rec.parseScript
  arms
macro_rules | `(tactic| arm_step) => `(tactic| exact nest_script ‹_›)

theorem nest_subOrSup (h : NestRec r) (k) : Judg false From (r.getSubOrSup k) := by
  unfold Rec.getSubOrSup
  split
  · refine Judg.still_bind Still.loopFuel fun fuel => ?_
    refine nest_primes (f := fun l => do
      let node ← r.parseScript
      return Rec.rowUnlessSingle ((l.reverse.flatMap fun (d, n) => primeNodes d n) ++ [node]))
      (g := fun l => return Rec.rowUnlessSingle (l.reverse.flatMap fun (d, n) => primeNodes d n)) ?_ ?_ _ _
    · intro l; arms
    · intro l; arms
  · exact nest_script h
macro_rules | `(tactic| arm_step) => `(tactic| exact nest_subOrSup ‹_› _)

theorem nest_addBound (h : NestRec r) (sp k ret) : Judg false From (r.addBound true sp k ret) := by
  unfold Rec.addBound
  refine Judg.still_bind still_skip fun _ => ?_
  arms

theorem nest_addBound' (h : NestRec r) {t : Token} (ht : fit t = true → idle t.unwrapMath = true) (sp k ret) :
    Judg false (Next t) (r.addBound false sp k ret) := by
  unfold Rec.addBound
  show Judg false (Next t) ((P.next >>= fun _ => (pure () : P Unit)) >>= fun _ => _)
  intro cfg s u0 a s' hq hg hI hm
  obtain ⟨_, s1, h1, h2⟩ := bind_inv hm
  obtain ⟨_, s2, h3, h4⟩ := bind_inv h1
  cases h4
  refine Judg.next_next_bind (any := false) ht (f := fun _ => do
    let node ← r.getSubOrSup k
    match k with
    | .underscore =>
      if ret.bounds.sub.isSome then P.fail sp .duplicateSubOrSup
      else r.getBounds none { ret with bounds := { ret.bounds with sub := some node } }
    | _ =>
      if ret.bounds.sup.isSome then P.fail sp .duplicateSubOrSup
      else r.getBounds none { ret with bounds := { ret.bounds with sup := some node } }) ?_ cfg s u0 a s' hq hg hI
    (bind_intro h3 h2)
  intro _
  arms

theorem nest_boundsStep (h : NestRec r) (first ret) : Judg false From (r.getBoundsStep first ret) := by
  unfold Rec.getBoundsStep
  cases first with
  | some f =>
    refine Judg.peek_bind fun t => .of_next ?_
    obtain ⟨tok, span⟩ := f
    dsimp only [Option.getD, Option.isSome, Option.isNone]
    split
    · exact nest_addBound h _ _ _
    · exact nest_addBound h _ _ _
    · exact nest_addBound h _ _ _
    · refine Judg.still_bind still_skip fun _ => ?_
      exact h.bounds _ _
    · exact .still (.pure _)
  | none =>
    refine Judg.peek_bind fun t => ?_
    dsimp only [Option.getD, Option.isSome, Option.isNone]
    split
    · rename_i ht
      exact nest_addBound' h (fun _ => by rw [ht]; rfl) _ _ _
    · rename_i ht
      exact nest_addBound' h (fun _ => by rw [ht]; rfl) _ _ _
    · rename_i ht
      exact nest_addBound' h (fun _ => by rw [ht]; rfl) _ _ _
    · rename_i k ht
      intro cfg s u0 a s' hq hg hI hm
      obtain ⟨_, s1, h1, h2⟩ := bind_inv hm
      obtain ⟨_, s2, h3, h4⟩ := bind_inv (show (P.next >>= fun _ => pure () : P Unit) cfg s = .ok _ s1 from h1)
      cases h4
      exact Judg.next_next_bind (any := false) (fun _ => by rw [ht]; rfl) (f := fun _ =>
        r.getBounds none { ret with limitsSpan := some (k, t.span) }) (fun _ => h.bounds _ _) cfg s u0 a s' hq hg hI
        (bind_intro h3 h2)
    · exact .of_next (.still (.pure _))

theorem nest_boundsArg (h : NestRec r) : Judg false From r.getBoundsArg := by
  unfold Rec.getBoundsArg
  refine Judg.peek_bind fun t => ?_
  split
  · arms
  · rename_i ht
    rintro cfg s u0 a s' hq hg ⟨hI, p, qt, h1, h2⟩ hm
    obtain ⟨x, s1, h3, h4⟩ := bind_inv hm
    refine Judg.called_bind (any := false) (f := fun x => if x.tok.isGroupBegin = true then (do
      let bounds ← r.getBounds none {}
      let after ← r.parseSequence (.endToken .groupClose) .opening false
      return (bounds, after)) else St.panic) (fun x => ?_) cfg s u0 a s' hq hg hI (bind_intro h3 ?_)
    · split
      · rename_i hx
        refine nest_braced h ?_ (h.bounds _ _) (f := fun bounds after => return (bounds, after)) fun _ _ => by still
        revert hx; cases x.tok <;> intro hx <;> first | rfl | (cases hx; done)
      · exact .panic
    · obtain ⟨p', qt', a1, rfl, a2, a3, a4, a5⟩ := next_ok hq h3
      rw [show upcoming cfg s.q = u0 from hI] at a1
      obtain ⟨rfl, rfl⟩ := h1.unique a1
      rw [if_pos (by show qt.tok.unwrapMath.isGroupBegin = true; rw [h2, ht]; rfl)]
      exact h4
  · arms
  · arms
macro_rules | `(tactic| arm_step) => `(tactic| exact nest_boundsArg ‹_›)

/-! ### The arms -/

section
variable (h : NestRec r)
include h

theorem nest_forceLargeOp (a b c) : Judg false From (r.parseForceLargeOp a b c) := by unfold Rec.parseForceLargeOp; arms
theorem nest_mathClass (a b c) : Judg false From (r.parseMathClass a b c) := by unfold Rec.parseMathClass; arms
theorem nest_sqrt : Judg false From r.parseSqrt := by unfold Rec.parseSqrt; arms
theorem nest_frac (a b) : Judg false From (r.parseFrac a b) := by unfold Rec.parseFrac; arms
theorem nest_genfrac : Judg false From r.parseGenfrac := by unfold Rec.parseGenfrac; arms
theorem nest_overset (a b) : Judg false From (r.parseOverset a b) := by unfold Rec.parseOverset; arms
theorem nest_brace (a b) : Judg false From (r.parseOverUnderBrace a b) := by
  unfold Rec.parseOverUnderBrace
  refine Judg.bind (nest_next h _) fun target => ?_
  refine Judg.peek_bind fun t => ?_
  split
  · rename_i ht
    refine Judg.next_next_bind (fun _ => ?_) fun _ => ?_
    · revert ht
      cases t.tok <;> intro ht <;> first | rfl | (cases ht; done)
    · arms
  · arms
theorem nest_opBounds (a) : Judg false From (r.opBounds a) := by unfold Rec.opBounds; arms
macro_rules | `(tactic| arm_step) => `(tactic| exact nest_opBounds ‹_› _)
theorem nest_op (a b c) : Judg false From (r.parseOp a b c) := by unfold Rec.parseOp; arms
theorem nest_pseudoOp (a b c d) : Judg false From (r.parsePseudoOp a b c d) := by unfold Rec.parsePseudoOp; arms
theorem nest_overlay (a b c) : Judg false From (r.parseOverlay a b c) := by unfold Rec.parseOverlay; arms
theorem nest_transform (a) : Judg false From (r.parseTransform a) := by unfold Rec.parseTransform; arms
theorem nest_operatorName {t : TokSpan} {l} (ht : t.tok = .operatorName l) (b c) :
    Judg false (Called t) (r.parseOperatorName l b c) := by
  unfold Rec.parseOperatorName
  refine Judg.bind (Judg.called (nest_text (by rw [ht]; rfl) _ _ _)) fun _ => nest_pseudoOp h _ _ _ _
omit h in
theorem nest_crampedStyle : Judg false From Rec.crampedStyle := by unfold Rec.crampedStyle; arms
macro_rules | `(tactic| arm_step) => `(tactic| exact nest_crampedStyle)
theorem nest_cramped (a) : Judg false From (r.parseCramped a) := by unfold Rec.parseCramped; arms
theorem nest_colorSwitch (a b c) : Judg false From (r.parseColorSwitch a b c) := by unfold Rec.parseColorSwitch; arms
theorem nest_phantom (a) : Judg false From (r.parsePhantom a) := by unfold Rec.parsePhantom; arms
theorem nest_style (a b c d) : Judg false From (r.parseStyle a b c d) := by unfold Rec.parseStyle; arms
theorem nest_scriptWithoutBase (a b) : Judg false From (r.parseScriptWithoutBase a b) := by
  unfold Rec.parseScriptWithoutBase; arms
theorem nest_prescript : Judg false From r.parsePrescript := by unfold Rec.parsePrescript; arms
theorem nest_sideset (a b) : Judg false From (r.parseSideset a b) := by
  unfold Rec.parseSideset
  refine Judg.bind (nest_boundsArg h) fun x => ?_
  refine Judg.bind (.still (by still)) fun _ => ?_
  refine Judg.bind (nest_boundsArg h) fun y => ?_
  refine Judg.bind (.still (by still)) fun _ => ?_
  refine Judg.readArg_bind ?_ fun arg => ?_
  · intro arg cfg s b s' hm t ht
    obtain ⟨base, s1, h1, h2⟩ := bind_inv hm
    obtain ⟨h1', rfl⟩ := ofExcept_ok h1
    cases intoOne_mem h1' t ht
    cases hb : t.tok <;> first | rfl | skip
    all_goals
      simp only [hb, Rec.Token.sidesetOp] at h2
      cases h2
  · arms
theorem nest_xarrowArgs : Judg false From r.parseXArrowArgs := by unfold Rec.parseXArrowArgs; arms
macro_rules | `(tactic| arm_step) => `(tactic| exact nest_xarrowArgs ‹_›)
theorem nest_xarrow (a b c) : Judg false From (r.parseXArrow a b c) := by unfold Rec.parseXArrow; arms
end

/-- After a token which changes nothing -/
theorem Judg.idle {α : Type} {any} {m : P α} {t : TokSpan} (ht : Verif.idle t.tok = true) (hm : Judg any From m) :
    Judg any (Called t) m := .called (.after (fun _ => ht) hm)

/-- `&` -/
theorem nest_column {t : TokSpan} (ht : t.tok = .newColumn) {s0 : PState} {x : Parsed} {e} {cfg s u0 a s'}
    (hs : s0 = s) (hq : QInv s.q) (hI : Called t u0 (upcoming cfg s.q))
    (h : (if s0.env.allowColumns then (return x : P Parsed) else St.throw e) cfg s = .ok a s') : Ended false cfg s u0 s' := by
  subst hs
  obtain ⟨ws0, h0, h1⟩ := called_word hI (by rw [ht]; rfl)
  cases hc : s0.env.allowColumns with
  | false => rw [if_neg (by rw [hc]; simp)] at h; cases h
  | true =>
    rw [if_pos hc] at h
    cases h
    rw [ht] at h1
    refine ⟨hq, rfl, _, h1, fun _ b hb => (ws_closed h0 b).append ?_⟩
    rcases hb with hb | rfl
    · cases hb
    · intro st hst
      show (if inColumns st then some st else none).bind _ = _
      rw [hst, if_pos hc]; rfl

theorem nest_arm (h : NestRec r) (t a p n) : Judg false (Called t) (r.parseArm t a p n) := by
  have key : ∀ {m : P Parsed}, idle t.tok = true → Judg false From m → Judg false (Called t) m := Judg.idle
  unfold Rec.parseArm
  intro cfg s u0 x s' hq hg hI hm
  obtain ⟨s0, s1, h1, h2⟩ := bind_inv hm
  cases h1
  revert hm h2
  dsimp only
  intro _
  cases ht : t.tok
  case newColumn => exact fun h2 => nest_column ht rfl hq hI h2
  case groupBegin => exact fun h2 => nest_group h ht _ _ cfg s u0 x s' hq hg hI h2
  case left => exact fun h2 => nest_left h ht cfg s u0 x s' hq hg hI h2
  case beginEnv => exact fun h2 => nest_begin h ht _ _ cfg s u0 x s' hq hg hI h2
  case operatorName => exact fun h2 => nest_operatorName h ht _ _ cfg s u0 x s' hq hg hI h2
  case text =>
    intro h2
    exact (Judg.bind (Judg.called (nest_text (by rw [ht]; rfl) _ _ _)) fun _ => .still (by still)) cfg s u0 x s' hq hg hI h2
  case raiseBox =>
    intro h2
    refine nest_raise (any := false) (style := none) (f := fun l => extractText none (some l) true)
      (g := fun x => (return .node .closing (nodeVecToNode (textNodes x) false) : P Parsed))
      (fun _ => rfl) (fun _ => .still (by still)) cfg s u0 x s' hq hg ?_ h2
    rw [← ht]; exact hI.after
  case customCmd => exact fun h2 => nest_expandCustomCmd ht rfl cfg s u0 x s' hq hg hI h2
  case customCmdRef => exact fun h2 => nest_expandCustomCmdRef ht rfl cfg s u0 x s' hq hg hI h2
  case mathChoice => exact fun h2 => nest_mathChoice ht rfl cfg s u0 x s' hq hg hI h2
  case dots => exact fun h2 => nest_dots ht (by split <;> simp) cfg s u0 x s' hq hg hI h2
  case mathChoiceInternal =>
    intro h2
    exact nest_choiceInternal ht (by cases s.style <;> simp [Rec.selectChoice]) cfg s u0 x s' hq hg hI h2
  case forceLargeOp => exact fun h2 => key (by rw [ht]; rfl) (nest_forceLargeOp h _ _ _) cfg s u0 x s' hq hg hI h2
  case mathClass => exact fun h2 => key (by rw [ht]; rfl) (nest_mathClass h _ _ _) cfg s u0 x s' hq hg hI h2
  case sqrt => exact fun h2 => key (by rw [ht]; rfl) (nest_sqrt h) cfg s u0 x s' hq hg hI h2
  case frac => exact fun h2 => key (by rw [ht]; rfl) (nest_frac h _ _) cfg s u0 x s' hq hg hI h2
  case binom => exact fun h2 => key (by rw [ht]; rfl) (nest_frac h _ _) cfg s u0 x s' hq hg hI h2
  case genfrac => exact fun h2 => key (by rw [ht]; rfl) (nest_genfrac h) cfg s u0 x s' hq hg hI h2
  case overset => exact fun h2 => key (by rw [ht]; rfl) (nest_overset h _ _) cfg s u0 x s' hq hg hI h2
  case underset => exact fun h2 => key (by rw [ht]; rfl) (nest_overset h _ _) cfg s u0 x s' hq hg hI h2
  case overUnderBrace => exact fun h2 => key (by rw [ht]; rfl) (nest_brace h _ _) cfg s u0 x s' hq hg hI h2
  case op => exact fun h2 => key (by rw [ht]; rfl) (nest_op h _ _ _) cfg s u0 x s' hq hg hI h2
  case pseudoOperator => exact fun h2 => key (by rw [ht]; rfl) (nest_pseudoOp h _ _ _ _) cfg s u0 x s' hq hg hI h2
  case pseudoOperatorLimits => exact fun h2 => key (by rw [ht]; rfl) (nest_pseudoOp h _ _ _ _) cfg s u0 x s' hq hg hI h2
  case overlay => exact fun h2 => key (by rw [ht]; rfl) (nest_overlay h _ _ _) cfg s u0 x s' hq hg hI h2
  case transform => exact fun h2 => key (by rw [ht]; rfl) (nest_transform h _) cfg s u0 x s' hq hg hI h2
  case cramped => exact fun h2 => key (by rw [ht]; rfl) (nest_cramped h _) cfg s u0 x s' hq hg hI h2
  case color => exact fun h2 => key (by rw [ht]; rfl) (nest_colorSwitch h _ _ _) cfg s u0 x s' hq hg hI h2
  case phantom => exact fun h2 => key (by rw [ht]; rfl) (nest_phantom h _) cfg s u0 x s' hq hg hI h2
  case style => exact fun h2 => key (by rw [ht]; rfl) (nest_style h _ _ _ _) cfg s u0 x s' hq hg hI h2
  case underscore => exact fun h2 => key (by rw [ht]; rfl) (nest_scriptWithoutBase h _ _) cfg s u0 x s' hq hg hI h2
  case circumflex => exact fun h2 => key (by rw [ht]; rfl) (nest_scriptWithoutBase h _ _) cfg s u0 x s' hq hg hI h2
  case prime => exact fun h2 => key (by rw [ht]; rfl) (nest_scriptWithoutBase h _ _) cfg s u0 x s' hq hg hI h2
  case prescript => exact fun h2 => key (by rw [ht]; rfl) (nest_prescript h) cfg s u0 x s' hq hg hI h2
  case sideset => exact fun h2 => key (by rw [ht]; rfl) (nest_sideset h _ _) cfg s u0 x s' hq hg hI h2
  case xarrow => exact fun h2 => key (by rw [ht]; rfl) (nest_xarrow h _ _ _) cfg s u0 x s' hq hg hI h2
  all_goals first
    | (intro h2; cases h2; done)
    | (intro h2; exact key (by rw [ht]; rfl) (by arms; done) cfg s u0 x s' hq hg hI h2)

theorem nest_oneToken (h : NestRec r) (t a p) : Judg false (Called t) (r.parseOneToken t a p) := by
  unfold Rec.parseOneToken
  refine Judg.still_bind (by still) fun _ => ?_
  refine Judg.still_bind (by still) fun _ => ?_
  exact nest_arm h _ _ _ _

theorem nest_tokenStep (h : NestRec r) (t a p) : Judg false (Called t) (r.parseTokenStep t a p) := by
  unfold Rec.parseTokenStep
  refine Judg.bind (nest_oneToken h _ _ _) fun x => ?_
  cases x with
  | node c n => exact .still (.pure _)
  | expansion => exact Judg.called_bind fun t => h.token _ _ _

theorem seqStep_end (h : NestRec r) (e c n i cfg s a s') (hm : r.seqLoopStep e c n i cfg s = .ok a s') :
    e.isMatch s'.q.peek.tok = true := by
  obtain ⟨t, s1, h1, h2⟩ := bind_inv hm
  cases h1
  split at h2
  · rename_i hx
    cases h2
    exact hx
  · have htarget : ∀ {n i c t s}, r.seqTarget e n i c t cfg s = .ok a s' → e.isMatch s'.q.peek.tok = true := by
      intro n i c t s hm
      obtain ⟨_, s1, h1, h2⟩ := bind_inv hm
      obtain ⟨_, s1, h1, h2⟩ := bind_inv h2
      exact h.seqEnd _ _ _ _ _ _ _ _ h2
    obtain ⟨x, s2, h3, h4⟩ := bind_inv h2
    cases x with
    | some x => exact htarget h4
    | none =>
      obtain ⟨t, s3, h5, h6⟩ := bind_inv h4
      obtain ⟨y, s4, h7, h8⟩ := bind_inv h6
      cases y with
      | some y => exact h.seqEnd _ _ _ _ _ _ _ _ h8
      | none =>
        obtain ⟨z, s5, h9, h10⟩ := bind_inv h8
        exact htarget h10

theorem nest_parser (n : Nat) : NestRec (parser n) := by
  induction n with
  | zero =>
    exact ⟨fun _ _ _ _ => .outOfFuel, fun _ _ _ _ cfg s a s' h => (by cases h), fun _ _ _ => .outOfFuel, fun _ _ => .outOfFuel⟩
  | succ n ih => exact ⟨nest_seqStep ih, seqStep_end ih, nest_tokenStep ih, nest_boundsStep ih⟩

/-- What is read for a whole formula -/
theorem parse_word {fuel cfg s a s'} (hq : QInv s.q) (hg : AllFit s.q.stores (upcoming cfg s.q))
    (h : parse fuel cfg s = .ok a s') :
    QInv s'.q ∧ (∃ p t, FirstAt (upcoming cfg s'.q) NonWs p t ∧ t.tok = .eoi) ∧
      ∃ w, Unfolds cfg s.q.stores (upcoming cfg s.q) w s'.q.stores (upcoming cfg s'.q) ∧
        (TextArgs w → Closed s.env.allowColumns w) := by
  obtain ⟨a1, a2, w, a3, a4⟩ := seq_keep (nest_parser fuel) _ _ cfg s _ a s' hq hg rfl h
  refine ⟨a1, ?_, w, a3, fun ht => a4 ht _ (.inr rfl)⟩
  obtain ⟨p, qt, b1, b2⟩ := peek_first cfg a1
  refine ⟨p, qt, b1, ?_⟩
  obtain ⟨old, s0, h0, hm⟩ := bind_inv h
  cases h0
  obtain ⟨⟨nodes, frac⟩, s1, h1, hm⟩ := bind_inv hm
  have hend := (nest_parser fuel).seqEnd _ _ _ _ _ _ _ _ h1
  cases hm
  rw [show s1.q.peek = qt.ts from b2] at hend
  have : EndToken.isMatch .eoi qt.tok = true := hend
  revert this
  cases qt.tok <;> intro h <;> first | rfl | (cases h; done)

end Verif

import Verif.Spec.Broken
import Verif.Lemmas.TexMain

/-! The parser stops at the first thing which does not belong. -/

namespace Verif

open Verif.Model Verif.Spec

variable {cfg : ParserConfig} {k : Ctx} {l : Loc} {t : Tk} {ts ts' ts'' fin : List Tk} {K : LatexErrKind} {e : SequenceEnd}

/-- The loop ends with this error, whatever has been collected. -/
def Fails (cfg : ParserConfig) (k : Ctx) (e : SequenceEnd) (ts : List Tk) (l : Loc) (K : LatexErrKind) : Prop :=
  ∀ prev nodes, Does cfg k (fun n => (parser n).seqLoop e prev nodes none) ts l [] (.error K)

/-- The tokens cannot be taken for scripts, and there is one with a class. -/
structure Stops (ts : List Tk) : Prop where
  starts : Starts ts
  lead : HasLead ts
  script : headNot startsScript ts = true

/-- The end of a formula, of a group, of a fence or of an environment -/
def Plainly (e : SequenceEnd) : Prop := e ≠ .endToken .squareBracketClose ∧ e ≠ .anyEndToken

/-- A round which begins with something that cannot be read -/
theorem head_fails (hk : k.Plain) (he : Plainly e) (hh : headOk false t.tok = true)
    (hB : ∀ prev sp, Does cfg k (fun n => (parser n).parseToken ⟨t.tok.unwrapMath, sp⟩ .sequence prev) ts l fin (.error K)) :
    Fails cfg k e (t :: ts) l K := by
  intro prev nodes
  obtain ⟨hg, hq⟩ := headOk_iff hh
  obtain ⟨hw, hn, -, -⟩ := clean_iff.1 (goesOn_iff hg)
  refine Does.step (G := fun n => (parser n).seqLoopStep e prev nodes none) (fun n => rfl) ?_
  unfold Rec.seqLoopStep
  refine Does.peek_bind hw fun sp => ?_
  simp only [goesOn_noMatch hg fun _ => he.1, Bool.false_eq_true, if_false]
  refine Does.after (Does.merge hk) ?_
  refine Does.next_bind hw hn fun sp => ?_
  rw [handle_quiet (x := ⟨t.tok.unwrapMath, sp⟩) hq]
  refine Does.after (m := fun _ => (Pure.pure none : P (Option (List Node × InfixFrac)))) Does.pure ?_
  exact Does.bind (g := fun _ => .error K) (hB prev sp) fun _ _ h => by cases h

/-- A round after which the rest cannot be read -/
theorem round_fails (hk : k.Plain) (he : Plainly e) (hh : headOk false t.tok = true) {b : Bounds}
    (hB : ∀ prev sp, ∃ x, Does cfg k (fun n => (parser n).parseToken ⟨t.tok.unwrapMath, sp⟩ .sequence prev) ts l ts' (.ok (x, l)))
    (hS : Does cfg k (fun n => (parser n).getBounds none {}) ts' l ts'' (boundsRes none (.ok (b, l))))
    (hR : Fails cfg k e ts'' l K) : Fails cfg k e (t :: ts) l K := by
  intro prev nodes
  obtain ⟨hg, hq⟩ := headOk_iff hh
  obtain ⟨hw, hn, -, -⟩ := clean_iff.1 (goesOn_iff hg)
  refine Does.step (G := fun n => (parser n).seqLoopStep e prev nodes none) (fun n => rfl) ?_
  unfold Rec.seqLoopStep
  refine Does.peek_bind hw fun sp => ?_
  simp only [goesOn_noMatch hg fun _ => he.1, Bool.false_eq_true, if_false]
  refine Does.after (Does.merge hk) ?_
  refine Does.next_bind hw hn fun sp => ?_
  rw [handle_quiet (x := ⟨t.tok.unwrapMath, sp⟩) hq]
  refine Does.after (m := fun _ => (Pure.pure none : P (Option (List Node × InfixFrac)))) Does.pure ?_
  obtain ⟨x, hx⟩ := hB prev sp
  refine Does.after hx ?_
  unfold Rec.seqTarget
  refine Does.after hS ?_
  refine Does.after (m := fun _ => BoundsWithLimits.ensureNoExplicitLimits ⟨b, none⟩) (a := b) Does.pure ?_
  exact hR _ _

/-- A token which is an error itself -/
theorem token_fails (hk : k.Plain) {x : Token} {b : Bool} (hl : HasLead ts) (hw : x.isWs = false) (hn : Named x.unwrapMath = true)
    (hm : e.isMatch x = false) (hq : quiet x.unwrapMath = true)
    (h : ∀ sp prev nx, Does cfg k (fun n => (parser n).parseArm ⟨x.unwrapMath, sp⟩ .sequence prev nx) ts l fin (.error K)) :
    Fails cfg k e (⟨x, b⟩ :: ts) l K := by
  intro prev nodes
  refine Does.step (G := fun n => (parser n).seqLoopStep e prev nodes none) (fun n => rfl) ?_
  unfold Rec.seqLoopStep
  refine Does.peek_bind hw fun sp => ?_
  simp only [hm, Bool.false_eq_true, if_false]
  refine Does.after (Does.merge hk) ?_
  refine Does.next_bind hw hn fun sp => ?_
  rw [handle_quiet (x := ⟨x.unwrapMath, sp⟩) hq]
  refine Does.after (m := fun _ => (Pure.pure none : P (Option (List Node × InfixFrac)))) Does.pure ?_
  exact Does.bind (r := .error K) (g := fun _ => .error K) (Does.token hk hl rfl (h sp prev _)) fun _ _ h => by cases h

/-- The source ends too early. -/
theorem stop_fails (hk : k.Plain) {x : EndToken} (hx : x ≠ .eoi) :
    Fails cfg k (.endToken x) [⟨.eoi, false⟩] l (.unclosedGroup x) := by
  intro prev nodes
  refine Does.step (G := fun n => (parser n).seqLoopStep (.endToken x) prev nodes none) (fun n => rfl) ?_
  unfold Rec.seqLoopStep
  refine Does.peek_bind rfl fun sp => ?_
  have hm : (SequenceEnd.endToken x).isMatch .eoi = false := by cases x <;> first | rfl | exact absurd rfl hx
  simp only [hm, Bool.false_eq_true, if_false]
  refine Does.after (Does.merge hk) ?_
  refine Does.next_bind rfl rfl fun sp => ?_
  refine Does.bind (r := .error (.unclosedGroup x)) (ts' := []) (g := fun _ => .error (.unclosedGroup x)) ?_ (fun _ _ h => by cases h)
  exact Does.fail

/-- What is before it is read. -/
theorem tex_fails (hk : k.Plain) (he : Plainly e) : (f : Tex) → f.proper false true = true → ∀ {ts : List Tk}, Stops ts →
    headNot continuesNumber ts = true → Fails cfg k e ts l K → Stops (tks f.lexemes ++ ts) ∧ Fails cfg k e (tks f.lexemes ++ ts) l K
  | .nil, _, ts, hs, _, hf => by
    unfold Tex.lexemes
    exact ⟨hs, hf⟩
  | .style name rest, h, _, _, _, _ => by
    unfold Tex.proper at h
    simp at h
  | .color x rest, h, _, _, _, _ => by
    unfold Tex.proper at h
    simp at h
  | .item n s rest, h, ts, hst, hnum, hf => by
    unfold Tex.proper at h
    simp only [Bool.and_eq_true] at h
    obtain ⟨hd, hh⟩ := nuc_form false n s (s.lexemes ++ rest.lexemes) h.1.1
    obtain ⟨sc, hs⟩ := scr_form s h.1.2
    obtain ⟨hr, hrf⟩ := tex_fails hk he rest h.2 hst hnum hf
    unfold Tex.lexemes
    have hfol : Follows s (s.lexemes ++ rest.lexemes) (sc.tokens ++ (tks rest.lexemes ++ ts)) := by
      refine ⟨fun h => ?_, fun h => ?_⟩
      · rw [hs.tokens, ← List.append_assoc, ← tks_append]
        refine headNot_tks (fun l hl => lexeme_continues ?_) hnum
        rw [Option.mem_def.1 hl] at h
        exact h
      · rw [hs.tokens, scr_nothing h]
        exact hr.script
    have hok := hh.ok _ hfol
    have hsok := hs.ok _ hr.script
    have e1 : tks (n.lexemes ++ (s.lexemes ++ rest.lexemes)) ++ ts = hd.tokens ++ (sc.tokens ++ (tks rest.lexemes ++ ts)) := by
      rw [hh.tokens, hs.tokens, tks_append, tks_append]
      simp only [List.append_assoc]
    obtain ⟨b, hb⟩ := hs.steady l
    have hS := fun lim => scripts_does cfg k hk sc hsok (hs.linked _) hr.starts l {} lim
    rw [hb] at hS
    obtain ⟨t0, tt, f1, f2⟩ := hh.first
    have hscript : headNot startsScript (hd.tokens ++ (sc.tokens ++ (tks rest.lexemes ++ ts))) = true := by
      rw [hh.tokens, f1]
      show (!startsScript t0) = true
      rw [f2]
      rfl
    have hlead : HasLead (hd.tokens ++ (sc.tokens ++ (tks rest.lexemes ++ ts))) := HasLead.append (HasLead.append hr.lead)
    rw [e1]
    have key : ∃ x xs, hd.tokens = x :: xs ∧ headOk false x.tok = true ∧
        Fails cfg k e (hd.tokens ++ (sc.tokens ++ (tks rest.lexemes ++ ts))) l K := by
      cases hd with
      | base b0 =>
        obtain ⟨t1, tail, g1, g2, g3⟩ := base_does cfg k hk b0 hok (hh.linked _) (scripts_head hsok hr.starts)
          (HasLead.append hr.lead)
        refine ⟨t1, tail, g1, g2, ?_⟩
        show Fails cfg k e (b0.tokens ++ _) l K
        rw [g1]
        refine round_fails hk he g2 (fun prev sp => ?_) (hS none) hrf
        obtain ⟨x, hx⟩ := hh.steady l prev (leadClass (sc.tokens ++ (tks rest.lexemes ++ ts)))
        exact ⟨x, hx ▸ g3 prev l sp⟩
      | big o =>
        have hun : o.token.unwrapMath = .op o.op := by unfold BigOp.token; cases o.char <;> rfl
        have hhead : headOk false o.token = true := by unfold BigOp.token; cases o.char <;> rfl
        refine ⟨⟨o.token, false⟩, limitsTokens o.lim, rfl, hhead, ?_⟩
        show Fails cfg k e (⟨o.token, false⟩ :: (limitsTokens o.lim ++ _)) l K
        by_cases hcat : o.op.cat = .C
        · have hnone : o.lim = none := by
            replace hok : o.ok = true := hok
            unfold BigOp.ok at hok
            rw [hcat] at hok
            exact Option.isNone_iff_eq_none.1 hok
          rw [hnone]
          show Fails cfg k e (⟨o.token, false⟩ :: (sc.tokens ++ (tks rest.lexemes ++ ts))) l K
          refine round_fails hk he (t := ⟨o.token, false⟩) hhead (fun prev sp => ?_) (hS none) hrf
          rw [hun]
          exact ⟨_, Does.token hk (HasLead.append hr.lead) rfl (arm_opC hk hcat (HasLead.append hr.lead))⟩
        · refine round_fails hk he (t := ⟨o.token, false⟩) hhead (b := {}) (fun prev sp => ?_) (does_noScripts hr.starts) hrf
          rw [hun]
          exact ⟨_, Does.token hk (HasLead.append (HasLead.append hr.lead)) rfl (arm_op hk hcat hr.lead hS)⟩
      | func x lim =>
        obtain ⟨y, tail, hy, hhead, hun⟩ := func_head x lim false
        refine ⟨⟨y, false⟩, tail, hy, hhead, ?_⟩
        show Fails cfg k e (x.tokens lim ++ _) l K
        rw [hy]
        refine round_fails hk he (t := ⟨y, false⟩) hhead (b := {}) (fun prev sp => ?_) (does_noScripts hr.starts) hrf
        dsimp only
        rw [hun]
        exact ⟨_, Does.token hk (HasLead.append (HasLead.append hr.lead)) rfl (arm_func hk hy hok hr.lead hS)⟩
    obtain ⟨x, xs, k1, k2, k3⟩ := key
    exact ⟨⟨⟨x, xs ++ (sc.tokens ++ (tks rest.lexemes ++ ts)), by rw [k1]; rfl, goesOn_iff (headOk_iff k2).1⟩, hlead, hscript⟩, k3⟩

/-! ### Openings -/

theorem brace_fails (hk : k.Plain) (he : Plainly e) (hl : HasLead ts) (hf : Fails cfg k (.endToken .groupClose) ts l K) :
    Fails cfg k e (⟨.groupBegin, false⟩ :: ts) l K := by
  refine head_fails hk he (t := ⟨.groupBegin, false⟩) (fin := []) rfl fun prev sp => ?_
  refine Does.token hk hl rfl ?_
  exact arm_group (F := .error K) (fol := []) (by simp) (hf .opening [])

theorem left_fails (hk : k.Plain) (he : Plainly e) {d : DelimRow} (hd : d ∈ delimRows) (hl : HasLead ts)
    (hf : Fails cfg k (.endToken .right) ts l K) :
    Fails cfg k e (⟨.left, false⟩ :: ⟨d.written.tok, false⟩ :: ts) l K := by
  obtain ⟨-, d2, d3, -⟩ := delim_known hd
  simp only [Bool.and_eq_true, Bool.not_eq_true'] at d2
  obtain ⟨o, ho⟩ := d3 .left
  refine head_fails hk he (t := ⟨.left, false⟩) (fin := []) rfl fun prev sp => ?_
  have hl' : HasLead ((⟨d.written.tok, false⟩ : Tk) :: ts) := HasLead.append (ts := [_]) hl
  refine Does.token hk hl' rfl ?_
  have := arm_fence (cfg := cfg) (k := k) (l := l) (sp := sp) (pa := .sequence) (prev := prev) (nx := l.seen (if ParseAs.sequence.inSequence then
    leadClass ((⟨d.written.tok, false⟩ : Tk) :: ts) else .default)) (lt := ⟨d.written.tok, false⟩) (rt := ⟨d.written.tok, false⟩)
    (F := .error K) (fol := []) d2.2 d2.1 d2.2 d2.1 (hf .opening [])
  dsimp only at this
  rw [ho] at this
  exact this

theorem begin_fails (hk : k.Plain) (he : Plainly e) {x : Env} (hx : noSpec x = true) (hs : Stops ts)
    (hf : Fails cfg k (.endToken .endEnv) ts { l with style := envStyle x, env := envState x } K) :
    Fails cfg k e (⟨.beginEnv x, false⟩ :: ts) l K := by
  refine head_fails hk he (t := ⟨.beginEnv x, false⟩) (fin := []) rfl fun prev sp => ?_
  refine Does.token hk hs.lead rfl ?_
  have hok : ({} : EnvArgs).ok x = true := by
    show (noSpec x && true) = true
    rw [hx]
    rfl
  exact arm_env (o := {}) (e' := x) (F := .error K) (fol := []) hok hs.starts (hf .opening [])

/-- An environment which is closed under another name -/
theorem renamed_fails (hk : k.Plain) (he : Plainly e) {x x' : Env} (hx : noSpec x = true) (hnum : envNumbering x = none) (hne : x' ≠ x)
    {ls : List Lexeme} {rows : List (List (List Tree))} {f : Form} (hf : TableGood ls rows (envColumns x) f) (hl : HasLead ts)
    (hw : ∃ t rest, ts = t :: rest ∧ t.tok.isWs = false) :
    Fails cfg k e (⟨.beginEnv x, false⟩ :: (tks ls ++ ⟨.endEnv x', false⟩ :: ts)) l (.mismatchedEnvironment x x') := by
  have hok : (Base.env x x' {} f).ok false ts = true := by
    show ((noSpec x && true) && f.ok false) = true
    rw [hx, hf.ok]
    rfl
  obtain ⟨t1, tail, g1, g2, g3⟩ := base_does cfg k hk (.env x x' {} f) hok (hf.linked _) hw hl
  have e1 : (⟨.beginEnv x, false⟩ : Tk) :: (tks ls ++ ⟨.endEnv x', false⟩ :: ts) = t1 :: (tail ++ ts) := by
    rw [← List.cons_append (a := t1), ← g1]
    show _ = ((⟨.beginEnv x, false⟩ : Tk) :: ([] : List Tk) ++ f.tokens ++ [⟨.endEnv x', false⟩]) ++ ts
    rw [hf.tokens]
    simp
  rw [e1]
  refine head_fails (fin := ts) hk he g2 fun prev sp => ?_
  have h := g3 prev l sp
  have hu : (envState x).numbered = none := by
    show (envNumbering x).map _ = none
    rw [hnum]
    rfl
  obtain ⟨ns, hn⟩ := hf.steady { l with style := envStyle x, env := envState x } hu id .ending .opening
  have hd : (Base.env x x' {} f).denote l prev (leadClass ts) = .error (.mismatchedEnvironment x x') := by
    unfold Base.denote
    have hc : ({} : EnvArgs).columns x = .ok none := by cases x <;> first | rfl | cases hx
    rw [hc]
    show (Form.denote f _ _ _ >>= fun r' => endEnv x x' none none r'.1 l r'.2) = _
    rw [hn]
    show endEnv x x' none none ns l _ = _
    unfold endEnv
    rw [if_pos hne]
  rw [hd] at h
  exact h

theorem last_lead (ts : List Tk) : HasLead (ts ++ [⟨.eoi, false⟩]) := HasLead.append ⟨_, List.mem_singleton.2 rfl, rfl⟩

/-- A token which does not belong -/
theorem clean_stops {x : Token} (h : clean x = true) (hs : startsScript x = false) (ts : List Tk) :
    Stops (⟨x, false⟩ :: ts ++ [⟨.eoi, false⟩]) :=
  ⟨⟨_, _, rfl, h⟩, last_lead (⟨x, false⟩ :: ts), by show (!startsScript x) = true; rw [hs]; rfl⟩

/-! ### Arguments -/

/-- A nucleus whose scripts cannot be read -/
theorem round_bounds (hk : k.Plain) (he : Plainly e) (hh : headOk false t.tok = true)
    (hB : ∀ prev sp, ∃ x, Does cfg k (fun n => (parser n).parseToken ⟨t.tok.unwrapMath, sp⟩ .sequence prev) ts l ts' (.ok (x, l)))
    (hS : Does cfg k (fun n => (parser n).getBounds none {}) ts' l [] (.error K)) : Fails cfg k e (t :: ts) l K := by
  intro prev nodes
  obtain ⟨hg, hq⟩ := headOk_iff hh
  obtain ⟨hw, hn, -, -⟩ := clean_iff.1 (goesOn_iff hg)
  refine Does.step (G := fun n => (parser n).seqLoopStep e prev nodes none) (fun n => rfl) ?_
  unfold Rec.seqLoopStep
  refine Does.peek_bind hw fun sp => ?_
  simp only [goesOn_noMatch hg fun _ => he.1, Bool.false_eq_true, if_false]
  refine Does.after (Does.merge hk) ?_
  refine Does.next_bind hw hn fun sp => ?_
  rw [handle_quiet (x := ⟨t.tok.unwrapMath, sp⟩) hq]
  refine Does.after (m := fun _ => (Pure.pure none : P (Option (List Node × InfixFrac)))) Does.pure ?_
  obtain ⟨x, hx⟩ := hB prev sp
  refine Does.after hx ?_
  unfold Rec.seqTarget
  exact Does.bind (r := .error K) (g := fun _ => .error K) hS fun _ _ h => by cases h

theorem scripts_fail (hk : k.Plain) (he : Plainly e) {ls : List Lexeme} {tree : Tree} {limits : Bool} {follows : List Tk → Prop}
    {hd : Head} (hh : HeadGood ls tree limits false follows hd) (hfol : follows ts) (hlead : HasLead ts)
    (hw : ∃ t rest, ts = t :: rest ∧ t.tok.isWs = false)
    (hB : ∀ lim, Does cfg k (fun n => (parser n).getBounds none ⟨{}, lim⟩) ts l [] (.error K)) :
    Stops (tks ls ++ ts) ∧ Fails cfg k e (tks ls ++ ts) l K := by
  have hok := hh.ok _ hfol
  obtain ⟨t0, tt, f1, f2⟩ := hh.first
  have hscript : headNot startsScript (tks ls ++ ts) = true := by
    rw [f1]
    show (!startsScript t0) = true
    rw [f2]
    rfl
  have key : ∃ x xs, hd.tokens = x :: xs ∧ headOk false x.tok = true ∧ Fails cfg k e (hd.tokens ++ ts) l K := by
    cases hd with
    | base b0 =>
      obtain ⟨t1, tail, g1, g2, g3⟩ := base_does cfg k hk b0 hok (hh.linked _) hw hlead
      refine ⟨t1, tail, g1, g2, ?_⟩
      show Fails cfg k e (b0.tokens ++ _) l K
      rw [g1]
      refine round_bounds hk he g2 (fun prev sp => ?_) (hB none)
      obtain ⟨x, hx⟩ := hh.steady l prev (leadClass ts)
      exact ⟨x, hx ▸ g3 prev l sp⟩
    | big o =>
      have hun : o.token.unwrapMath = .op o.op := by unfold BigOp.token; cases o.char <;> rfl
      have hhead : headOk false o.token = true := by unfold BigOp.token; cases o.char <;> rfl
      refine ⟨⟨o.token, false⟩, limitsTokens o.lim, rfl, hhead, ?_⟩
      show Fails cfg k e (⟨o.token, false⟩ :: (limitsTokens o.lim ++ _)) l K
      by_cases hcat : o.op.cat = .C
      · have hnone : o.lim = none := by
          replace hok : o.ok = true := hok
          unfold BigOp.ok at hok
          rw [hcat] at hok
          exact Option.isNone_iff_eq_none.1 hok
        rw [hnone]
        show Fails cfg k e (⟨o.token, false⟩ :: ts) l K
        refine round_bounds hk he (t := ⟨o.token, false⟩) hhead (fun prev sp => ?_) (hB none)
        rw [hun]
        exact ⟨_, Does.token hk hlead rfl (arm_opC hk hcat hlead)⟩
      · refine head_fails hk he (t := ⟨o.token, false⟩) (fin := [⟨.eoi, false⟩]) hhead fun prev sp => ?_
        rw [hun]
        exact Does.token hk (HasLead.append hlead) rfl (arm_op (B := .error K) hk hcat ⟨_, List.mem_singleton.2 rfl, rfl⟩ hB)
    | func x lim =>
      obtain ⟨y, tail, hy, hhead, hun⟩ := func_head x lim false
      refine ⟨⟨y, false⟩, tail, hy, hhead, ?_⟩
      show Fails cfg k e (x.tokens lim ++ _) l K
      rw [hy]
      refine head_fails hk he (t := ⟨y, false⟩) (fin := [⟨.eoi, false⟩]) hhead fun prev sp => ?_
      dsimp only
      rw [hun]
      exact Does.token hk (HasLead.append hlead) rfl (arm_func (B := .error K) hk hy hok ⟨_, List.mem_singleton.2 rfl, rfl⟩ hB)
  obtain ⟨x, xs, k1, k2, k3⟩ := key
  rw [hh.tokens] at k1 k3
  exact ⟨⟨⟨x, xs ++ ts, by rw [k1]; rfl, goesOn_iff (headOk_iff k2).1⟩, HasLead.append hlead, hscript⟩, k3⟩

/-- No argument can be read here. -/
structure ArgFails (cfg : ParserConfig) (k : Ctx) (env : EnvState) (t : Tk) (ts : List Tk) (K : LatexErrKind) : Prop where
  ws : t.tok.isWs = false
  named : Named t.tok.unwrapMath = true
  square : t.tok.unwrapMath.isSquareOpen = false
  lead : HasLead (t :: ts)
  token : ∀ (l : Loc) sp pa, l.env = env → pa = .arg ∨ pa = .argWithSpace →
    Does cfg k (fun n => (parser n).parseToken ⟨t.tok.unwrapMath, sp⟩ pa .default) ts l [] (.error K)
  script : ∀ l : Loc, l.env = env → Does cfg k (fun n => (parser n).parseScript) (t :: ts) l [] (.error K)

theorem ArgFails.next {env : EnvState} (h : ArgFails cfg k env t ts K) (hl : l.env = env) {pa : ParseAs}
    (hpa : pa = .arg ∨ pa = .argWithSpace) : Does cfg k (fun n => (parser n).parseNext pa) (t :: ts) l [] (.error K) :=
  does_next (N := .error K) h.ws h.named fun sp => h.token l sp pa hl hpa

/-- Something whose script cannot be read -/
theorem mark_fails (hk : k.Plain) (he : Plainly e) {n : Nuc} {above : Bool} (hn : (Taker.script n above).proper = true)
    {ls : List Lexeme} (hlead : HasLead (tks ls ++ ts))
    (hB : ∀ lim, Does cfg k (fun n => (parser n).getBounds none ⟨{}, lim⟩) (tks (scriptMark above :: ls) ++ ts) l [] (.error K)) :
    (∀ l ∈ (Taker.script n above).lexemes, l.fixed = true) ∧
    Stops (tks ((Taker.script n above).lexemes ++ ls) ++ ts) ∧ Fails cfg k e (tks ((Taker.script n above).lexemes ++ ls) ++ ts) l K := by
  obtain ⟨hd, hh⟩ := nuc_form false n (someScript above) [scriptMark above] hn
  have e0 : tks (scriptMark above :: ls) = ⟨if above then .circumflex else .underscore, false⟩ :: tks ls := by cases above <;> rfl
  have e1 : tks ((Taker.script n above).lexemes ++ ls) ++ ts = tks n.lexemes ++ (tks (scriptMark above :: ls) ++ ts) := by
    show tks ((n.lexemes ++ [scriptMark above]) ++ ls) ++ ts = _
    rw [List.append_assoc, tks_append, List.append_assoc]
    rfl
  rw [e1]
  refine ⟨fixed_append hh.fixed (fixed_one (by cases above <;> rfl)), ?_⟩
  refine scripts_fail hk he hh ⟨fun _ => ?_, fun h => ?_⟩ ?_ ?_ hB
  · rw [e0]; cases above <;> rfl
  · cases above <;> cases h
  · rw [e0]
    exact HasLead.append (ts := [_]) hlead
  · rw [e0]
    exact ⟨_, _, rfl, by cases above <;> rfl⟩

theorem does_mark {above : Bool} {b : Bounds} {lim : Option (LimitsKind × Span)}
    (h : Does cfg k (fun n => (parser n).parseScript) ts l [] (.error K)) :
    Does cfg k (fun n => (parser n).getBounds none ⟨b, lim⟩) (⟨if above then .circumflex else .underscore, false⟩ :: ts) l [] (.error K) := by
  have h2 : ∀ l b, Does cfg k (fun n => (parser n).getBounds none ⟨b, lim⟩) [⟨.eoi, false⟩] l [⟨.eoi, false⟩] (boundsRes lim (.ok (b, l))) :=
    fun l b => does_noScripts ⟨_, _, rfl, rfl⟩
  cases above with
  | false => exact does_sub (ts' := [⟨.eoi, false⟩]) (fol := [⟨.eoi, false⟩]) (N := .error K) (S := fun l b => .ok (b, l)) h h2
  | true => exact does_sup (ts' := [⟨.eoi, false⟩]) (fol := [⟨.eoi, false⟩]) (N := .error K) (S := fun l b => .ok (b, l)) (kind := .circumflex) (Or.inl ⟨rfl, rfl⟩) h h2

theorem fraction_known {binomial : Bool} {name : Str} (h : name ∈ if binomial then binomialNames else fractionNames) :
    ∃ attr, fixedTok name = some (if binomial then .binom attr else .frac attr) := by
  cases binomial with
  | false =>
    have hr := List.all_eq_true.1 fractions_known name h
    split at hr
    · rename_i attr heq
      exact ⟨attr, heq⟩
    · cases hr
  | true =>
    have hr := List.all_eq_true.1 binomials_known name h
    split at hr
    · rename_i attr heq
      exact ⟨attr, heq⟩
    · cases hr

theorem eoi_next {pa : ParseAs} (hpa : pa = .arg ∨ pa = .argWithSpace) :
    Does cfg k (fun n => (parser n).parseNext pa) [⟨.eoi, false⟩] l [] (.error .expectedArgumentGotEOI) := by
  refine does_next (t := ⟨.eoi, false⟩) (N := .error .expectedArgumentGotEOI) rfl rfl fun sp => ?_
  refine Does.token_arg (by rcases hpa with rfl | rfl <;> rfl) ?_
  unfold Rec.parseArm
  exact Does.get_bind fun s _ => Does.fail

/-- The first argument of a fraction cannot be read. -/
theorem frac_first {sp : Span} {attr : Option FracAttr} {isBinom : Bool} {pa : ParseAs} {prev nx : Class}
    (h : Does cfg k (fun n => (parser n).parseNext .arg) ts { l with style := fractionStyle l.style attr } [] (.error K)) :
    Does cfg k (fun n => (parser n).parseArm ⟨if isBinom then .binom attr else .frac attr, sp⟩ pa prev nx) ts l [] (.error K) :=
  arm_frac (N := .error K) (ts' := [⟨.eoi, false⟩]) (D := fun _ => .error .expectedArgumentGotEOI) h fun _ => eoi_next (Or.inl rfl)

/-- The second argument of a fraction cannot be read. -/
theorem frac_second {sp : Span} {attr : Option FracAttr} {isBinom : Bool} {pa : ParseAs} {prev nx : Class} {num : Node}
    (h1 : Does cfg k (fun n => (parser n).parseNext .arg) ts { l with style := fractionStyle l.style attr } ts'
      (.ok (num, { l with style := fractionStyle l.style attr })))
    (h2 : Does cfg k (fun n => (parser n).parseNext .arg) ts' { l with style := fractionStyle l.style attr } [] (.error K)) :
    Does cfg k (fun n => (parser n).parseArm ⟨if isBinom then .binom attr else .frac attr, sp⟩ pa prev nx) ts l [] (.error K) := by
  rw [fractionStyle_eq] at h1 h2
  unfold Rec.parseArm
  refine Does.get_bind fun s _ => ?_
  have h : Does cfg k (fun n => (parser n).parseFrac attr isBinom) ts l [] (.error K) := by
    unfold Rec.parseFrac
    refine Does.get_bind fun s0 hs0 => ?_
    refine Does.modify_bind (fun s => rfl) (l' := { l with style := Rec.fracStyle l.style attr })
      (fun s hs => by rw [ctx_style hs]; exact at_style hs) ?_
    refine Does.after h1 ?_
    exact Does.bind (r := .error K) (g := fun _ => .error K) h2 fun _ _ h => by cases h
  cases isBinom <;> exact h

theorem accent_known {r : AccentRow} (h : r ∈ accentRows) : ∃ o isOver attrs, fixedTok r.name = some (.accent o isOver attrs) := by
  have hr := List.all_eq_true.1 accents_known r h
  split at hr
  · rename_i o isOver attrs heq
    exact ⟨o, isOver, attrs, heq⟩
  · cases hr

/-- A command whose argument cannot be read -/
theorem command_fails (hk : k.Plain) (he : Plainly e) {name : Str} {y : Token} {ls : List Lexeme} (h1 : fixedTok name = some y)
    (h2 : headOk false y = true) (h3 : startsScript y = false) (h4 : y.unwrapMath = y)
    (he1 : tks ls ++ [⟨.eoi, false⟩] = ts)
    (h : ∀ sp prev nx, Does cfg k (fun n => (parser n).parseArm ⟨y, sp⟩ .sequence prev nx) ts l [] (.error K)) :
    (∀ l ∈ [Lexeme.command name], l.fixed = true) ∧ Stops (tks ([.command name] ++ ls) ++ [⟨.eoi, false⟩]) ∧
      Fails cfg k e (tks ([.command name] ++ ls) ++ [⟨.eoi, false⟩]) l K := by
  have e1 : tks ([.command name] ++ ls) ++ [⟨.eoi, false⟩] = ⟨y, false⟩ :: (tks ls ++ [⟨.eoi, false⟩]) := by
    show tks (.command name :: ls) ++ _ = _
    rw [tks_cons, tok_cmd h1]
    rfl
  rw [e1]
  refine ⟨fixed_one (fixed_cmd h1), clean_stops (goesOn_iff (headOk_iff h2).1) h3 _, ?_⟩
  refine head_fails hk he (t := ⟨y, false⟩) (fin := []) h2 fun prev sp => ?_
  show Does cfg k (fun n => (parser n).parseToken ⟨y.unwrapMath, sp⟩ _ _) _ _ _ _
  rw [h4]
  rw [he1]
  exact Does.token hk (he1 ▸ last_lead _) rfl (h sp prev _)

/-- What must be followed by an argument, without one -/
theorem taker_fails (hk : k.Plain) (he : Plainly e) {x : Taker} (hx : x.proper = true) {ls : List Lexeme}
    (he1 : tks ls ++ [⟨.eoi, false⟩] = t :: ts) (h : ArgFails cfg k l.env t ts K) :
    (∀ l ∈ x.lexemes, l.fixed = true) ∧ Stops (tks (x.lexemes ++ ls) ++ [⟨.eoi, false⟩]) ∧
      Fails cfg k e (tks (x.lexemes ++ ls) ++ [⟨.eoi, false⟩]) l K := by
  have first : ∀ {y : Token} {name : Str} {ls' : List Lexeme}, fixedTok name = some y → clean y = true → startsScript y = false →
      Stops (tks (.command name :: ls') ++ [⟨.eoi, false⟩]) := by
    intro y name ls' h1 h2 h3
    rw [tks_cons, tok_cmd h1]
    exact clean_stops h2 h3 _
  cases x with
  | root =>
    exact command_fails hk he structure_known.1 rfl rfl rfl he1 fun sp prev nx =>
      arm_sqrt (N := .error K) h.ws h.named h.square fun sp => h.token l sp .arg rfl (Or.inl rfl)
  | accent row =>
    obtain ⟨o, isOver, attrs, k1⟩ := accent_known (of_decide_eq_true hx)
    refine command_fails hk he k1 rfl rfl rfl he1 fun sp prev nx =>
      arm_deco (d := .accent o isOver attrs) (A := .error K) rfl (h.next rfl ?_)
    split
    · exact Or.inl rfl
    · exact Or.inr rfl
  | brace row =>
    obtain ⟨x, k1, -⟩ := brace_known (of_decide_eq_true hx)
    refine command_fails hk he k1 rfl rfl rfl he1 fun sp prev nx => ?_
    exact arm_brace (A := .error K) (t := ⟨.eoi, false⟩) (fol := []) (h.next rfl (Or.inr rfl)) rfl (by cases row.over <;> rfl)
  | phantom name =>
    have k1 : ∃ kind, fixedTok name = some (.phantom kind) := by
      have hr := List.all_eq_true.1 phantoms_known name (of_decide_eq_true hx)
      unfold phantomRight at hr
      split at hr
      · rename_i heq; exact ⟨_, heq⟩
      · rename_i heq; exact ⟨_, heq⟩
      · cases hr
    obtain ⟨kind, k1⟩ := k1
    refine command_fails hk he k1 rfl rfl rfl he1 fun sp prev nx => arm_deco (d := .phantom kind) (A := .error K) rfl (h.next rfl ?_)
    split
    · exact Or.inl rfl
    · exact Or.inr rfl
  | stroke row =>
    have k1 : ∃ n, fixedTok row.1 = some (.enclose n) := by
      have hr := List.all_eq_true.1 strokes_known row (of_decide_eq_true hx)
      split at hr
      · rename_i heq; exact ⟨_, heq⟩
      · cases hr
    obtain ⟨n, k1⟩ := k1
    refine command_fails hk he k1 rfl rfl rfl he1 fun sp prev nx => arm_deco (d := .enclose n) (A := .error K) rfl (h.next rfl ?_)
    split
    · exact Or.inl rfl
    · exact Or.inr rfl
  | stack over =>
    have k1 : fixedTok (if over then c!"overset" else c!"underset") = some (if over then .overset else .underset) := by
      cases over with
      | true => exact structure_known.2.2.2.1
      | false => exact structure_known.2.2.2.2.1
    refine command_fails hk he k1 (by cases over <;> rfl) (by cases over <;> rfl) (by cases over <;> rfl) he1 fun sp prev nx => ?_
    have key : Does cfg k (fun n => (parser n).parseOverset over prev) (t :: ts) l [] (.error K) := by
      unfold Rec.parseOverset
      refine Does.get_bind fun s0 hs0 => ?_
      refine Does.modify_bind (fun s => rfl) (l' := { l with style := .script }) (fun s hs => at_style hs) ?_
      exact Does.bind (r := .error K) (g := fun _ => .error K) (h.next (l := { l with style := .script }) rfl (Or.inl rfl)) fun _ _ h => by cases h
    unfold Rec.parseArm
    refine Does.get_bind fun s _ => ?_
    cases over <;> exact key
  | arrow row =>
    obtain ⟨rel, k1, -⟩ := arrow_known (of_decide_eq_true hx)
    refine command_fails hk he k1 rfl rfl rfl he1 fun sp prev nx => ?_
    exact arm_arrow (fol := [⟨.eoi, false⟩]) (N := .error K) hk (last_lead []) h.ws h.named h.square fun sp =>
      h.token { l with style := .script, stacked := true } sp .arg rfl (Or.inl rfl)
  | fraction binomial name =>
    obtain ⟨attr, k1⟩ := fraction_known (of_decide_eq_true hx)
    refine ⟨fixed_one (fixed_cmd k1), first k1 (by cases binomial <;> rfl) (by cases binomial <;> rfl), ?_⟩
    show Fails cfg k e (tks (.command name :: ls) ++ _) l K
    rw [tks_cons, tok_cmd k1, List.cons_append, he1]
    refine head_fails hk he (t := ⟨if binomial then .binom attr else .frac attr, false⟩) (fin := []) (by cases binomial <;> rfl)
      fun prev sp => ?_
    have hu : (if binomial then Token.binom attr else .frac attr).unwrapMath = if binomial then .binom attr else .frac attr := by
      cases binomial <;> rfl
    show Does cfg k (fun n => (parser n).parseToken ⟨Token.unwrapMath (if binomial then .binom attr else .frac attr), sp⟩ _ _) _ _ _ _
    rw [hu]
    refine Does.token hk h.lead (by cases binomial <;> rfl) ?_
    exact frac_first (h.next (l := { l with style := fractionStyle l.style attr }) rfl (Or.inl rfl))
  | over binomial name a =>
    unfold Taker.proper at hx
    rw [Bool.and_eq_true, decide_eq_true_eq] at hx
    obtain ⟨attr, k1⟩ := fraction_known hx.1
    obtain ⟨A, hA⟩ := arg_form a hx.2
    refine ⟨fixed_cons (fixed_cmd k1) hA.fixed, first k1 (by cases binomial <;> rfl) (by cases binomial <;> rfl), ?_⟩
    show Fails cfg k e (tks (.command name :: (a.lexemes ++ ls)) ++ _) l K
    rw [tks_cons, tok_cmd k1, List.cons_append, tks_append, List.append_assoc, he1, ← hA.tokens]
    refine head_fails hk he (t := ⟨if binomial then .binom attr else .frac attr, false⟩) (fin := []) (by cases binomial <;> rfl)
      fun prev sp => ?_
    have hu : (if binomial then Token.binom attr else .frac attr).unwrapMath = if binomial then .binom attr else .frac attr := by
      cases binomial <;> rfl
    show Does cfg k (fun n => (parser n).parseToken ⟨Token.unwrapMath (if binomial then .binom attr else .frac attr), sp⟩ _ _) _ _ _ _
    rw [hu]
    refine Does.token hk (HasLead.append h.lead) (by cases binomial <;> rfl) ?_
    obtain ⟨num, hnum⟩ := hA.steady true { l with style := fractionStyle l.style attr }
    refine frac_second (ts' := t :: ts) (num := num) ?_ (h.next (l := { l with style := fractionStyle l.style attr }) rfl (Or.inl rfl))
    rw [← hnum]
    exact arg_next cfg k hk A hA.ok (hA.linked _) (Or.inl ⟨rfl, rfl⟩)
  | script n above =>
    have h1 := mark_fails (cfg := cfg) (l := l) (K := K) (e := e) (ts := [⟨.eoi, false⟩]) (ls := ls) hk he hx (by rw [he1]; exact h.lead) (fun lim => by
      have e0 : tks (scriptMark above :: ls) = ⟨if above then .circumflex else .underscore, false⟩ :: tks ls := by cases above <;> rfl
      rw [e0, List.cons_append, he1]
      exact does_mark (h.script l rfl))
    exact h1

/-! ### The whole formula -/

theorem rows_named : (tableRows.all fun r => match Env.fromStr r.name with
    | some e => e.asStr == r.name
    | none => false) = true := by decide +kernel

theorem row_named {r : TableRow} (h : r ∈ tableRows) {e : Env} (he : Env.fromStr r.name = some e) : e.asStr = r.name := by
  have := List.all_eq_true.1 rows_named r h
  rw [he] at this
  simpa using this

theorem endFor_plainly (o : Option Opening) : Plainly (.endToken (endFor o)) := by
  cases o with
  | none => exact ⟨nofun, nofun⟩
  | some o => cases o <;> exact ⟨nofun, nofun⟩

theorem here_fails (hk : k.Plain) (x : Stray) (rest : Tex) {around : Option Opening} {columns : Bool}
    (h : x.misplaced around columns = true) (hstop : x.lexemes = [] → rest.lexemes = []) :
    ∃ K, (Broken.here .nil x rest).Reason around K ∧ Stops (tks (x.lexemes ++ rest.lexemes) ++ [⟨.eoi, false⟩]) ∧
      headNot continuesNumber (tks (x.lexemes ++ rest.lexemes) ++ [⟨.eoi, false⟩]) = true ∧
      (∀ l ∈ x.lexemes, l.fixed = true) ∧ ∀ l : Loc, l.env.allowColumns = columns →
      Fails cfg k (.endToken (endFor around)) (tks (x.lexemes ++ rest.lexemes) ++ [⟨.eoi, false⟩]) l K := by
  cases x with
  | stop =>
    cases around with
    | none => cases h
    | some o =>
      show ∃ K, _ ∧ Stops (tks ([] ++ rest.lexemes) ++ _) ∧ headNot continuesNumber (tks ([] ++ rest.lexemes) ++ _) = true ∧ _ ∧
        ∀ l : Loc, _ → Fails _ _ _ (tks ([] ++ rest.lexemes) ++ _) _ _
      rw [hstop rfl]
      refine ⟨.unclosedGroup o.closing, rfl, ?_, rfl, nofun, fun l _ => stop_fails hk (by cases o <;> exact nofun)⟩
      exact ⟨⟨_, _, rfl, rfl⟩, last_lead [], rfl⟩
  | brace =>
    refine ⟨.unmatchedClose .groupClose, rfl, clean_stops (x := .groupEnd) rfl rfl _, rfl, fixed_one rfl, fun l hc => ?_⟩
    refine token_fails hk (x := .groupEnd) (fin := []) (last_lead _) rfl rfl ?_ rfl fun sp prev nx => ?_
    · replace h := of_decide_eq_true h
      cases around with
      | none => rfl
      | some o => cases o <;> first | rfl | exact absurd rfl h
    · unfold Rec.parseArm
      exact Does.get_bind fun s _ => Does.fail
  | amp =>
    refine ⟨.cannotBeUsedHere .ampersand .tableEnv, rfl, clean_stops (x := .newColumn) rfl rfl _, rfl, fixed_one rfl, fun l hc => ?_⟩
    refine token_fails hk (x := .newColumn) (fin := []) (last_lead _) rfl rfl ?_ rfl fun sp prev nx => ?_
    · rcases around with - | (- | - | - | -) <;> rfl
    · unfold Rec.parseArm
      refine Does.get_bind fun s hs => ?_
      have : s.env.allowColumns = false := by
        have e1 : s.env = l.env := congrArg Ctx.env hs
        rw [e1, hc]
        simpa [Stray.misplaced] using h
      show Does cfg k (fun _ => if s.env.allowColumns then _ else _) _ _ _ _
      rw [this]
      exact Does.fail
  | dollar =>
    refine ⟨.unexpectedDollar, rfl, clean_stops (x := .dollar) rfl rfl _, rfl, fixed_one rfl, fun l hc => ?_⟩
    refine token_fails hk (x := .dollar) (fin := []) (last_lead _) rfl rfl ?_ rfl fun sp prev nx => ?_
    · rcases around with - | (- | - | - | -) <;> rfl
    · unfold Rec.parseArm
      exact Does.get_bind fun s _ => Does.fail
  | right d =>
    simp only [Stray.misplaced, Bool.and_eq_true, decide_eq_true_eq] at h
    have k2 := structure_known.2.2.1
    have e1 : tks (Stray.lexemes (.right d) ++ rest.lexemes) = ⟨.right, false⟩ :: tks (d.written :: rest.lexemes) := by
      show tks (.command c!"right" :: d.written :: rest.lexemes) = _
      rw [tks_cons, tok_cmd k2]
      rfl
    rw [e1]
    refine ⟨.unmatchedClose .right, rfl, clean_stops (x := .right) rfl rfl _, rfl, ?_, fun l hc => ?_⟩
    · exact fixed_cons (fixed_cmd k2) (fixed_one (delim_known h.1).1)
    · refine token_fails hk (x := .right) (fin := []) (last_lead _) rfl rfl ?_ rfl fun sp prev nx => ?_
      · obtain ⟨-, h0⟩ := h
        cases around with
        | none => rfl
        | some o => cases o <;> first | rfl | exact absurd rfl h0
      · unfold Rec.parseArm
        exact Does.get_bind fun s _ => Does.fail
  | ends row =>
    simp only [Stray.misplaced, Bool.and_eq_true, decide_eq_true_eq] at h
    obtain ⟨x, h1, -⟩ := env_known h.1
    have e1 : tks (Stray.lexemes (.ends row) ++ rest.lexemes) = ⟨.endEnv x, false⟩ :: tks rest.lexemes := by
      show (⟨.endEnv ((Env.fromStr row.name).getD .matrix), false⟩ : Tk) :: _ = _
      rw [h1]
      rfl
    rw [e1]
    refine ⟨.unmatchedClose .endEnv, rfl, clean_stops (x := .endEnv x) rfl rfl _, rfl, ?_, fun l hc => ?_⟩
    · exact fixed_one (by show (Env.fromStr row.name).isSome = true; rw [h1]; rfl)
    · refine token_fails hk (x := .endEnv x) (fin := []) (last_lead _) rfl rfl ?_ rfl fun sp prev nx => ?_
      · obtain ⟨-, h0⟩ := h
        cases around with
        | none => rfl
        | some o => cases o <;> first | rfl | exact absurd rfl h0
      · unfold Rec.parseArm
        exact Does.get_bind fun s _ => Does.fail

/-- No argument can begin with these. -/
theorem stray_arg (s : Stray) (rest : Tex) (h : s.noArgument = true) (hstop : s.lexemes = [] → rest.lexemes = []) :
    ∃ K t ts, (∀ f x around, (Broken.missing f x s rest).Reason around K) ∧ (∀ l ∈ s.lexemes, l.fixed = true) ∧
      tks (s.lexemes ++ rest.lexemes) ++ [⟨.eoi, false⟩] = t :: ts ∧ ∀ env, ArgFails cfg k env t ts K := by
  have closes : ∀ {x : Token}, argHead x = true → x.unwrapMath = x →
      (∀ pa, pa = .arg ∨ pa = .argWithSpace → ∀ (l : Loc) sp ts,
        Does cfg k (fun n => (parser n).parseArm ⟨x, sp⟩ pa .default .default) ts l [] (.error .expectedArgumentGotClose)) →
      ∀ (ts : List Tk) env, ArgFails cfg k env ⟨x, false⟩ (ts ++ [⟨.eoi, false⟩]) .expectedArgumentGotClose := by
    intro x h1 h2 h3 ts env
    obtain ⟨g4, g5, g6⟩ := argHead_iff h1
    have token : ∀ (l : Loc) sp pa, pa = .arg ∨ pa = .argWithSpace → Does cfg k
        (fun n => (parser n).parseToken ⟨x.unwrapMath, sp⟩ pa .default) (ts ++ [⟨.eoi, false⟩]) l [] (.error .expectedArgumentGotClose) := by
      intro l sp pa hpa
      rw [h2]
      exact Does.token_arg (by rcases hpa with rfl | rfl <;> rfl) (h3 pa hpa l sp _)
    refine ⟨g4, g5, g6, last_lead (⟨x, false⟩ :: ts), fun l sp pa _ hpa => token l sp pa hpa, fun l _ => ?_⟩
    exact does_script (N := .error .expectedArgumentGotClose) h1 fun sp => token _ sp .arg (Or.inl rfl)
  cases s with
  | amp => cases h
  | dollar => cases h
  | stop =>
    refine ⟨.expectedArgumentGotEOI, ⟨.eoi, false⟩, [], fun _ _ _ => rfl, nofun, ?_, fun env => ?_⟩
    · show tks ([] ++ rest.lexemes) ++ _ = _
      rw [hstop rfl]
      rfl
    · refine ⟨rfl, rfl, rfl, last_lead [], fun l sp pa _ hpa => ?_, fun l _ => ?_⟩
      · refine Does.token_arg (by rcases hpa with rfl | rfl <;> rfl) ?_
        unfold Rec.parseArm
        exact Does.get_bind fun s _ => Does.fail
      · unfold Rec.parseScript
        exact Does.next_bind rfl rfl fun sp => Does.fail
  | brace =>
    refine ⟨.expectedArgumentGotClose, ⟨.groupEnd, false⟩, _, fun _ _ _ => rfl, fixed_one rfl, rfl, closes (x := .groupEnd) rfl rfl (fun pa hpa l sp ts => ?_) (tks rest.lexemes)⟩
    unfold Rec.parseArm
    refine Does.get_bind fun s _ => ?_
    rcases hpa with rfl | rfl <;> exact Does.fail
  | right d =>
    replace h : d ∈ delimRows := of_decide_eq_true h
    have k2 := structure_known.2.2.1
    have e1 : tks (Stray.lexemes (.right d) ++ rest.lexemes) = ⟨.right, false⟩ :: tks (d.written :: rest.lexemes) := by
      show tks (.command c!"right" :: d.written :: rest.lexemes) = _
      rw [tks_cons, tok_cmd k2]
      rfl
    rw [e1]
    refine ⟨.expectedArgumentGotClose, ⟨.right, false⟩, _, fun _ _ _ => rfl,
      fixed_cons (fixed_cmd k2) (fixed_one (delim_known h).1), rfl, closes (x := .right) rfl rfl (fun pa hpa l sp ts => ?_) (tks (d.written :: rest.lexemes))⟩
    unfold Rec.parseArm
    refine Does.get_bind fun s _ => ?_
    rcases hpa with rfl | rfl <;> exact Does.fail
  | ends row =>
    replace h : row ∈ tableRows := of_decide_eq_true h
    obtain ⟨x, h1, -⟩ := env_known h
    have e1 : tks (Stray.lexemes (.ends row) ++ rest.lexemes) = ⟨.endEnv x, false⟩ :: tks rest.lexemes := by
      show (⟨.endEnv ((Env.fromStr row.name).getD .matrix), false⟩ : Tk) :: _ = _
      rw [h1]
      rfl
    rw [e1]
    refine ⟨.expectedArgumentGotClose, ⟨.endEnv x, false⟩, _, fun _ _ _ => rfl,
      fixed_one (by show (Env.fromStr row.name).isSome = true; rw [h1]; rfl), rfl, closes (x := .endEnv x) rfl rfl (fun pa hpa l sp ts => ?_) (tks rest.lexemes)⟩
    unfold Rec.parseArm
    refine Does.get_bind fun s _ => ?_
    rcases hpa with rfl | rfl <;> exact Does.fail

/-- A group as an argument -/
theorem group_arg {env : EnvState} (hl : HasLead ts) (hf : ∀ l : Loc, l.env = env → Fails cfg k (.endToken .groupClose) ts l K) :
    ArgFails cfg k env ⟨.groupBegin, false⟩ ts K := by
  have token : ∀ (l : Loc) sp pa, l.env = env → pa = .arg ∨ pa = .argWithSpace →
      Does cfg k (fun n => (parser n).parseToken ⟨.groupBegin, sp⟩ pa .default) ts l [] (.error K) := by
    intro l sp pa he hpa
    refine Does.token_arg (by rcases hpa with rfl | rfl <;> rfl) ?_
    exact arm_group (F := .error K) (fol := []) (by rcases hpa with rfl | rfl <;> simp) (hf l he .opening [])
  refine ⟨rfl, rfl, rfl, HasLead.append (ts := [_]) hl, token, fun l he => ?_⟩
  exact does_script (t := ⟨.groupBegin, false⟩) (N := .error K) rfl fun sp => token _ sp .arg he (Or.inl rfl)

/-- A cell or row before it -/
theorem amp_fails (hk : k.Plain) (he : Plainly e) (hs : Stops ts) (hc : l.env.allowColumns = true) (hf : Fails cfg k e ts l K) :
    Fails cfg k e (⟨.newColumn, false⟩ :: ts) l K := by
  refine round_fails hk he (t := ⟨.newColumn, false⟩) (b := {}) rfl (fun prev sp => ?_) (does_noScripts hs.starts) hf
  refine ⟨(.closing, .columnSeparator), Does.token hk hs.lead rfl ?_⟩
  have := arm_amp (cfg := cfg) (k := k) (l := l) (ts := ts) (sp := sp) (prev := prev) (nx := l.seen (if ParseAs.sequence.inSequence then
    leadClass ts else .default))
  rw [hc] at this
  exact this

theorem newLine_fails (hk : k.Plain) (he : Plainly e) (hs : Stops ts) (hc : l.env.numbered = none) (hf : Fails cfg k e ts l K) :
    Fails cfg k e (⟨.newLine, false⟩ :: ts) l K := by
  have hb : ∃ x, lineBreak none l = .ok (x, l) := by
    unfold lineBreak
    rw [hc]
    cases l.env.meaningfulNewlines <;> exact ⟨_, rfl⟩
  obtain ⟨x, hx⟩ := hb
  refine round_fails hk he (t := ⟨.newLine, false⟩) (b := {}) rfl (fun prev sp => ?_) (does_noScripts hs.starts) hf
  refine ⟨x, Does.token hk hs.lead rfl ?_⟩
  rw [← hx]
  refine arm_newLine (line := none) (fun _ => rfl) fun _ => ?_
  cases l.env.allowHlines with
  | true => exact does_line (line := none) hs.starts
  | false => exact Does.pure

/-- What is before it ends before it. -/
theorem before_fails (hk : k.Plain) (he : Plainly e) {f : Tex} (h : f.proper false true = true) {ls ls' : List Lexeme}
    (hne : ls ≠ []) (ha : f.apart ls = true)
    (hf : Stops (tks (ls ++ ls') ++ [⟨.eoi, false⟩]) ∧ Fails cfg k e (tks (ls ++ ls') ++ [⟨.eoi, false⟩]) l K) :
    Stops (tks (f.lexemes ++ (ls ++ ls')) ++ [⟨.eoi, false⟩]) ∧ Fails cfg k e (tks (f.lexemes ++ (ls ++ ls')) ++ [⟨.eoi, false⟩]) l K := by
  rw [tks_append, List.append_assoc]
  by_cases hn : f.lexemes = []
  · rw [hn]
    exact hf
  · refine tex_fails hk he f h hf.1 (headNot_tks (fun y hy => lexeme_continues ?_) rfl) hf.2
    have h1 : ls.head?.any Lexeme.continuesDigits = false := by
      unfold Tex.apart at ha
      cases f with
      | nil => exact absurd (by unfold Tex.lexemes; rfl) hn
      | _ => simpa using ha
    cases ls with
    | nil => exact absurd rfl hne
    | cons a as =>
      cases hy
      simpa using h1

theorem env_columns (x : Env) : (envState x).allowColumns = envColumns x := by cases x <;> rfl

theorem taker_lexemes (x : Taker) : x.lexemes ≠ [] := by
  cases x with
  | script n above => simp [Taker.lexemes]
  | _ => nofun

theorem opening_lexemes (o : Opening) : o.lexemes ≠ [] := by
  cases o with
  | argument x => simp [Opening.lexemes]
  | _ => nofun

theorem stray_fits {x : Stray} {rest : Tex} (h : x.fits rest = true) : x.lexemes = [] → rest.lexemes = [] := by
  intro hx
  cases x <;> first
    | (cases hx; done)
    | (cases rest <;> first
      | rfl
      | (cases h; done))

/-- A nucleus with two scripts of the same kind -/
theorem twice_bounds (hk : k.Plain) {above : Bool} {la lb : List Lexeme} {ta tb : Tree} {A B : Arg} (hA : ArgGood la ta A) (hB : ArgGood lb tb B)
    (hs : Starts ts) (lim : Option (LimitsKind × Span)) :
    Does cfg k (fun n => (parser n).getBounds none ⟨{}, lim⟩) (tks (scriptMark above :: (la ++ scriptMark above :: lb)) ++ ts) l []
      (.error .duplicateSubOrSup) := by
  have e0 : ∀ ls, tks (scriptMark above :: ls) = ⟨if above then .circumflex else .underscore, false⟩ :: tks ls := by
    intro ls; cases above <;> rfl
  rw [e0, tks_append, e0]
  obtain ⟨a, ha⟩ := hA.steady true { l with style := scriptStyle l.style }
  obtain ⟨b, hb⟩ := hB.steady true { l with style := scriptStyle l.style }
  cases above with
  | true =>
    have h := scripts_does cfg k hk (.sup A (.sup B .nil)) (fol := ts) (by unfold Scripts.ok Scripts.ok Scripts.ok; rw [hA.ok, hB.ok]; rfl)
      ⟨hA.linked _, hB.linked _, trivial⟩ hs l {} lim
    have hd : (Scripts.sup A (.sup B .nil)).denote l {} = .error .duplicateSubOrSup := by
      unfold Scripts.denote
      rw [ha]
      show Scripts.denote (.sup B .nil) l _ = _
      unfold Scripts.denote
      rw [hb]
      rfl
    rw [hd] at h
    have e1 : (Scripts.sup A (.sup B .nil)).tokens ++ ts = (⟨.circumflex, false⟩ :: (tks la ++ ⟨.circumflex, false⟩ :: tks lb)) ++ ts := by
      unfold Scripts.tokens Scripts.tokens Scripts.tokens
      rw [hA.tokens, hB.tokens]
      simp
    rw [e1] at h
    exact h
  | false =>
    have h := scripts_does cfg k hk (.sub A (.sub B .nil)) (fol := ts) (by unfold Scripts.ok Scripts.ok Scripts.ok; rw [hA.ok, hB.ok]; rfl)
      ⟨hA.linked _, hB.linked _, trivial⟩ hs l {} lim
    have hd : (Scripts.sub A (.sub B .nil)).denote l {} = .error .duplicateSubOrSup := by
      unfold Scripts.denote
      rw [ha]
      show Scripts.denote (.sub B .nil) l _ = _
      unfold Scripts.denote
      rw [hb]
      rfl
    rw [hd] at h
    have e1 : (Scripts.sub A (.sub B .nil)).tokens ++ ts = (⟨.underscore, false⟩ :: (tks la ++ ⟨.underscore, false⟩ :: tks lb)) ++ ts := by
      unfold Scripts.tokens Scripts.tokens Scripts.tokens
      rw [hA.tokens, hB.tokens]
      simp
    rw [e1] at h
    exact h

/-- The parser stops at the first thing which does not belong. -/
theorem broken_fails (hk : k.Plain) : (b : Broken) → ∀ {around : Option Opening} {columns : Bool},
    b.proper around columns = true →
    ∃ K, b.Reason around K ∧ Stops (tks b.lexemes ++ [⟨.eoi, false⟩]) ∧ (∀ l ∈ b.lexemes, l.fixed = true) ∧
      ∀ l : Loc, l.env.allowColumns = columns → l.env.numbered = none →
      Fails cfg k (.endToken (endFor around)) (tks b.lexemes ++ [⟨.eoi, false⟩]) l K
  | .here f x rest, around, columns, h => by
    unfold Broken.proper at h
    simp only [Bool.and_eq_true] at h
    obtain ⟨⟨⟨h1, h2⟩, h3⟩, h4⟩ := h
    obtain ⟨r, hr⟩ := tex_form false false rest h2 .nil stops_nil fun _ => rfl
    obtain ⟨f', hf'⟩ := tex_form false true f h1 .nil stops_nil fun _ => rfl
    obtain ⟨K, g1, g2, g3, g4, g5⟩ := here_fails (cfg := cfg) hk x rest h3 (stray_fits h4)
    unfold Broken.lexemes
    rw [tks_append, List.append_assoc]
    have g6 := fun l hc => tex_fails hk (endFor_plainly around) f h1 g2 g3 (g5 l hc)
    exact ⟨K, g1, (g6 ⟨.text, { allowColumns := columns }, 0, [], 0, false⟩ rfl).1, fixed_append hf'.fixed (fixed_append g4 hr.fixed),
      fun l hc _ => (g6 l hc).2⟩
  | .renamed f row row' t rest, around, columns, h => by
    unfold Broken.proper at h
    simp only [Bool.and_eq_true, decide_eq_true_eq] at h
    obtain ⟨⟨⟨⟨⟨h1, h2⟩, h3⟩, h4⟩, h5⟩, h6⟩ := h
    obtain ⟨r, hr⟩ := tex_form false false rest h2 .nil stops_nil fun _ => rfl
    obtain ⟨f', hf'⟩ := tex_form false true f h1 .nil stops_nil fun _ => rfl
    obtain ⟨x, x1, x2, x3, x4, -⟩ := env_known h3
    obtain ⟨x', y1, -⟩ := env_known h4
    obtain ⟨tf, ht⟩ := table_form row.columns t h6
    rw [← x4] at ht
    have hne : x' ≠ x := by
      intro e
      rw [e] at y1
      exact h5 ((row_named h3 x1).symm.trans (row_named h4 y1))
    have e1 : tks (.opens row.name :: (t.lexemes ++ .closes row'.name :: rest.lexemes)) ++ [⟨.eoi, false⟩] =
        ⟨.beginEnv x, false⟩ :: (tks t.lexemes ++ ⟨.endEnv x', false⟩ :: (tks rest.lexemes ++ [⟨.eoi, false⟩])) := by
      rw [tks_cons, tks_append, tks_cons]
      show (⟨.beginEnv ((Env.fromStr row.name).getD .matrix), false⟩ : Tk) ::
        (tks t.lexemes ++ (⟨.endEnv ((Env.fromStr row'.name).getD .matrix), false⟩ : Tk) :: tks rest.lexemes) ++ _ = _
      rw [x1, y1]
      simp
    have hf := fun l => renamed_fails (cfg := cfg) (l := l) hk (endFor_plainly around) x2 x3 hne ht (last_lead (tks rest.lexemes)) (by
      obtain ⟨t0, r0, s1, s2⟩ := form_starts (hr.ok rfl) (ts := [⟨.eoi, false⟩]) ⟨_, _, rfl, rfl⟩
      rw [hr.tokens] at s1
      exact ⟨t0, r0, by rw [← s1]; simp [Form.tokens], (clean_iff.1 s2).1⟩)
    rw [← e1] at hf
    have hst : Stops (tks (.opens row.name :: (t.lexemes ++ .closes row'.name :: rest.lexemes)) ++ [⟨.eoi, false⟩]) := by
      refine ⟨?_, last_lead _, ?_⟩ <;> rw [e1]
      · exact ⟨_, _, rfl, rfl⟩
      · rfl
    have g6 := fun l => tex_fails hk (endFor_plainly around) f h1 hst (by rw [e1]; rfl) (hf l)
    unfold Broken.lexemes
    rw [tks_append, List.append_assoc]
    refine ⟨_, ⟨x, x', rfl, row_named h3 x1, row_named h4 y1⟩, (g6 ⟨.text, {}, 0, [], 0, false⟩).1, ?_, fun l _ _ => (g6 l).2⟩
    exact fixed_append hf'.fixed (fixed_cons (by show (Env.fromStr row.name).isSome = true; rw [x1]; rfl)
      (fixed_append ht.fixed (fixed_cons (by show (Env.fromStr row'.name).isSome = true; rw [y1]; rfl) hr.fixed)))
  | .missing f x s rest, around, columns, h => by
    unfold Broken.proper at h
    simp only [Bool.and_eq_true] at h
    obtain ⟨⟨⟨⟨⟨h1, h2⟩, h3⟩, h4⟩, h5⟩, h6⟩ := h
    obtain ⟨r, hr⟩ := tex_form false false rest h2 .nil stops_nil fun _ => rfl
    obtain ⟨f', hf'⟩ := tex_form false true f h1 .nil stops_nil fun _ => rfl
    obtain ⟨K, t, ts, g1, g2, g3, g4⟩ := stray_arg (cfg := cfg) (k := k) s rest h4 (stray_fits h5)
    have g5 := fun l => taker_fails (l := l) hk (endFor_plainly around) h3 g3 (g4 _)
    have g6 := fun l => before_fails hk (endFor_plainly around) h1 (taker_lexemes x) h6 (g5 l).2
    unfold Broken.lexemes
    let l0 : Loc := ⟨.text, {}, 0, [], 0, false⟩
    exact ⟨K, g1 _ _ _, (g6 l0).1, fixed_append hf'.fixed (fixed_append (g5 l0).1 (fixed_append g2 hr.fixed)), fun l _ _ => (g6 l).2⟩
  | .marks f n above mark rest, around, columns, h => by
    unfold Broken.proper at h
    simp only [Bool.and_eq_true, decide_eq_true_eq] at h
    obtain ⟨⟨⟨⟨h1, h2⟩, h3⟩, h4⟩, h5⟩ := h
    obtain ⟨r, hr⟩ := tex_form false false rest h2 .nil stops_nil fun _ => rfl
    obtain ⟨f', hf'⟩ := tex_form false true f h1 .nil stops_nil fun _ => rfl
    have g5 := fun l => mark_fails (cfg := cfg) (l := l) (K := .boundFollowedByBound) (ts := [⟨.eoi, false⟩]) (ls := .char mark :: rest.lexemes)
      hk (endFor_plainly around) h3 (last_lead _) (fun lim => by
        have e0 : tks (scriptMark above :: .char mark :: rest.lexemes) = ⟨if above then .circumflex else .underscore, false⟩ ::
          tks (.char mark :: rest.lexemes) := by cases above <;> rfl
        rw [e0, List.cons_append]
        refine does_mark ?_
        unfold Rec.parseScript
        simp only [List.mem_cons, List.not_mem_nil, or_false] at h4
        rcases h4 with rfl | rfl | rfl
        · exact Does.next_bind (t := ⟨.circumflex, false⟩) rfl rfl fun sp => Does.fail
        · exact Does.next_bind (t := ⟨.underscore, false⟩) rfl rfl fun sp => Does.fail
        · rw [tks_cons]
          exact Does.next_bind (t := ⟨Lexeme.tok (.char '\''), false⟩) rfl rfl fun sp => Does.fail)
    have g6 := fun l => before_fails hk (endFor_plainly around) h1 (taker_lexemes _) h5 (g5 l).2
    unfold Broken.lexemes
    let l0 : Loc := ⟨.text, {}, 0, [], 0, false⟩
    exact ⟨_, rfl, (g6 l0).1, fixed_append hf'.fixed (fixed_append (g5 l0).1 (fixed_cons rfl hr.fixed)), fun l _ _ => (g6 l).2⟩
  | .twice f n above a b rest, around, columns, h => by
    unfold Broken.proper at h
    simp only [Bool.and_eq_true] at h
    obtain ⟨⟨⟨⟨⟨h1, h2⟩, h3⟩, h4⟩, h5⟩, h6⟩ := h
    obtain ⟨r, hr⟩ := tex_form false false rest h2 .nil stops_nil fun _ => rfl
    obtain ⟨f', hf'⟩ := tex_form false true f h1 .nil stops_nil fun _ => rfl
    obtain ⟨A, hA⟩ := arg_form a h4
    obtain ⟨B, hB⟩ := arg_form b h5
    have hst : Starts (tks rest.lexemes ++ [⟨.eoi, false⟩]) := by
      have := form_starts (hr.ok rfl) (ts := [⟨.eoi, false⟩]) ⟨_, _, rfl, rfl⟩
      rw [hr.tokens] at this
      simpa [Form.tokens] using this
    have g5 := fun l => mark_fails (cfg := cfg) (l := l) (K := .duplicateSubOrSup) (ts := [⟨.eoi, false⟩])
      (ls := a.lexemes ++ scriptMark above :: (b.lexemes ++ rest.lexemes)) hk (endFor_plainly around) h3 (last_lead _) (fun lim => by
        have h := twice_bounds (cfg := cfg) (l := l) (above := above) hk hA hB hst lim
        have e1 : tks (scriptMark above :: (a.lexemes ++ scriptMark above :: (b.lexemes ++ rest.lexemes))) ++ [⟨.eoi, false⟩] =
            tks (scriptMark above :: (a.lexemes ++ scriptMark above :: b.lexemes)) ++ (tks rest.lexemes ++ [⟨.eoi, false⟩]) := by
          rw [← List.append_assoc, ← tks_append]
          simp
        rw [e1]
        exact h)
    have g6 := fun l => before_fails hk (endFor_plainly around) h1 (taker_lexemes _) h6 (g5 l).2
    unfold Broken.lexemes
    let l0 : Loc := ⟨.text, {}, 0, [], 0, false⟩
    exact ⟨_, rfl, (g6 l0).1, fixed_append hf'.fixed (fixed_append (g5 l0).1 (fixed_append hA.fixed
      (fixed_cons (by cases above <;> rfl) (fixed_append hB.fixed hr.fixed)))), fun l _ _ => (g6 l).2⟩
  | .cell f row b, around, columns, h => by
    unfold Broken.proper at h
    simp only [Bool.and_eq_true] at h
    obtain ⟨⟨h1, h2⟩, h3⟩ := h
    obtain ⟨f', hf'⟩ := tex_form false true f h1 .nil stops_nil fun _ => rfl
    obtain ⟨K, g1, g2, g3, g4⟩ := broken_fails hk b h3
    unfold Broken.lexemes
    let l0 : Loc := ⟨.text, { allowColumns := columns }, 0, [], 0, false⟩
    cases row with
    | true =>
      have k1 := structure_known.2.2.2.2.2.2
      have e1 : tks (.command c!"\\" :: b.lexemes) ++ [⟨.eoi, false⟩] = ⟨.newLine, false⟩ :: (tks b.lexemes ++ [⟨.eoi, false⟩]) := by
        rw [tks_cons, tok_cmd k1]
        rfl
      have g6 : ∀ l : Loc, l.env.allowColumns = columns → l.env.numbered = none → _ := fun l hc hn =>
        before_fails (ls := [.command c!"\\"]) (ls' := b.lexemes) hk (endFor_plainly around) h1 nofun (by unfold Tex.apart; exact Bool.or_true _)
          (by
            show Stops (tks (.command c!"\\" :: b.lexemes) ++ _) ∧ Fails _ _ _ (tks (.command c!"\\" :: b.lexemes) ++ _) _ _
            rw [e1]
            exact ⟨clean_stops (x := .newLine) rfl rfl _, newLine_fails hk (endFor_plainly around) g2 hn (g4 l hc hn)⟩)
      exact ⟨K, g1, (g6 l0 rfl rfl).1, fixed_append hf'.fixed (fixed_cons (fixed_cmd k1) g3), fun l hc hn => (g6 l hc hn).2⟩
    | false =>
      replace h2 : columns = true := by simpa using h2
      have g6 : ∀ l : Loc, l.env.allowColumns = columns → l.env.numbered = none → _ := fun l hc hn =>
        before_fails (ls := [.char '&']) (ls' := b.lexemes) hk (endFor_plainly around) h1 nofun (by unfold Tex.apart; exact Bool.or_true _)
          ⟨clean_stops (x := .newColumn) rfl rfl _, amp_fails hk (endFor_plainly around) g2 (hc.trans h2) (g4 l hc hn)⟩
      exact ⟨K, g1, (g6 l0 rfl rfl).1, fixed_append hf'.fixed (fixed_cons rfl g3), fun l hc hn => (g6 l hc hn).2⟩
  | .inside f o b, around, columns, h => by
    unfold Broken.proper at h
    simp only [Bool.and_eq_true] at h
    obtain ⟨⟨⟨h1, h2⟩, h3⟩, h0⟩ := h
    obtain ⟨f', hf'⟩ := tex_form false true f h1 .nil stops_nil fun _ => rfl
    obtain ⟨K, g1, g2, g3, g4⟩ := broken_fails hk b h3
    have key : (∀ l ∈ o.lexemes, l.fixed = true) ∧ ∀ l : Loc, l.env.allowColumns = columns → l.env.numbered = none →
        Stops (tks (o.lexemes ++ b.lexemes) ++ [⟨.eoi, false⟩]) ∧
        Fails cfg k (.endToken (endFor around)) (tks (o.lexemes ++ b.lexemes) ++ [⟨.eoi, false⟩]) l K := by
      cases o with
      | brace =>
        refine ⟨fixed_one rfl, fun l hc hn => ⟨clean_stops (x := .groupBegin) rfl rfl _, ?_⟩⟩
        exact brace_fails (cfg := cfg) hk (endFor_plainly around) g2.lead (g4 l hc hn)
      | left d =>
        replace h2 : d ∈ delimRows := by simpa [Opening.proper] using h2
        have k1 := structure_known.2.1
        have e1 : tks (Opening.lexemes (.left d) ++ b.lexemes) = ⟨.left, false⟩ :: ⟨d.written.tok, false⟩ :: tks b.lexemes := by
          show tks (.command c!"left" :: d.written :: b.lexemes) = _
          rw [tks_cons, tok_cmd k1, tks_cons, delim_loose h2]
          rfl
        rw [e1]
        refine ⟨fixed_cons (fixed_cmd k1) (fixed_one (delim_known h2).1), fun l hc hn =>
          ⟨clean_stops (x := .left) rfl rfl (⟨d.written.tok, false⟩ :: tks b.lexemes), ?_⟩⟩
        exact left_fails (cfg := cfg) hk (endFor_plainly around) h2 g2.lead (g4 l hc hn)
      | begins row =>
        replace h2 : row ∈ tableRows := by simpa [Opening.proper] using h2
        obtain ⟨x, x1, x2, x3, x4, -⟩ := env_known h2
        have e1 : tks (Opening.lexemes (.begins row) ++ b.lexemes) = ⟨.beginEnv x, false⟩ :: tks b.lexemes := by
          show (⟨.beginEnv ((Env.fromStr row.name).getD .matrix), false⟩ : Tk) :: _ = _
          rw [x1]
          rfl
        rw [e1]
        refine ⟨fixed_one (by show (Env.fromStr row.name).isSome = true; rw [x1]; rfl), fun l hc hn =>
          ⟨clean_stops (x := .beginEnv x) rfl rfl _, ?_⟩⟩
        refine begin_fails (cfg := cfg) hk (endFor_plainly around) x2 g2 (g4 { l with style := envStyle x, env := envState x }
          ((env_columns x).trans x4) ?_)
        show (envNumbering x).map _ = none
        rw [x3]
        rfl
      | argument x =>
        have g5 := fun (l : Loc) hc hn => taker_fails (cfg := cfg) (l := l) (K := K) (ls := .char '{' :: b.lexemes) hk (endFor_plainly around) h2 rfl
          (group_arg (env := l.env) g2.lead fun l' he => g4 l' (he ▸ hc) (he ▸ hn))
        let l0 : Loc := ⟨.text, { allowColumns := columns }, 0, [], 0, false⟩
        refine ⟨fixed_append (g5 l0 rfl rfl).1 (fixed_one rfl), fun l hc hn => ?_⟩
        show Stops (tks ((x.lexemes ++ [.char '{']) ++ b.lexemes) ++ _) ∧ Fails _ _ _ (tks ((x.lexemes ++ [.char '{']) ++ b.lexemes) ++ _) _ _
        rw [List.append_assoc]
        exact (g5 l hc hn).2
    have g6 := fun l hc hn => before_fails hk (endFor_plainly around) h1 (opening_lexemes o) h0 (key.2 l hc hn)
    unfold Broken.lexemes
    exact ⟨K, g1, (g6 ⟨.text, { allowColumns := columns }, 0, [], 0, false⟩ rfl rfl).1, fixed_append hf'.fixed (fixed_append key.1 g3),
      fun l hc hn => (g6 l hc hn).2⟩

end Verif

import Verif.Lemmas.NestDefs
import Verif.Props.Expansion
/-! Macros: what is read is unfolded by replacing the call. -/
namespace Verif
open Model Spec Lexer' TokenQueue
variable {any : Bool}

/-- Only the token has been read, and it has been replaced. -/
theorem ended_replaced {cfg s u0 s' p qt ts rest} (hs : s'.q.stores = s.q.stores) (hq : QInv s'.q)
    (hc : s'.env.allowColumns = s.env.allowColumns) (h1 : FirstAt u0 NonWs p qt)
    (h2 : Replaced cfg s.q.stores (u0.drop (p + 1)) qt.span qt.tok.unwrapMath ts rest)
    (h3 : upcoming cfg s'.q = rest.push ts) : Ended any cfg s u0 s' := by
  refine ⟨hq, hc, [], ?_, fun _ b _ => .nil b⟩
  rw [hs, h3]
  exact .expand h1 h2 .nil

/-- The token has been read, with its position in the source. -/
def Called (t : TokSpan) (u0 u : Stream) : Prop :=
  ∃ p qt, FirstAt u0 NonWs p qt ∧ qt.tok.unwrapMath = t.tok ∧ qt.span = t.span ∧ u = u0.drop (p + 1)

theorem Called.after {t u0 u} (h : Called t u0 u) : After t.tok u0 u := by
  obtain ⟨p, qt, h1, h2, -, h3⟩ := h
  exact ⟨p, qt, h1, h2, h3⟩

theorem Judg.called {α : Type} {m : P α} {t} (h : Judg any (After t.tok) m) : Judg any (Called t) m :=
  fun cfg s u0 a s' hq hg hI => h cfg s u0 a s' hq hg hI.after

theorem Judg.called_bind {β : Type} {f : TokSpan → P β} (hf : ∀ t : TokSpan, Judg any (Called t) (f t)) :
    Judg any From (P.next >>= f) := by
  intro cfg s u0 b s' hq hg hI h
  obtain ⟨t, s1, h1, h2⟩ := bind_inv h
  obtain ⟨p, qt, a1, rfl, a2, a3, a4, a5⟩ := next_ok hq h1
  have hu : upcoming cfg s.q = u0 := hI
  rw [hu] at a1 a2
  obtain ⟨b1, b2, w, b3, b4⟩ := hf _ cfg s1 u0 b s' a3 (a4 ▸ hg) ⟨p, qt, a1, rfl, rfl, a2⟩ h2
  rw [a4] at b3
  rw [a5] at b2 b4
  exact ⟨b1, b2, w, b3, b4⟩

theorem recFit_lt {body : List RecordedToken} (h : ∀ r ∈ body, RecFit r) (i) (hi : .token (.customCmdArg i) ∈ body) :
    i < 9 := by
  have := h _ hi
  simpa [RecFit, fit] using this

theorem nest_expandCustomCmd {n body span} {t : TokSpan} (ht : t.tok = .customCmd n body) (hs : t.span = span) :
    Judg any (Called t) (expandCustomCmd n body span) := by
  rintro cfg s u0 a s' hq hg ⟨p, qt, h1, h2, h2', h3⟩ h
  rw [ht] at h2
  rw [hs] at h2'
  subst h2'
  have hfit := unwrap_fit (hg.stream _ _ h1.1)
  rw [h2] at hfit
  simp only [fit, Bool.and_eq_true, decide_eq_true_eq] at hfit
  have hp : ParamsOk n (body.map .token) := by
    refine ⟨hfit.1, fun i hi => ?_⟩
    obtain ⟨x, hx, he⟩ := List.mem_map.1 hi
    have := fitAll_mem hfit.2 x hx
    rw [RecordedToken.token.inj he] at this
    simpa [fit] using this
  rcases C14_expansion_builtin (cfg := cfg) s hq n qt.span body hp with ⟨-, h4⟩ | ⟨-, s1, h4, h5⟩ | ⟨-, e, s1, h4, -⟩
  · rw [h4] at h; cases h
  · rw [h4] at h
    cases h
    obtain ⟨args, rest, h6, h7⟩ := h5.tokens
    rw [h3] at h6
    exact ended_replaced h5.stores h5.queue (by rw [h5.env]) h1 (by rw [h2]; exact .builtin h6) h7
  · rw [h4] at h; cases h

theorem nest_expandCustomCmdRef {src n cls start stop span} {t : TokSpan} (ht : t.tok = .customCmdRef src n cls start stop)
    (hs : t.span = span) : Judg any (Called t) (expandCustomCmdRef src n start stop span) := by
  rintro cfg s u0 a s' hq hg ⟨p, qt, h1, h2, h2', h3⟩ h
  rw [ht] at h2
  rw [hs] at h2'
  subst h2'
  have hfit := unwrap_fit (hg.stream _ _ h1.1)
  rw [h2] at hfit
  simp only [fit, decide_eq_true_eq] at hfit
  cases hb : s.q.stores.getBody src start stop with
  | none =>
    exfalso
    obtain ⟨_, s1, a1, a2⟩ := bind_inv h
    obtain ⟨_, s2, a3, a4⟩ := bind_inv a2
    obtain ⟨_, s3, a5, a6⟩ := bind_inv a4
    cases a5
    obtain ⟨_, s4, a7, a8⟩ := bind_inv a6
    cases a7
    have e1 : s1.q = s.q := by
      obtain ⟨s0, s0', c1, c2⟩ := bind_inv a1
      cases c1
      revert c2
      cases s.expansionsLeft with
      | zero => intro c2; cases c2
      | succ k => intro c2; cases c2; rfl
    obtain ⟨_, s5, b1, b2⟩ := bind_inv a3
    cases b1
    rcases readCmdArgsFrom_spec (cfg := cfg) n (s := { s1 with cmdArgs := s1.cmdArgs.clear }) (args := [])
      (by rw [e1]; exact hq) (Holds.clear s1.cmdArgs) (by simpa using hfit) with ⟨args, q1, c1, d1, d2, d3, -⟩ | ⟨e, x, d1, -⟩
    · simp only [List.length_nil] at d1
      rw [b2] at d1
      cases d1
      have : q1.stores.getBody src start stop = none := by
        rw [d3.stores]
        show s1.q.stores.getBody _ _ _ = _
        rw [e1]; exact hb
      unfold queueStoredBodySubstituting at a8
      simp only [this] at a8
      cases a8
    · simp only [List.length_nil] at d1
      rw [b2] at d1; cases d1
  | some body =>
    have hp : ParamsOk n body := ⟨hfit, recFit_lt fun r hr => hg.stores.bodies _ r (getBody_mem hb r hr)⟩
    rcases C14_expansion (cfg := cfg) s hq src n start stop qt.span body hb hp with
      ⟨-, h4⟩ | ⟨-, s1, h4, h5⟩ | ⟨-, e, s1, h4, -⟩
    · rw [h4] at h; cases h
    · rw [h4] at h
      cases h
      obtain ⟨args, rest, h6, h7⟩ := h5.tokens
      rw [h3] at h6
      exact ended_replaced h5.stores h5.queue (by rw [h5.env]) h1 (by rw [h2]; exact .macro hb h6) h7
    · rw [h4] at h; cases h

theorem nest_mathChoice {span} {t : TokSpan} (ht : t.tok = .mathChoice)
    (hs : t.span = span) : Judg any (Called t) (Rec.parseMathChoice span) := by
  rintro cfg s u0 a s' hq hg ⟨p, qt, h1, h2, h2', h3⟩ h
  rw [ht] at h2
  rw [hs] at h2'
  subst h2'
  obtain ⟨_, s1, a1, a2⟩ := bind_inv h
  cases a1
  obtain ⟨_, s2, a3, a4⟩ := bind_inv a2
  obtain ⟨_, s3, a5, a6⟩ := bind_inv a4
  cases a5
  cases a6
  obtain ⟨_, s5, b1, b2⟩ := bind_inv a3
  cases b1
  rcases readCmdArgsFrom_spec (cfg := cfg) 4 (s := { s with cmdArgs := s.cmdArgs.clear }) (args := [])
    hq (Holds.clear s.cmdArgs) (by simp) with ⟨args, q1, c1, d1, d2, d3, d4, d5⟩ | ⟨e, x, d1, -⟩
  · simp only [List.length_nil] at d1
    rw [b2] at d1
    cases d1
    have hi : Rec.styleIndex s.style < 4 := by cases s.style <;> decide
    refine ended_replaced (ts := argument args qt.span (Rec.styleIndex s.style)) (rest := upcoming cfg q1) d3.stores
      (d2.push _) rfl h1 ?_ ?_
    · rw [h2]
      refine .choice ?_ hi
      rw [← h3]; exact d4
    · refine (upcoming_push _).trans ?_
      congr 1
      exact argTokens_eq d5 (by omega) _
  · simp only [List.length_nil] at d1
    rw [b2] at d1; cases d1

theorem nest_dots {toks} {t : TokSpan} (ht : t.tok = .dots) (h : toks = Pre.DOTS ∨ toks = Pre.CDOTS) :
    Judg any (Called t) (do
      St.modify fun s => { s with q := s.q.queueInFront (toks.map Token.queued) }
      return Parsed.expansion) := by
  rintro cfg s u0 a s' hq hg ⟨p, qt, h1, h2, h2', h3⟩ hm
  rw [ht] at h2
  cases hm
  exact ended_replaced rfl (hq.push _) rfl h1 (by rw [h2]; exact .dots h) ((upcoming_push _).trans (by rw [h3]))

theorem nest_choiceInternal {cls d t' s' ss x} {t : TokSpan} (ht : t.tok = .mathChoiceInternal cls d t' s' ss)
    (h : x = d ∨ x = t' ∨ x = s' ∨ x = ss) :
    Judg any (Called t) (do
      St.modify fun s => { s with q := s.q.queueInFront [⟨x, t.span, none⟩] }
      return Parsed.expansion) := by
  rintro cfg s u0 a s' hq hg ⟨p, qt, h1, h2, h2', h3⟩ hm
  rw [ht] at h2
  cases hm
  refine ended_replaced rfl (hq.push _) rfl h1 (by rw [h2]; exact .choiceInternal h) ((upcoming_push _).trans ?_)
  rw [h3, h2']

/-! ### Tokens without output -/

/-- Both outcomes: either the token has to be processed, and nothing has happened, or it has been processed. -/
theorem Judg.handle_bind {β : Type} {t : TokSpan} {e nodes infixFrac} {f : Option (List Node × InfixFrac) → P β}
    (hn : Judg any (Called t) (f none)) (hs : ∀ r, Judg any From (f (some r))) :
    Judg any (Called t) (handleTokensWithoutOutput t e nodes infixFrac >>= f) := by
  have key : ∀ {m : P Unit} {r}, Judg any (Called t) m →
      Judg any (Called t) ((m >>= fun _ => (return some r : P (Option (List Node × InfixFrac)))) >>= f) := by
    intro m r hm cfg s u0 a s' hq hg hI h
    obtain ⟨_, s1, h1, h2⟩ := bind_inv h
    obtain ⟨_, s2, h3, h4⟩ := bind_inv h1
    cases h4
    exact (Judg.bind hm fun _ => hs r) cfg s u0 a s' hq hg hI (bind_intro h3 h2)
  have quietly : ∀ {m : P Unit} {r}, (fit t.tok = true → idle t.tok = true) → Judg any From m →
      Judg any (Called t) ((m >>= fun _ => (return some r : P (Option (List Node × InfixFrac)))) >>= f) :=
    fun h1 h2 => key (Judg.after h1 h2).called
  have defs : ∀ {m : P Unit} {r}, isDefinition t.tok = true → Judg any (Defining []) m →
      Judg any (Called t) ((m >>= fun _ => (return some r : P (Option (List Node × InfixFrac)))) >>= f) :=
    fun h1 h2 => key (Judg.defining h1 h2).called
  have fails : ∀ {e} , Judg any (Called t) ((St.throw e : P (Option (List Node × InfixFrac))) >>= f) := by
    intro e cfg s u0 a s' _ _ _ h; cases h
  unfold handleTokensWithoutOutput
  split
  · split
    · exact fails
    · exact fun cfg s u0 a s' hq hg hI h => hn cfg s u0 a s' hq hg hI h
  · rename_i ht
    split
    · exact quietly (by rw [ht]; intro _; rfl) (.still (by still))
    · exact fails
  · rename_i ht
    exact quietly (m := pure ()) (by rw [ht]; intro _; rfl) (.still (by still))
  · rename_i ht
    exact quietly (by rw [ht]; intro _; rfl) (.still (by still))
  · rename_i ht
    exact defs (by rw [ht]; rfl) (nest_define _ _)
  · rename_i ht
    exact defs (by rw [ht]; rfl) (nest_let _ _)
  · rename_i ht
    exact defs (by rw [ht]; rfl) (nest_def _ _)
  · rename_i ht
    refine fun cfg s u0 a s' hq hg hI h => ?_
    exact defs (by rw [ht]; rfl) (nest_global _ _) cfg s u0 a s' hq hg hI h
  · rename_i ht
    exact quietly (by rw [ht]; intro _; rfl) (.still (by still))
  · rename_i ht
    exact quietly (by rw [ht]; intro _; rfl) (.still (by still))
  · rename_i ht
    exact quietly (by rw [ht]; intro _; rfl) (nest_setTag _ _)
  · rename_i ht
    exact quietly (by rw [ht]; intro _; rfl) (nest_setLabel _)
  · exact fun cfg s u0 a s' hq hg hI h => hn cfg s u0 a s' hq hg hI h

/-! ### Primes -/

theorem idle_unwrap {t : Token} (h : idle t.unwrapMath = true) : idle t = true := by
  cases t <;> first | exact h | rfl

theorem nest_primes {β : Type} {f : List (PrimeDirection × Nat) → P β} {g : List (PrimeDirection × Nat) → P β}
    (hf : ∀ l, Judg any From (f l)) (hg : ∀ l, Judg any From (g l)) (fuel acc) :
    Judg any From (primesLoop fuel acc >>= fun r => if r.2 = true then P.nextAny >>= fun _ => f r.1 else g r.1) := by
  induction fuel generalizing acc with
  | zero => intro cfg s u0 a s' _ _ _ h; cases h
  | succ fuel ih =>
    have step : Judg any From (P.peekAny >>= fun t => (match t.tok.unwrapMath with
        | .prime k => do
          let _ ← P.nextAny
          primesLoop fuel (addPrime acc k)
        | .circumflex => return (acc, true)
        | _ => return (acc, false)) >>= fun r => if r.2 = true then P.nextAny >>= fun _ => f r.1 else g r.1) := by
      refine Judg.peekAny_bind fun t => ?_
      split
      · rename_i k ht
        intro cfg s u0 a s' hq hgd hI h
        obtain ⟨r, s1, h1, h2⟩ := bind_inv h
        obtain ⟨x, s2, h3, h4⟩ := bind_inv h1
        exact Judg.nextAny_nextAny_bind (fun _ => idle_unwrap (by rw [ht]; rfl)) (fun _ => ih (addPrime acc k))
          cfg s u0 a s' hq hgd hI (bind_intro h3 (bind_intro h4 h2))
      · rename_i ht
        intro cfg s u0 a s' hq hgd hI h
        exact Judg.nextAny_nextAny_bind (fun _ => idle_unwrap (by rw [ht]; rfl)) (fun _ => hf acc) cfg s u0 a s' hq hgd hI h
      · exact .of_nextAny fun cfg s u0 a s' hq hgd hI h => hg acc cfg s u0 a s' hq hgd hI h
    intro cfg s u0 a s' hq hgd hI h
    unfold primesLoop at h
    obtain ⟨r, s1, h1, h2⟩ := bind_inv h
    obtain ⟨t, s2, h3, h4⟩ := bind_inv h1
    exact step cfg s u0 a s' hq hgd hI (bind_intro h3 (bind_intro h4 h2))

end Verif

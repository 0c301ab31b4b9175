import Verif.Lemmas.NestWords
import Verif.Model.Parser
import Verif.Props.Queue
/-! A logic for what the parser reads: successful computations read properly nested words. -/
namespace Verif
open Model Spec Lexer' TokenQueue

/-- What has been read since the stream was `u0`. If `any` holds, the word can also be read where `&` may stand when it
may not stand here, and the other way round. -/
structure Ended (any : Bool) (cfg : ParserConfig) (s : PState) (u0 : Stream) (s' : PState) : Prop where
  queue : QInv s'.q
  columns : s'.env.allowColumns = s.env.allowColumns
  word : ∃ w, Unfolds cfg s.q.stores u0 w s'.q.stores (upcoming cfg s'.q) ∧
    (TextArgs w → ∀ b, any = true ∨ b = s.env.allowColumns → Closed b w)

/-- If the stream is `u` now and was `u0` before, so that `I u0 u`, then what is read from `u0` on if the computation
succeeds is properly nested. -/
def Judg {α : Type} (any : Bool) (I : Stream → Stream → Prop) (m : P α) : Prop :=
  ∀ cfg s u0 a s', QInv s.q → AllFit s.q.stores u0 → I u0 (upcoming cfg s.q) → m cfg s = .ok a s' → Ended any cfg s u0 s'

/-- Nothing has been read. -/
def From (u0 u : Stream) : Prop := u = u0
/-- The token has been read, in math mode. -/
def After (t : Token) (u0 u : Stream) : Prop :=
  ∃ p qt, FirstAt u0 NonWs p qt ∧ qt.tok.unwrapMath = t ∧ u = u0.drop (p + 1)
/-- The token comes next, in math mode. -/
def Next (t : Token) (u0 u : Stream) : Prop := u = u0 ∧ ∃ p qt, FirstAt u0 NonWs p qt ∧ qt.tok = t
/-- The token comes next, in text mode. -/
def NextAny (t : Token) (u0 u : Stream) : Prop := u = u0 ∧ ∃ qt, u0 0 = .ok qt ∧ qt.tok = t

/-- The computation reads nothing. -/
def Still {α : Type} (m : P α) : Prop :=
  ∀ cfg s a s', QInv s.q → m cfg s = .ok a s' → QInv s'.q ∧ upcoming cfg s'.q = upcoming cfg s.q ∧
    s'.q.stores = s.q.stores ∧ s'.env.allowColumns = s.env.allowColumns

theorem bind_inv {σ α β : Type} {m : St σ α} {f : α → St σ β} {cfg s b s'} (h : (m >>= f) cfg s = .ok b s') :
    ∃ a s1, m cfg s = .ok a s1 ∧ f a cfg s1 = .ok b s' := by
  change St.bind m f cfg s = _ at h
  unfold St.bind at h
  cases hm : m cfg s with
  | ok a s1 => rw [hm] at h; exact ⟨a, s1, rfl, h⟩
  | err => rw [hm] at h; cases h
  | panic => rw [hm] at h; cases h
  | fuel => rw [hm] at h; cases h

theorem liftQ_ok {α : Type} {m : Q α} {cfg} {s : PState} {a s'} (h : liftQ m cfg s = .ok a s') :
    ∃ q', m cfg s.q = .ok a q' ∧ s' = { s with q := q' } := by
  unfold liftQ St.zoom at h
  cases hm : m cfg s.q with
  | ok a q' => rw [hm] at h; cases h; exact ⟨q', rfl, rfl⟩
  | err => rw [hm] at h; cases h
  | panic => rw [hm] at h; cases h
  | fuel => rw [hm] at h; cases h

/-! ### Reading -/
variable {cfg : ParserConfig}

/-- Reading in math mode -/
theorem nextKeeping_ok {q q' : TokenQueue} {t} (hq : QInv q) (h : nextKeepingName cfg q = .ok t q') :
    ∃ p qt, FirstAt (upcoming cfg q) NonWs p qt ∧ t = qt.unwrapMath ∧ upcoming cfg q' = (upcoming cfg q).drop (p + 1) ∧
      QInv q' ∧ q'.stores = q.stores := by
  obtain ⟨pre, x, post, hs, hl, hw, hpre⟩ := hq.split
  have hs' : q.queue = (pre ++ [x]) ++ post := by rw [hs]; simp
  rcases next_spec cfg q hq hs hl with ⟨q1, h1, h2, h3, -⟩ | ⟨e, q1, h1, -⟩
  · rw [h1] at h
    cases h
    refine ⟨pre.length, x, firstAt_queue hs hw hpre, rfl, ?_, h3, h2.same.stores⟩
    rw [h2.upcoming_drop hs']; simp
  · rw [h1] at h; cases h

theorem nextAllowing_ok {q q' : TokenQueue} {t} (hq : QInv q) (h : nextAllowingUnresolved cfg q = .ok t q') :
    ∃ p qt, FirstAt (upcoming cfg q) NonWs p qt ∧ t = qt.unwrapMath ∧ upcoming cfg q' = (upcoming cfg q).drop (p + 1) ∧
      QInv q' ∧ q'.stores = q.stores := by
  obtain ⟨pre, x, post, hs, hl, hw, hpre⟩ := hq.split
  have hs' : q.queue = (pre ++ [x]) ++ post := by rw [hs]; simp
  rcases nextAllowing_spec cfg q hq hs hl with ⟨q1, h1, h2, h3⟩ | ⟨e, q1, h1, -⟩
  · rw [h1] at h
    cases h
    refine ⟨pre.length, x, firstAt_queue hs hw hpre, rfl, ?_, h3, h2.same.stores⟩
    rw [h2.upcoming_drop hs']; simp
  · rw [h1] at h; cases h

theorem queue_head {q : TokenQueue} (hq : QInv q) : ∃ t rest, q.queue = t :: rest := by
  obtain ⟨pre, x, post, hs, -⟩ := hq.split
  rw [hs]; cases pre <;> simp

/-- Reading in text mode -/
theorem nextAnyKeeping_ok {q q' : TokenQueue} {t} (hq : QInv q) (h : nextAnyKeepingName cfg q = .ok t q') :
    upcoming cfg q 0 = .ok t ∧ upcoming cfg q' = (upcoming cfg q).drop 1 ∧ QInv q' ∧ q'.stores = q.stores := by
  obtain ⟨t0, rest, h0⟩ := queue_head hq
  rcases nextAny_spec cfg q hq h0 with ⟨q1, h1, h2, h3, -⟩ | ⟨e, q1, h1, -⟩
  · rw [h1] at h
    cases h
    refine ⟨upcoming_head (by rw [h0]; rfl), ?_, h3, h2.same.stores⟩
    rw [h2.upcoming_drop (pre := [t]) (by rw [h0]; rfl)]; rfl
  · rw [h1] at h; cases h

theorem nextAnyAllowing_ok {q q' : TokenQueue} {t} (hq : QInv q) (h : nextAnyAllowingUnknown cfg q = .ok t q') :
    upcoming cfg q 0 = .ok t ∧ upcoming cfg q' = (upcoming cfg q).drop 1 ∧ QInv q' ∧ q'.stores = q.stores := by
  obtain ⟨t0, rest, h0⟩ := queue_head hq
  rcases nextAnyAllowing_spec cfg q hq h0 with ⟨q1, h1, h2, h3⟩ | ⟨e, q1, h1, -⟩
  · rw [h1] at h
    cases h
    refine ⟨upcoming_head (by rw [h0]; rfl), ?_, h3, h2.same.stores⟩
    rw [h2.upcoming_drop (pre := [t]) (by rw [h0]; rfl)]; rfl
  · rw [h1] at h; cases h

theorem next_ok {s s' : PState} {t} (hq : QInv s.q) (h : P.next cfg s = .ok t s') :
    ∃ p qt, FirstAt (upcoming cfg s.q) NonWs p qt ∧ t = qt.unwrapMath.ts ∧
      upcoming cfg s'.q = (upcoming cfg s.q).drop (p + 1) ∧ QInv s'.q ∧ s'.q.stores = s.q.stores ∧ s'.env = s.env := by
  obtain ⟨q', h1, rfl⟩ := liftQ_ok h
  obtain ⟨t', q1, h1, h2⟩ := bind_inv h1
  cases h2
  obtain ⟨p, qt, a, rfl, c, d, e⟩ := nextKeeping_ok hq h1
  exact ⟨p, qt, a, rfl, c, d, e, rfl⟩

theorem nextAny_ok {s s' : PState} {t} (hq : QInv s.q) (h : P.nextAny cfg s = .ok t s') :
    ∃ qt : QueuedTok, upcoming cfg s.q 0 = .ok qt ∧ t = qt.ts ∧ upcoming cfg s'.q = (upcoming cfg s.q).drop 1 ∧
      QInv s'.q ∧ s'.q.stores = s.q.stores ∧ s'.env = s.env := by
  obtain ⟨q', h1, rfl⟩ := liftQ_ok h
  obtain ⟨t', q1, h1, h2⟩ := bind_inv h1
  cases h2
  obtain ⟨a, c, d, e⟩ := nextAnyKeeping_ok hq h1
  exact ⟨t', a, rfl, c, d, e, rfl⟩

theorem peek_first (cfg) {q : TokenQueue} (hq : QInv q) :
    ∃ p qt, FirstAt (upcoming cfg q) NonWs p qt ∧ q.peek = qt.ts := by
  obtain ⟨pre, x, post, hs, hl, hw, hpre⟩ := hq.split
  exact ⟨pre.length, x, firstAt_queue hs hw hpre, peek_eq hs hl⟩

theorem peekAny_first (cfg) {q : TokenQueue} (hq : QInv q) :
    ∃ qt : QueuedTok, upcoming cfg q 0 = .ok qt ∧ q.peekAnyKeepingName = qt := by
  obtain ⟨t0, rest, h0⟩ := queue_head hq
  exact ⟨t0, upcoming_head (by rw [h0]; rfl), by unfold peekAnyKeepingName; rw [h0]; rfl⟩

theorem findOrLoad_ok {T : Type} {pred : Nat → Token → Option T} (hp : Search pred) {q q' : TokenQueue} (hq : QInv q) {r}
    (h : findOrLoadAfterNext pred cfg q = .ok r q') : QInv q' ∧ Ext cfg q q' := by
  rcases findOrLoadAfterNext_spec hp cfg q hq with ⟨r, q2, i, t, p, h3, h4, h5, -⟩ | ⟨e, q2, h3, -⟩
  · rw [h3] at h; cases h; exact ⟨h5, h4⟩
  · rw [h3] at h; cases h

/-! ### Computations which read nothing -/

namespace Still
variable {α β : Type}

theorem pure (a : α) : Still (Pure.pure a : P α) := by
  intro cfg s a' s' hq h; cases h; exact ⟨hq, rfl, rfl, rfl⟩
theorem throw (e) : Still (St.throw e : P α) := by intro cfg s a' s' hq h; cases h
theorem fail (s k) : Still (P.fail s k : P α) := throw _
theorem panic : Still (St.panic : P α) := by intro cfg s a' s' hq h; cases h
theorem outOfFuel : Still (St.outOfFuel : P α) := by intro cfg s a' s' hq h; cases h
theorem get : Still (St.get : P PState) := by intro cfg s a' s' hq h; cases h; exact ⟨hq, rfl, rfl, rfl⟩
theorem config : Still (St.config : P ParserConfig) := by intro cfg s a' s' hq h; cases h; exact ⟨hq, rfl, rfl, rfl⟩
theorem peek : Still P.peek := by intro cfg s a' s' hq h; cases h; exact ⟨hq, rfl, rfl, rfl⟩
theorem peekAny : Still P.peekAny := by intro cfg s a' s' hq h; cases h; exact ⟨hq, rfl, rfl, rfl⟩
theorem loopFuel : Still P.loopFuel := by intro cfg s a' s' hq h; cases h; exact ⟨hq, rfl, rfl, rfl⟩

theorem bind {m : P α} {f : α → P β} (hm : Still m) (hf : ∀ a, Still (f a)) : Still (m >>= f) := by
  intro cfg s b s' hq h
  obtain ⟨a, s1, h1, h2⟩ := bind_inv h
  obtain ⟨a1, a2, a3, a4⟩ := hm cfg s a s1 hq h1
  obtain ⟨b1, b2, b3, b4⟩ := hf a cfg s1 b s' a1 h2
  exact ⟨b1, b2.trans a2, b3.trans a3, b4.trans a4⟩

theorem modify {g : PState → PState} (hq : ∀ s, (g s).q = s.q)
    (hc : ∀ s, (g s).env.allowColumns = s.env.allowColumns) : Still (St.modify g : P Unit) := by
  intro cfg s a s' h h'
  cases h'
  rw [hq, hc]
  exact ⟨h, rfl, rfl, rfl⟩

theorem ofExcept (r : Except LatexError α) : Still (St.ofExcept r : P α) := by
  cases r with
  | ok a => exact pure a
  | error e => exact throw e

theorem peekSecond : Still (liftQ TokenQueue.peekSecond) := by
  intro cfg s a s' hq h
  obtain ⟨q', h1, rfl⟩ := liftQ_ok h
  obtain ⟨idx, q1, h1', h2⟩ := bind_inv h1
  obtain ⟨q2, q3, h3, h2⟩ := bind_inv h2
  cases h3
  cases h2
  obtain ⟨h5, h4⟩ := findOrLoad_ok search_nonWs hq h1'
  exact ⟨h5, h4.upcoming, (Ext.same (queue := s.q.queue) h4).stores, rfl⟩

theorem queueClass : Still (liftQ TokenQueue.peekClassToken) := by
  intro cfg s a s' hq h
  obtain ⟨q', h1, rfl⟩ := liftQ_ok h
  obtain ⟨q0, q1, h0, h1⟩ := bind_inv h1
  cases h0
  cases hc : s.q.peek.tok.cls with
  | some c => rw [hc] at h1; cases h1; exact ⟨hq, rfl, rfl, rfl⟩
  | none =>
    rw [hc] at h1
    obtain ⟨idx, q1, h1', h2⟩ := bind_inv h1
    obtain ⟨q2, q3, h3, h2⟩ := bind_inv h2
    cases h3
    cases h2
    obtain ⟨h5, h4⟩ := findOrLoad_ok search_class hq h1'
    exact ⟨h5, h4.upcoming, (Ext.same (queue := s.q.queue) h4).stores, rfl⟩

end Still

/-- One step of a proof that nothing is read -/
syntax "still_step" : tactic
macro_rules | `(tactic| still_step) => `(tactic| split)
macro_rules | `(tactic| still_step) => `(tactic| dsimp (config := { failIfUnchanged := true }) only)
macro_rules | `(tactic| still_step) => `(tactic| refine Still.bind ?_ ?_)
macro_rules | `(tactic| still_step) => `(tactic| exact Still.modify (fun _ => rfl) (fun _ => rfl))
macro_rules | `(tactic| still_step) => `(tactic| intro _)
macro_rules | `(tactic| still_step) => `(tactic| first
  | with_reducible exact Still.pure _ | with_reducible exact Still.throw _ | with_reducible exact Still.panic
  | with_reducible exact Still.outOfFuel | with_reducible exact Still.get | with_reducible exact Still.config
  | with_reducible exact Still.ofExcept _ | with_reducible exact Still.peek | with_reducible exact Still.peekAny
  | with_reducible exact Still.loopFuel | with_reducible exact Still.fail _ _ | with_reducible exact Still.peekSecond
  | with_reducible exact Still.queueClass | with_reducible assumption)

/-- Prove that nothing is read, step by step. -/
macro "still" : tactic => `(tactic| repeat' (with_reducible still_step))

theorem still_ensure (a0) : Still (BoundsWithLimits.ensureNoExplicitLimits a0) := by
  unfold BoundsWithLimits.ensureNoExplicitLimits; still
macro_rules | `(tactic| still_step) => `(tactic| exact still_ensure _)

theorem still_class (b) : Still (Model.peekClassToken b) := by unfold Model.peekClassToken; still
macro_rules | `(tactic| still_step) => `(tactic| exact still_class _)

theorem still_mathop (a b c) : Still (mathopSpacing a b c) := by unfold mathopSpacing; still
macro_rules | `(tactic| still_step) => `(tactic| exact still_mathop _ _ _)

theorem still_delimiter (a b) : Still (extractDelimiter a b) := by unfold extractDelimiter; still
macro_rules | `(tactic| still_step) => `(tactic| exact still_delimiter _ _)

theorem still_numberRow (n l sp) : Still (numberRow n l sp) := by
  intro cfg s a s' hq h
  obtain ⟨s0, s1, h0, h1⟩ := bind_inv h
  cases h0
  rcases hn : n.nextEquationTag s.q.equationCount l with ⟨_ | tag, n', c⟩
  · rw [hn] at h1; cases h1
  · rw [hn] at h1
    obtain ⟨_, s2, h2, h3⟩ := bind_inv h1
    cases h2
    cases h3
    exact ⟨⟨hq.next, hq.more⟩, rfl, rfl, rfl⟩
macro_rules | `(tactic| still_step) => `(tactic| exact still_numberRow _ _ _)

theorem still_numberLastRow (a b) : Still (Rec.numberLastRow a b) := by unfold Rec.numberLastRow; still
macro_rules | `(tactic| still_step) => `(tactic| exact still_numberLastRow _ _)

/-! ### The rules -/

namespace Judg
variable {α β : Type} {any : Bool} {I : Stream → Stream → Prop}

theorem bind {m : P α} {f : α → P β} (hm : Judg any I m) (hf : ∀ a, Judg any From (f a)) : Judg any I (m >>= f) := by
  intro cfg s u0 b s' hq hg hI h
  obtain ⟨a, s1, h1, h2⟩ := bind_inv h
  obtain ⟨a1, a2, w, a3, a4⟩ := hm cfg s u0 a s1 hq hg hI h1
  obtain ⟨b1, b2, w', b3, b4⟩ := hf a cfg s1 _ b s' a1 (a3.good hg) rfl h2
  refine ⟨b1, b2.trans a2, w ++ w', a3.trans b3, fun ht b hb => ?_⟩
  exact (a4 ht.left b hb).append (b4 ht.right b (a2 ▸ hb))

theorem still_bind {m : P α} {f : α → P β} (hm : Still m) (hf : ∀ a, Judg any I (f a)) : Judg any I (m >>= f) := by
  intro cfg s u0 b s' hq hg hI h
  obtain ⟨a, s1, h1, h2⟩ := bind_inv h
  obtain ⟨a1, a2, a3, a4⟩ := hm cfg s a s1 hq h1
  obtain ⟨b1, b2, w, b3, b4⟩ := hf a cfg s1 u0 b s' a1 (a3 ▸ hg) (a2 ▸ hI) h2
  rw [a3] at b3
  rw [a4] at b2 b4
  exact ⟨b1, b2, w, b3, b4⟩

theorem still {m : P α} (hm : Still m) : Judg any From m := by
  intro cfg s u0 a s' hq hg hI h
  obtain ⟨a1, a2, a3, a4⟩ := hm cfg s a s' hq h
  refine ⟨a1, a4, [], ?_, fun _ b _ => .nil b⟩
  rw [a2, a3, show upcoming cfg s.q = u0 from hI]
  exact .nil

theorem throw (e) : Judg any I (St.throw e : P α) := by intro cfg s u0 a s' _ _ _ h; cases h
theorem fail (s k) : Judg any I (P.fail s k : P α) := throw _
theorem panic : Judg any I (St.panic : P α) := by intro cfg s u0 a s' _ _ _ h; cases h
theorem outOfFuel : Judg any I (St.outOfFuel : P α) := by intro cfg s u0 a s' _ _ _ h; cases h

theorem next_bind {f : TokSpan → P β} (hf : ∀ t : TokSpan, Judg any (After t.tok) (f t)) :
    Judg any From (P.next >>= f) := by
  intro cfg s u0 b s' hq hg hI h
  obtain ⟨t, s1, h1, h2⟩ := bind_inv h
  obtain ⟨p, qt, a1, rfl, a2, a3, a4, a5⟩ := next_ok hq h1
  have hu : upcoming cfg s.q = u0 := hI
  rw [hu] at a1 a2
  obtain ⟨b1, b2, w, b3, b4⟩ := hf _ cfg s1 u0 b s' a3 (a4 ▸ hg) ⟨p, qt, a1, rfl, a2⟩ h2
  rw [a4] at b3
  rw [a5] at b2 b4
  exact ⟨b1, b2, w, b3, b4⟩

theorem peek_bind {f : TokSpan → P β} (hf : ∀ t : TokSpan, Judg any (Next t.tok) (f t)) :
    Judg any From (P.peek >>= f) := by
  intro cfg s u0 b s' hq hg hI h
  obtain ⟨t, s1, h1, h2⟩ := bind_inv h
  cases h1
  obtain ⟨p, qt, a1, a2⟩ := peek_first cfg hq
  have hu : upcoming cfg s.q = u0 := hI
  rw [hu] at a1
  exact hf _ cfg s u0 b s' hq hg ⟨hI, p, qt, a1, by rw [a2]; rfl⟩ h2

theorem peekAny_bind {f : TokSpan → P β} (hf : ∀ t : TokSpan, Judg any (NextAny t.tok) (f t)) :
    Judg any From (P.peekAny >>= f) := by
  intro cfg s u0 b s' hq hg hI h
  obtain ⟨t, s1, h1, h2⟩ := bind_inv h
  cases h1
  obtain ⟨qt, a1, a2⟩ := peekAny_first cfg hq
  have hu : upcoming cfg s.q = u0 := hI
  rw [hu] at a1
  exact hf _ cfg s u0 b s' hq hg ⟨hI, qt, a1, by unfold TokenQueue.peekAny; rw [a2]; rfl⟩ h2

theorem of_next {m : P α} {t} (h : Judg any From m) : Judg any (Next t) m :=
  fun cfg s u0 a s' hq hg hI => h cfg s u0 a s' hq hg hI.1

theorem of_nextAny {m : P α} {t} (h : Judg any From m) : Judg any (NextAny t) m :=
  fun cfg s u0 a s' hq hg hI => h cfg s u0 a s' hq hg hI.1

theorem word_quiet {ws : List Token} {t : Token} (hws : ∀ x ∈ ws, x.isWs = true) (ht : calm t = true) (b : Bool) :
    Closed b (ws ++ [t]) := by
  refine Closed.calm fun x hx => ?_
  rcases List.mem_append.1 hx with hx | hx
  · exact ws_calm (hws x hx)
  · cases List.mem_singleton.1 hx; exact ht

/-- Start later: some of what has been read changes nothing. -/
theorem later {m : P α} {cfg s u0 a s'} (hm : Judg any From m) (hq : QInv s.q) (hg : AllFit s.q.stores u0) {w}
    (hw : Unfolds cfg s.q.stores u0 w s.q.stores (upcoming cfg s.q)) (hc : ∀ b, Closed b w) (h : m cfg s = .ok a s') :
    Ended any cfg s u0 s' := by
  obtain ⟨b1, b2, w', b3, b4⟩ := hm cfg s _ a s' hq (hw.good hg) rfl h
  exact ⟨b1, b2, w ++ w', hw.trans b3, fun ht b hb => (hc b).append (b4 ht.right b hb)⟩

theorem idle_iff {t : Token} : idle t = true ↔ single t = true ∧ calm t = true := by
  simp [idle]

theorem after {m : P α} {t : Token} (ht : fit t = true → idle t = true) (hm : Judg any From m) :
    Judg any (After t) m := by
  rintro cfg s u0 a s' hq hg ⟨p, qt, h1, rfl, h3⟩ h
  have hqt := idle_iff.1 (ht (unwrap_fit (hg.stream _ _ h1.1)))
  obtain ⟨ws, h4, h5⟩ := unfolds_first (cfg := cfg) (st := s.q.stores) false h1 hqt.1
  rw [← h3] at h5
  exact hm.later hq hg h5 (word_quiet h4 hqt.2) h

theorem next_next_bind {f : TokSpan → P β} {t : Token} (ht : fit t = true → idle t.unwrapMath = true)
    (hf : ∀ t, Judg any From (f t)) : Judg any (Next t) (P.next >>= f) := by
  rintro cfg s u0 b s' hq hg ⟨hI, p, qt, h1, rfl⟩ h
  obtain ⟨t, s1, h2, h3⟩ := bind_inv h
  obtain ⟨p', qt', a1, rfl, a2, a3, a4, a5⟩ := next_ok hq h2
  have hu : upcoming cfg s.q = u0 := hI
  rw [hu] at a1 a2
  obtain ⟨rfl, rfl⟩ := h1.unique a1
  have hqt := idle_iff.1 (ht (hg.stream _ _ h1.1))
  obtain ⟨ws, h4, h5⟩ := unfolds_first (cfg := cfg) (st := s.q.stores) false h1 hqt.1
  rw [← a2] at h5
  rw [← a4] at h5 hg
  obtain ⟨b1, b2, w, b3, b4⟩ := (hf _).later a3 hg h5 (word_quiet h4 hqt.2) h3
  rw [a4] at b3
  rw [a5] at b2 b4
  exact ⟨b1, b2, w, b3, b4⟩

theorem nextAny_nextAny_bind {f : TokSpan → P β} {t : Token} (ht : fit t = true → idle t = true)
    (hf : ∀ t, Judg any From (f t)) : Judg any (NextAny t) (P.nextAny >>= f) := by
  rintro cfg s u0 b s' hq hg ⟨hI, qt, h1, rfl⟩ h
  obtain ⟨t, s1, h2, h3⟩ := bind_inv h
  obtain ⟨qt', a1, rfl, a2, a3, a4, a5⟩ := nextAny_ok hq h2
  have hu : upcoming cfg s.q = u0 := hI
  rw [hu] at a1 a2
  rw [h1] at a1
  cases a1
  have hqt := idle_iff.1 (ht (hg.stream _ _ h1))
  have h5 := unfolds_read (cfg := cfg) (st := s.q.stores) true h1 hqt.1
  rw [← a2] at h5
  rw [← a4] at h5 hg
  obtain ⟨b1, b2, w, b3, b4⟩ := (hf _).later a3 hg h5 (fun b => word_quiet (ws := []) (by simp) hqt.2 b) h3
  rw [a4] at b3
  rw [a5] at b2 b4
  exact ⟨b1, b2, w, b3, b4⟩

/-- What comes next is not whitespace, so it is also read in math mode. -/
theorem nextAny_next_bind {f : TokSpan → P β} {t : Token} (ht : fit t = true → idle t.unwrapMath = true)
    (hws : t.isWs = false) (hf : ∀ t, Judg any From (f t)) : Judg any (NextAny t) (P.next >>= f) := by
  rintro cfg s u0 b s' hq hg ⟨hI, qt, h1, rfl⟩ h
  exact next_next_bind ht hf cfg s u0 b s' hq hg ⟨hI, 0, qt, ⟨h1, hws, fun j hj => absurd hj (Nat.not_lt_zero j)⟩, rfl⟩ h

theorem any_false {m : P α} (h : Judg true I m) : Judg any I m := by
  intro cfg s u0 a s' hq hg hI hm
  obtain ⟨b1, b2, w, b3, b4⟩ := h cfg s u0 a s' hq hg hI hm
  exact ⟨b1, b2, w, b3, fun ht b _ => b4 ht b (.inl rfl)⟩

end Judg
end Verif

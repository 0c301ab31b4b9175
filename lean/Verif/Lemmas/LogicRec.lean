import Verif.Lemmas.LogicLeaf
import Verif.Lemmas.YieldNodes
/-! The logic for the recursive parts of the parser: what holds once there is enough fuel. -/
namespace Verif
open Model Spec Lexer' TokenQueue Logic

variable [L : Limits]

/-- The number of expansions in a history of definitions -/
def unfolds : List DefOp → Nat
  | [] => 0
  | .«unfold» _ :: ops => unfolds ops + 1
  | _ :: ops => unfolds ops

omit L in
theorem unfolds_append (a b : List DefOp) : unfolds (a ++ b) = unfolds a + unfolds b := by
  induction a with
  | nil => simp [unfolds]
  | cons op a ih => cases op <;> simp [unfolds, ih] <;> omega

theorem unfolds_quiet {cfg : ParserConfig} {ops : List DefOp} (h : ∀ op ∈ ops, DefOp.quiet cfg op) : unfolds ops = 0 := by
  induction ops with
  | nil => rfl
  | cons op ops ih =>
    have h1 := h op (by simp)
    have h2 := ih fun o ho => h o (by simp [ho])
    cases op <;> simp_all [unfolds, DefOp.quiet]

/-- What a snippet can do to the definitions -/
def _root_.Verif.Spec.DefOp.own (cfg : ParserConfig) (op : DefOp) : Prop := op.withinSnippet ∧ op.allowed cfg

theorem quiet_within {cfg : ParserConfig} {op : DefOp} (h : op.quiet cfg) : op.own cfg := by
  cases op <;> simp_all [DefOp.quiet, DefOp.withinSnippet, DefOp.own, DefOp.allowed]

/-- The counters of the parser -/
def ctr (s : PState) : Counters := ⟨s.q.equationCount, s.q.labelMap⟩

/-- The counters come from rows with tags. -/
def CountsOn (c c' : Counters) : Prop := ∃ rows, Numbered c rows c'

theorem CountsOn.refl (c : Counters) : CountsOn c c := ⟨[], rfl⟩
theorem CountsOn.of_eq {c c' : Counters} (h : c = c') : CountsOn c c' := ⟨[], h⟩
theorem CountsOn.trans {c c1 c2 : Counters} (h : CountsOn c c1) (h' : CountsOn c1 c2) : CountsOn c c2 := by
  obtain ⟨a, h⟩ := h
  obtain ⟨b, h'⟩ := h'
  exact ⟨a ++ b, numbered_append h h'⟩

/-- What every step of the parser does: some operations on definitions, where every expansion is paid for. -/
structure RR (cfg : ParserConfig) (s : PState) (h : List Token) (s' : PState) (h' : List Token) : Prop where
  defs : ∃ ops, (∀ op ∈ ops, DefOp.own cfg op) ∧
    DefState.run cfg.builtin ⟨s.q.stores, h⟩ ops = some ⟨s'.q.stores, h'⟩ ∧
    unfolds ops + s'.expansionsLeft ≤ s.expansionsLeft
  sub : Sub h h'
  count : CountsOn (ctr s) (ctr s')
  plain : StoresPlain s.q.stores → StoresPlain s'.q.stores

theorem RR.refl (cfg s h) : RR cfg s h s h :=
  ⟨⟨[], by simp, rfl, by simp [unfolds]⟩, fun _ h => h, .refl _, id⟩

theorem RR.trans {cfg s h s1 h1 s2 h2} (a : RR cfg s h s1 h1) (b : RR cfg s1 h1 s2 h2) : RR cfg s h s2 h2 := by
  obtain ⟨ops, hw, hr, he⟩ := a.defs
  obtain ⟨ops', hw', hr', he'⟩ := b.defs
  refine ⟨⟨ops ++ ops', ?_, run_append' hr hr', by rw [unfolds_append]; omega⟩, fun t ht => b.sub _ (a.sub _ ht),
    a.count.trans b.count, fun hp => b.plain (a.plain hp)⟩
  intro op hop
  rcases List.mem_append.1 hop with hop | hop
  · exact hw op hop
  · exact hw' op hop

theorem RP.rr {cfg s h s' h'} (a : RP cfg s h s' h') : RR cfg s h s' h' := by
  obtain ⟨ops, hw, hr⟩ := a.q.defs
  exact ⟨⟨ops, fun op ho => quiet_within (hw op ho), hr, by rw [unfolds_quiet hw, a.exp]; omega⟩, a.q.sub,
    CountsOn.of_eq (by unfold ctr; rw [a.q.count, a.q.labels]), a.q.plain⟩

/-- Some of the parser's own state is changed. -/
theorem RR.own {cfg : ParserConfig} {s s' : PState} {h : List Token} (hq : s'.q = s.q)
    (he : s'.expansionsLeft = s.expansionsLeft) : RR cfg s h s' h := by
  refine ⟨⟨[], by simp, by rw [hq]; rfl, by simp [unfolds, he]⟩, fun _ h => h, CountsOn.of_eq (by unfold ctr; rw [hq]),
    by rw [hq]; exact id⟩

variable {cfg : ParserConfig} {input : Str} {s s' : PState} {h h' : List Token} {α β : Type}

/-- With enough fuel, the computation has the same outcome whatever the fuel: it succeeds with a result which
satisfies `Q`, or fails with an error. -/
inductive Ev (cfg : ParserConfig) (input : Str) (m : Nat → P α) (s : PState) (h : List Token)
    (Q : α → PState → List Token → Prop) : Prop
  | ok (n0 : Nat) (a : α) (s' : PState) (h' : List Token) (hm : ∀ n, n0 ≤ n → m n cfg s = .ok a s')
      (hr : RR cfg s h s' h') (hi : GP input s' h') (hq : Q a s' h')
  | err (n0 : Nat) (e : LatexError) (s' : PState) (h' : List Token) (hm : ∀ n, n0 ≤ n → m n cfg s = .err e s')
      (hr : RR cfg s h s' h') (hg : ErrGood input e)

namespace Ev
variable {m : Nat → P α} {f : Nat → α → P β} {Q : β → PState → List Token → Prop}
  {P' : α → PState → List Token → Prop}

theorem bind (hm : Ev cfg input m s h P')
    (hf : ∀ a s' h', RR cfg s h s' h' → GP input s' h' → P' a s' h' → Ev cfg input (fun n => f n a) s' h' Q) :
    Ev cfg input (fun n => m n >>= f n) s h Q := by
  cases hm with
  | ok n0 a s1 h1 hm hr hi hq =>
    cases hf a s1 h1 hr hi hq with
    | ok n1 b s2 h2 hm2 hr2 hi2 hq2 =>
      refine .ok (max n0 n1) b s2 h2 ?_ (hr.trans hr2) hi2 hq2
      intro n hn
      show St.bind (m n) (f n) cfg s = _
      unfold St.bind
      rw [hm n (by omega)]
      exact hm2 n (by omega)
    | err n1 e s2 h2 hm2 hr2 hg2 =>
      refine .err (max n0 n1) e s2 h2 ?_ (hr.trans hr2) hg2
      intro n hn
      show St.bind (m n) (f n) cfg s = _
      unfold St.bind
      rw [hm n (by omega)]
      exact hm2 n (by omega)
  | err n0 e s1 h1 hm hr hg =>
    refine .err n0 e s1 h1 ?_ hr hg
    intro n hn
    show St.bind (m n) (f n) cfg s = _
    unfold St.bind
    rw [hm n hn]

theorem mono {Q' : α → PState → List Token → Prop} (hm : Ev cfg input m s h P')
    (hq : ∀ a s' h', RR cfg s h s' h' → GP input s' h' → P' a s' h' → Q' a s' h') : Ev cfg input m s h Q' := by
  cases hm with
  | ok n0 a s1 h1 hm hr hi hp => exact .ok n0 a s1 h1 hm hr hi (hq _ _ _ hr hi hp)
  | err n0 e s1 h1 hm hr hg => exact .err n0 e s1 h1 hm hr hg

theorem of_wp {m : P α} (hm : (LP cfg input).Wp m s h P') :
    Ev cfg input (fun _ => m) s h fun a s' h' => P' a s' h' ∧ RP cfg s h s' h' := by
  rcases hm.outcome with ⟨a, s', h', hr, h1, h2, h3⟩ | ⟨e, s', h', hr, h1, h2⟩
  · exact .ok 0 a s' h' (fun _ _ => hr) h1.rr h2 ⟨h3, h1⟩
  · exact .err 0 e s' h' (fun _ _ => hr) h1.rr h2

theorem pure {a : α} (hi : GP input s h) (hq : P' a s h) : Ev cfg input (fun _ => Pure.pure a) s h P' :=
  .ok 0 a s h (fun _ _ => rfl) (RR.refl ..) hi hq

theorem fail {sp : Span} {k} (hs : SpanOk input sp) (hk : k = .internal → MayFail := by exact nofun) :
    Ev cfg input (fun _ => P.fail sp k) s h P' :=
  .err 0 (sp.err k) s h (fun _ _ => rfl) (RR.refl ..) (hs.err k hk)

/-- After a change of the state -/
theorem after {m' : Nat → P α} (hm : ∀ n, m n cfg s = m' n cfg s') (hr : RR cfg s h s' h') (hf : Ev cfg input m' s' h' P') :
    Ev cfg input m s h P' := by
  cases hf with
  | ok n0 a s1 h1 hm1 hr1 hi hp => exact .ok n0 a s1 h1 (fun n hn => (hm n).trans (hm1 n hn)) (hr.trans hr1) hi hp
  | err n0 e s1 h1 hm1 hr1 hg => exact .err n0 e s1 h1 (fun n hn => (hm n).trans (hm1 n hn)) (hr.trans hr1) hg

theorem modify_bind {g : PState → PState} {f : Nat → Unit → P β} (hr : RR cfg s h (g s) h')
    (hf : Ev cfg input (fun n => f n ()) (g s) h' Q) : Ev cfg input (fun n => St.modify g >>= f n) s h Q :=
  after (m' := fun n => f n ()) (s' := g s) (fun _ => rfl) hr hf

theorem get_bind {f : Nat → PState → P β} (hf : Ev cfg input (fun n => f n s) s h Q) :
    Ev cfg input (fun n => St.get >>= f n) s h Q :=
  after (m' := fun n => f n s) (s' := s) (fun _ => rfl) (RR.refl ..) hf

theorem config_bind {f : Nat → ParserConfig → P β} (hf : Ev cfg input (fun n => f n cfg) s h Q) :
    Ev cfg input (fun n => St.config >>= f n) s h Q :=
  after (m' := fun n => f n cfg) (s' := s) (fun _ => rfl) (RR.refl ..) hf

theorem peek_bind {f : Nat → TokSpan → P β} (hf : Ev cfg input (fun n => f n s.q.peek) s h Q) :
    Ev cfg input (fun n => P.peek >>= f n) s h Q :=
  after (m' := fun n => f n s.q.peek) (s' := s) (fun _ => rfl) (RR.refl ..) hf

theorem loopFuel_bind {f : Nat → Nat → P β} (hf : Ev cfg input (fun n => f n s.q.loopFuel) s h Q) :
    Ev cfg input (fun n => P.loopFuel >>= f n) s h Q :=
  after (m' := fun n => f n s.q.loopFuel) (s' := s) (fun _ => rfl) (RR.refl ..) hf

theorem shift (hm : Ev cfg input (fun n => m (n + 1)) s h P') : Ev cfg input m s h P' := by
  cases hm with
  | ok n0 a s1 h1 hm hr hi hp =>
    refine .ok (n0 + 1) a s1 h1 ?_ hr hi hp
    intro n hn
    obtain ⟨k, rfl⟩ : ∃ k, n = k + 1 := ⟨n - 1, by omega⟩
    exact hm k (by omega)
  | err n0 e s1 h1 hm hr hg =>
    refine .err (n0 + 1) e s1 h1 ?_ hr hg
    intro n hn
    obtain ⟨k, rfl⟩ : ∃ k, n = k + 1 := ⟨n - 1, by omega⟩
    exact hm k (by omega)

end Ev

/-! ### Budgets -/

/-- Less than the budget is left to read. A budget consists of a number of expansions and the weight of what is
left to read. -/
def Under (b : Nat × Nat) (s : PState) : Prop :=
  s.expansionsLeft < b.1 ∨ (s.expansionsLeft = b.1 ∧ MU s < b.2)

/-- The same when a token has already been read -/
def UnderT (b : Nat × Nat) (t : Token) (s : PState) : Prop :=
  s.expansionsLeft < b.1 ∨ (s.expansionsLeft = b.1 ∧ weight t + MU s < b.2)

/-- At most the budget is left -/
def WithinT (b : Nat × Nat) (t : Token) (s : PState) : Prop :=
  s.expansionsLeft < b.1 ∨ (s.expansionsLeft = b.1 ∧ weight t + MU s ≤ b.2)

/-- Where the parser is -/
structure At (b : Nat × Nat) (md : Mode) (c : Counters) (s : PState) : Prop where
  under : Under b s
  mode : mode s = md
  ctr : ctr s = c

variable {b : Nat × Nat} {md : Mode} {c c' : Counters}

theorem RP.ctr (hr : RP cfg s h s' h') : ctr s' = ctr s := by
  unfold Verif.ctr; rw [hr.q.count, hr.q.labels]

theorem RP.under (hr : RP cfg s h s' h') (hu : Under b s) : Under b s' := by
  have h1 := hr.exp
  have h2 := hr.q.mu
  unfold Under at *
  rw [h1]
  rcases hu with hu | hu
  · exact .inl hu
  · exact .inr ⟨hu.1, Nat.lt_of_le_of_lt h2 hu.2⟩

theorem At.step (ha : At b md c s) (hr : RP cfg s h s' h') : At b md c s' :=
  ⟨hr.under ha.under, hr.mode.trans ha.mode, hr.ctr.trans ha.ctr⟩

/-- Reading a token -/
theorem RP.underT {t : TokSpan} (hr : RP cfg s h s' h') (ht : Read cfg input s.q t s'.q h') (hu : Under b s) :
    UnderT b t.tok s' := by
  have h1 := hr.exp
  have h2 := ht.mu
  unfold Under UnderT at *
  rw [h1]
  rcases hu with hu | hu
  · exact .inl hu
  · refine .inr ⟨hu.1, Nat.lt_of_le_of_lt ?_ hu.2⟩
    simp only [MU]
    omega

theorem Ev.leaf {m : P α} {f : Nat → α → P β} {Q : β → PState → List Token → Prop}
    {P' : α → PState → List Token → Prop} (ha : At b md c s) (hm : (LP cfg input).Wp m s h P')
    (hf : ∀ a s' h', RP cfg s h s' h' → GP input s' h' → At b md c s' → P' a s' h' →
      Ev cfg input (fun n => f n a) s' h' Q) : Ev cfg input (fun n => m >>= f n) s h Q :=
  Ev.bind (Ev.of_wp hm) fun a s1 h1 _ hg1 hp => hf a s1 h1 hp.2 hg1 (ha.step hp.2) hp.1

/-- The parser was somewhere with the counters at `c`, and has made some nodes since. -/
def Made (cfg : ParserConfig) (b : Nat × Nat) (md : Mode) (c : Counters) (ns : List Node) (s : PState) : Prop :=
  ∃ c', At b md c' s ∧ Yield cfg c ns c'

/-- The position of `\limits` -/
def LimOk (input : Str) (b : BoundsWithLimits) : Prop := ∀ k sp, b.limitsSpan = some (k, sp) → SpanOk input sp

/-- `parse_token` does what it should. -/
def TokEv (cfg : ParserConfig) (input : Str) (b : Nat × Nat) (t : TokSpan) (s : PState) (h : List Token) : Prop :=
  ∀ pa prev, Ev cfg input (fun n => (parser n).parseToken t pa prev) s h fun r s' _ =>
    Made cfg b (mode s) (ctr s) [r.2] s'

/-- The loop of `parse_sequence` does what it should. -/
def SeqEv (cfg : ParserConfig) (input : Str) (b : Nat × Nat) (s : PState) (h : List Token) : Prop :=
  ∀ e prev nodes inf c0, Yield cfg c0 (flatSeq nodes inf) (ctr s) →
    Ev cfg input (fun n => (parser n).seqLoop e prev nodes inf) s h fun r s' _ =>
      Under b s' ∧ (mode s').hack = (mode s).hack ∧ (mode s').env = (mode s).env ∧
      Yield cfg c0 (flatSeq r.1 r.2) (ctr s') ∧ e.isMatch s'.q.peek.tok = true

/-- The loop of `get_bounds` does what it should. -/
def BndEv (cfg : ParserConfig) (input : Str) (b : Nat × Nat) (s : PState) (h : List Token) : Prop :=
  ∀ ret c0, Yield cfg c0 (flatB ret.bounds) (ctr s) → LimOk input ret →
    Ev cfg input (fun n => (parser n).getBounds none ret) s h fun r s' _ =>
      (∃ c', At b (mode s) c' s' ∧ Yield cfg c0 (flatB r.bounds) c') ∧ LimOk input r ∧
      (ret.bounds.isTrivial = false → r.bounds.isTrivial = false)

/-- Everything works which needs less than the budget. -/
structure Hyp (cfg : ParserConfig) (input : Str) (b : Nat × Nat) : Prop where
  tok : ∀ t s h, GP input s h → TokOk input h t → Ready cfg t.tok → UnderT b t.tok s → TokEv cfg input b t s h
  seq : ∀ s h, GP input s h → Under b s → SeqEv cfg input b s h
  bnd : ∀ s h, GP input s h → Under b s → BndEv cfg input b s h

end Verif

import Verif.Lemmas.Queue
/-! Property C08: looking ahead does not change what is read. -/
namespace Verif
open Model Spec

/-- C08. Any sequence of looking at tokens, reading them and putting tokens back which succeeds behaves
like on the stream of all tokens still to come: what is returned and what remains. -/
theorem C08_stream (cfg : ParserConfig) (q : TokenQueue) (hq : QInv q) (ops : List QueueOp) (outs q')
    (h : runOps ops cfg q = .ok outs q') :
    StreamSteps (upcoming cfg q) ops outs (upcoming cfg q') ∧ QInv q' := by
  induction ops generalizing q outs q' with
  | nil => cases h; exact ⟨.nil, hq⟩
  | cons op ops ih =>
    unfold runOps at h
    simp only [bind, St.bind] at h
    rcases runOp_spec cfg q hq op with ⟨out, q1, h1, h2, h3⟩ | ⟨e, q1, h1, h2⟩
    · rw [h1] at h
      simp only at h
      cases h4 : runOps ops cfg q1 with
      | ok outs1 q2 =>
        rw [h4] at h
        cases h
        obtain ⟨h5, h6⟩ := ih q1 h2 outs1 _ h4
        exact ⟨.cons h3 h5, h6⟩
      | err e q2 => rw [h4] at h; cases h
      | panic => rw [h4] at h; cases h
      | fuel => rw [h4] at h; cases h
    · rw [h1] at h; cases h

/-- C08. A sequence of operations never gets stuck, and it only fails if the source cannot be tokenised or
a command without meaning is read. -/
theorem C08_fails (cfg : ParserConfig) (q : TokenQueue) (hq : QInv q) (ops : List QueueOp) :
    (∃ outs q', runOps ops cfg q = .ok outs q') ∨
    (∃ e q' done op rest outs u, runOps ops cfg q = .err e q' ∧ ops = done ++ op :: rest ∧
      StreamSteps (upcoming cfg q) done outs u ∧ StreamFails cfg u op e) := by
  induction ops generalizing q with
  | nil => exact Or.inl ⟨[], q, rfl⟩
  | cons op ops ih =>
    unfold runOps
    simp only [bind, St.bind]
    rcases runOp_spec cfg q hq op with ⟨out, q1, h1, h2, h3⟩ | ⟨e, q1, h1, h2⟩
    · rw [h1]
      simp only
      rcases ih q1 h2 with ⟨outs, q', h4⟩ | ⟨e, q', done, op', rest, outs, u, h4, h5, h6, h7⟩
      · rw [h4]; exact Or.inl ⟨_, _, rfl⟩
      · rw [h4]
        exact Or.inr ⟨e, q', op :: done, op', rest, out :: outs, u, rfl, by rw [h5]; rfl, .cons h3 h6, h7⟩
    · rw [h1]
      exact Or.inr ⟨e, q1, [], op, ops, [], _, rfl, rfl, .nil, h2⟩

theorem _root_.Verif.Spec.FirstAt.unique {u : Stream} {cond p t p' t'} (h : FirstAt u cond p t) (h' : FirstAt u cond p' t') :
    p = p' ∧ t = t' := by
  obtain ⟨h1, h2, h3⟩ := h
  obtain ⟨h1', h2', h3'⟩ := h'
  have hp : p = p' := by
    rcases Nat.lt_trichotomy p p' with hlt | heq | hgt
    · obtain ⟨x, hx, hn⟩ := h3' p hlt
      rw [h1] at hx; cases hx; exact absurd h2 hn
    · exact heq
    · obtain ⟨x, hx, hn⟩ := h3 p' hgt
      rw [h1'] at hx; cases hx; exact absurd h2' hn
  subst hp
  rw [h1] at h1'; cases h1'; exact ⟨rfl, rfl⟩

theorem _root_.Verif.Spec.StreamStep.unique {u op out u1 out' u2} (h : StreamStep u op out u1) (h' : StreamStep u op out' u2) :
    out = out' ∧ u1 = u2 := by
  cases h with
  | peek h1 => cases h' with | peek h2 => obtain ⟨rfl, rfl⟩ := h1.unique h2; exact ⟨rfl, rfl⟩
  | peekAny h1 => cases h' with | peekAny h2 => rw [h1] at h2; cases h2; exact ⟨rfl, rfl⟩
  | peekSecond h1 h2 =>
    cases h' with
    | peekSecond h3 h4 =>
      obtain ⟨rfl, rfl⟩ := h1.unique h3
      obtain ⟨rfl, rfl⟩ := h2.unique h4
      exact ⟨rfl, rfl⟩
  | peekClass h1 h2 =>
    cases h' with
    | peekClass h3 h4 =>
      obtain ⟨rfl, rfl⟩ := h1.unique h3
      rw [h2] at h4; cases h4; exact ⟨rfl, rfl⟩
  | next h1 => cases h' with | next h2 => obtain ⟨rfl, rfl⟩ := h1.unique h2; exact ⟨rfl, rfl⟩
  | nextAny h1 => cases h' with | nextAny h2 => rw [h1] at h2; cases h2; exact ⟨rfl, rfl⟩
  | push ts => cases h' with | push _ => exact ⟨rfl, rfl⟩

/-- C08. The stream determines everything. -/
theorem C08_determined {u ops outs u1 outs' u2} (h : StreamSteps u ops outs u1)
    (h' : StreamSteps u ops outs' u2) : outs = outs' ∧ u1 = u2 := by
  induction h generalizing outs' u2 with
  | nil => cases h'; exact ⟨rfl, rfl⟩
  | cons h1 h2 ih =>
    cases h' with
    | cons h3 h4 =>
      obtain ⟨rfl, rfl⟩ := h1.unique h3
      obtain ⟨rfl, rfl⟩ := ih h4
      exact ⟨rfl, rfl⟩

/-- Looking ahead, as opposed to reading or putting back -/
def QueueOp.looks : QueueOp → Bool
  | .peek | .peekAny | .peekSecond | .peekClass => true
  | .next | .nextAny | .push _ => false

/-- The results of the operations which do not only look ahead -/
def readOuts : List QueueOp → List QueueOut → List QueueOut
  | op :: ops, out :: outs => if QueueOp.looks op then readOuts ops outs else out :: readOuts ops outs
  | _, _ => []

/-- C08. Looking ahead in between makes no difference to what is read, nor to what remains. -/
theorem C08_transparent (cfg : ParserConfig) (q : TokenQueue) (hq : QInv q) (ops : List QueueOp)
    (outs q' outs' q'') (h : runOps ops cfg q = .ok outs q')
    (h' : runOps (ops.filter fun o => !QueueOp.looks o) cfg q = .ok outs' q'') :
    outs' = readOuts ops outs ∧ upcoming cfg q'' = upcoming cfg q' := by
  have h1 := (C08_stream cfg q hq ops outs q' h).1
  have h2 := (C08_stream cfg q hq _ outs' q'' h').1
  have key : StreamSteps (upcoming cfg q) (ops.filter fun o => !QueueOp.looks o) (readOuts ops outs)
      (upcoming cfg q') := by
    clear h h' h2 hq
    generalize upcoming cfg q = u at h1 ⊢
    generalize upcoming cfg q' = u' at h1 ⊢
    induction h1 with
    | nil => exact .nil
    | @cons u op out u1 ops outs u2 hs hr ih =>
      cases hl : QueueOp.looks op with
      | true =>
        have : u1 = u := by cases hs <;> first | rfl | cases hl
        subst this
        simpa [readOuts, hl] using ih
      | false =>
        simp only [List.filter_cons, hl, Bool.not_false, if_true, readOuts, Bool.false_eq_true, if_false]
        exact .cons hs ih
  exact C08_determined h2 key

/-- C08. What is looked at is what the next read returns (as its variant for math mode). -/
theorem C08_peek_next (cfg : ParserConfig) (q : TokenQueue) (hq : QInv q) (t : TokSpan) (q' : TokenQueue)
    (h : TokenQueue.next cfg q = .ok t q') : t = ⟨q.peek.tok.unwrapMath, q.peek.span⟩ := by
  have h' : runOps [.peek, .next] cfg q = .ok [.tok q.peek, .tok t] q' := by
    simp only [runOps, runOp, bind, St.bind, pure, St.pure, h]
  have := (C08_stream cfg q hq _ _ _ h').1
  cases this with
  | cons h1 h2 =>
    cases h2 with
    | cons h2 h3 =>
      generalize hp : q.peek = p at h1 ⊢
      cases h1 with
      | peek h1 =>
        cases h2 with
        | next h2 =>
          obtain ⟨rfl, rfl⟩ := h1.unique h2
          rfl

/-- C08. The same for reading and looking at any token -/
theorem C08_peekAny_nextAny (cfg : ParserConfig) (q : TokenQueue) (hq : QInv q) (t : TokSpan)
    (q' : TokenQueue) (h : TokenQueue.nextAny cfg q = .ok t q') : t = q.peekAny := by
  have h' : runOps [.peekAny, .nextAny] cfg q = .ok [.tok q.peekAny, .tok t] q' := by
    simp only [runOps, runOp, bind, St.bind, pure, St.pure, h]
  have := (C08_stream cfg q hq _ _ _ h').1
  cases this with
  | cons h1 h2 =>
    cases h2 with
    | cons h2 h3 =>
      generalize q.peekAny = p at h1 ⊢
      cases h1 with
      | peekAny h1 =>
        cases h2 with
        | nextAny h2 =>
          rw [h1] at h2; cases h2; rfl

/-- C08. At the start, the stream consists of the tokens of the source. -/
theorem C08_start (cfg : ParserConfig) (input : Str) (g : GlobalState) (q : TokenQueue)
    (h : TokenQueue.new cfg input g = .ok () q) :
    QInv q ∧ ∀ i, upcoming cfg q i =
      (nthLexed i (Lexer.new input)).map (resolveLexed cfg ⟨cfg.customCmds, g.customCmds, {}⟩) := by
  rcases new_spec cfg input g with ⟨q', h1, h2, h3⟩ | ⟨e, q', h1, h2⟩
  · rw [h1] at h; cases h
    refine ⟨h3, fun i => ?_⟩
    rw [h2.upcoming]
    rfl
  · rw [h1] at h; cases h

/-- A sequence of operations with everything in it, on real input -/
def exampleOps : List QueueOp :=
  [.peek, .peekSecond, .peekClass, .next, .push [Token.relax.queued], .peekAny, .nextAny, .next, .nextAny]

example : (match TokenQueue.new {} c!"a + b" {} with
    | .ok _ q => match runOps exampleOps {} q with
      | .ok outs _ => outs.length
      | _ => 0
    | _ => 0) = 9 := by decide +kernel

end Verif

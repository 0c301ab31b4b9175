import Verif.Lemmas.LogicRec
/-! The recursive functions of the parser, one after the other. -/
namespace Verif
open Model Spec Lexer' TokenQueue Logic

variable [L : Limits] {cfg : ParserConfig} {input : Str} {s s' : PState} {h h' : List Token} {α β : Type}
variable {b : Nat × Nat} {md : Mode} {c c' : Counters}

/-- What an arm of `parse_one_token` gives -/
def Arm (cfg : ParserConfig) (b : Nat × Nat) (md : Mode) (c : Counters) : Parsed → PState → List Token → Prop
  | .node _ n, s', _ => Made cfg b md c [n] s'
  | .expansion, s', _ => At b md c s'

omit L in
theorem At.made (ha : At b md c s) {n : Node} (hn : Yield cfg c [n] c) : Made cfg b md c [n] s := ⟨c, ha, hn⟩

/-- Changes of the parser's own state -/
theorem GP.own (hg : GP input s h) (hq : s'.q = s.q) (ha : s'.cmdArgs = s.cmdArgs) (he : s'.env = s.env) :
    GP input s' h := by
  obtain ⟨h1, h2, h3⟩ := hg
  exact ⟨by rw [hq]; exact h1, by rw [ha]; exact h2, by rw [he]; exact h3⟩

omit L in
theorem At.own (ha : At b md c s) (hq : s'.q = s.q) (he : s'.expansionsLeft = s.expansionsLeft) :
    At b (Verif.mode s') c s' := by
  obtain ⟨h1, h2, h3⟩ := ha
  refine ⟨?_, rfl, ?_⟩
  · unfold Under MU at *; rw [hq, he]; exact h1
  · unfold Verif.ctr at *; rw [hq]; exact h3

omit L in
theorem At.style (ha : At b md c s) (x : Style) : At b { md with style := x } c { s with style := x } := by
  have := ha.own (s' := { s with style := x }) rfl rfl
  rw [← ha.mode]; exact this

omit L in
theorem At.restoreStyle {b0 c0 s0 x} (ha : At b { md with style := x } c s) (h0 : At b0 md c0 s0) :
    At b md c { s with style := s0.style } := by
  have := ha.style s0.style
  rw [← h0.mode]
  rw [← h0.mode] at this
  exact this

omit L in
theorem At.transform (ha : At b md c s) (x) : At b { md with transform := x } c { s with transform := x } := by
  have := ha.own (s' := { s with transform := x }) rfl rfl
  rw [← ha.mode]; exact this

omit L in
theorem At.restoreTransform {b0 c0 s0 x} (ha : At b { md with transform := x } c s) (h0 : At b0 md c0 s0) :
    At b md c { s with transform := s0.transform } := by
  have := ha.transform s0.transform
  rw [← h0.mode]
  rw [← h0.mode] at this
  exact this

omit L in
theorem At.hack (ha : At b md c s) (x) : At b { md with hack := x } c { s with rightBoundaryHack := x } := by
  have := ha.own (s' := { s with rightBoundaryHack := x }) rfl rfl
  rw [← ha.mode]; exact this

omit L in
theorem At.restoreHack {b0 c0 s0 x} (ha : At b { md with hack := x } c s) (h0 : At b0 md c0 s0) :
    At b md c { s with rightBoundaryHack := s0.rightBoundaryHack } := by
  have := ha.hack s0.rightBoundaryHack
  rw [← h0.mode]
  rw [← h0.mode] at this
  exact this

theorem wp_skipIf {x : Bool} (hg : GP input s h) :
    (LP cfg input).Wp (P.skipIf x) s h fun _ s' _ => x = false → s' = s := by
  unfold P.skipIf
  cases x with
  | true => exact Wp.bind (wp_Pnext hg) fun _ _ _ _ hg1 _ => Wp.pure hg1 nofun
  | false => exact Wp.pure hg fun _ => rfl

theorem wp_crampedStyle (hg : GP input s h) : (LP cfg input).Wp Rec.crampedStyle s h fun _ _ _ => True := by
  unfold Rec.crampedStyle
  refine Wp.bind (wp_Pnext hg) fun t s1 h1 _ hg1 ht => ?_
  split
  · refine Wp.bind (wp_Pnext hg1) fun t2 s2 h2 _ hg2 ht2 => ?_
    split
    · exact Wp.pure hg2 trivial
    · exact wp_fail ht2.1.ok.span
  · exact Wp.pure hg1 trivial
  · exact wp_fail ht.1.ok.span

omit L in
theorem yield_primeNodes {d n} : Yield cfg c (primeNodes d n) c := by
  unfold primeNodes
  simp only
  have hop : ∀ o : OrdLike, Yield cfg c [Node.plainOp o.asOp] c := fun o => .op (by decide)
  split
  · exact hop _
  · refine .cons (hop _) ?_
    generalize n - 1 = k
    induction k with
    | zero => exact .nil ..
    | succ k ih =>
      rw [List.replicate_succ, List.flatten_cons]
      exact .append (.two (.space _) (hop _)) ih

omit L in
theorem yield_primes {l : List (PrimeDirection × Nat)} : Yield cfg c (l.flatMap fun (d, n) => primeNodes d n) c := by
  induction l with
  | nil => exact .nil ..
  | cons p l ih => rw [List.flatMap_cons]; exact .append yield_primeNodes ih

omit L in
theorem yield_rowUnless {ns : List Node} (hy : Yield cfg c ns c') : Yield cfg c [Rec.rowUnlessSingle ns] c' := by
  unfold Rec.rowUnlessSingle
  split
  · exact hy
  · exact hy.row

omit L in
theorem opLimits_flags {bl : BoundsWithLimits} {m} : WeakFlags (opLimits bl m).2 := by
  unfold opLimits
  split
  · decide
  · split <;> first | decide | exact (by decide : WeakFlags OpAttrs.empty)

omit L in
theorem pseudoOpLimits_flags {bl : BoundsWithLimits} {m} : FlagsOk (pseudoOpLimits bl m).2 := by
  unfold pseudoOpLimits
  split
  · decide
  · split <;> decide

omit L in
theorem largeOpLimits_flags {bl : BoundsWithLimits} : WeakFlags (largeOpLimits bl).2 := by
  unfold largeOpLimits
  simp only
  split
  · decide
  · split <;> decide

namespace Hyp
variable (H : Hyp cfg input b)
include H

theorem token {t : TokSpan} {pa prev} (hg : GP input s h) (ht : TokOk input h t) (hk : Ready cfg t.tok)
    (hu : UnderT b t.tok s) (hmd : mode s = md) (hc : ctr s = c) :
    Ev cfg input (fun n => (parser n).parseToken t pa prev) s h fun r s' _ => Made cfg b md c [r.2] s' := by
  subst hmd hc
  exact H.tok t s h hg ht hk hu pa prev

/-- Read a token and parse it. -/
theorem readToken {f : Nat → TokSpan → P β} {Q : β → PState → List Token → Prop} (hg : GP input s h) (ha : At b md c s)
    (hf : ∀ t s' h', RP cfg s h s' h' → GP input s' h' → At b md c s' → SpanOk input t.span → 
      (∀ pa prev, Ev cfg input (fun n => (parser n).parseToken t pa prev) s' h' fun r s' _ => Made cfg b md c [r.2] s') →
      Ev cfg input (fun n => f n t) s' h' Q) :
    Ev cfg input (fun n => P.next >>= f n) s h Q := by
  refine Ev.leaf ha (wp_Pnext hg) ?_
  rintro t s1 h1 hr hg1 ha1 ⟨ht, he⟩
  exact hf t s1 h1 hr hg1 ha1 ht.ok.span fun pa prev =>
    H.token hg1 ht.ok (hg.q.ready he ht.known) (hr.underT ht ha.under) ha1.mode ha1.ctr

theorem next {pa} (hg : GP input s h) (ha : At b md c s) :
    Ev cfg input (fun n => (parser n).parseNext pa) s h fun r s' _ => Made cfg b md c [r] s' := by
  refine H.readToken hg ha fun t s1 h1 _ hg1 ha1 _ ht => ?_
  refine Ev.bind (ht pa .default) ?_
  rintro ⟨cl, n⟩ s2 h2 - hg2 hm
  exact Ev.pure hg2 hm

theorem sequenceEnd {e prev keep} (hg : GP input s h) (ha : At b md c s) :
    Ev cfg input (fun n => (parser n).parseSequence e prev keep) s h fun r s' _ =>
      Made cfg b md c r s' ∧ (keep = true → e.isMatch s'.q.peek.tok = true) := by
  refine Ev.get_bind ?_
  refine Ev.bind (H.seq s h hg ha.under e prev [] none c (by rw [ha.ctr]; exact Yield.nil ..)) ?_
  rintro ⟨nodes, inf⟩ s1 h1 - hg1 ⟨hu, hh, he, hy, hend⟩
  refine Ev.bind (Ev.of_wp (wp_skipIf hg1)) ?_
  rintro - s2 h2 - hg2 ⟨hsame, hr⟩
  refine Ev.modify_bind (h' := h2) (RR.own rfl rfl) ?_
  refine Ev.pure (hg2.own rfl rfl rfl) ⟨⟨ctr s2, ⟨?_, ?_, rfl⟩, ?_⟩, ?_⟩
  · exact hr.under hu
  · rw [← ha.mode]
    have h1 := hr.mode
    unfold mode at hh he h1 ⊢
    simp only [Mode.mk.injEq] at hh he h1 ⊢
    exact ⟨trivial, trivial, by rw [h1.2.2.1, hh], by rw [h1.2.2.2, he]⟩
  · rw [hr.ctr]; exact hy.finishInfix
  · rintro rfl
    rw [hsame rfl]; exact hend

theorem sequence {e prev keep} (hg : GP input s h) (ha : At b md c s) :
    Ev cfg input (fun n => (parser n).parseSequence e prev keep) s h fun r s' _ => Made cfg b md c r s' :=
  (H.sequenceEnd hg ha).mono fun _ _ _ _ _ h => h.1

theorem sequenceIfEnd {e prev keep pa sp} (hg : GP input s h) (ha : At b md c s) (hs : SpanOk input sp) :
    Ev cfg input (fun n => (parser n).parseSequenceIfInSequence pa sp e prev keep) s h fun r s' _ =>
      Made cfg b md c r s' ∧ (keep = true → e.isMatch s'.q.peek.tok = true) := by
  unfold Rec.parseSequenceIfInSequence
  split
  · exact H.sequenceEnd hg ha
  · exact Ev.fail hs

theorem sequenceIf {e prev keep pa sp} (hg : GP input s h) (ha : At b md c s) (hs : SpanOk input sp) :
    Ev cfg input (fun n => (parser n).parseSequenceIfInSequence pa sp e prev keep) s h fun r s' _ =>
      Made cfg b md c r s' := (H.sequenceIfEnd hg ha hs).mono fun _ _ _ _ _ h => h.1

theorem bounds (hg : GP input s h) (ha : At b md c s) :
    Ev cfg input (fun n => (parser n).getBounds none {}) s h fun r s' _ =>
      (∃ c', At b md c' s' ∧ Yield cfg c (flatB r.bounds) c') ∧ LimOk input r := by
  have := H.bnd s h hg ha.under {} c (by rw [ha.ctr]; exact Yield.nil ..) nofun
  rw [ha.mode] at this
  exact this.mono fun r s' h' _ _ hx => ⟨hx.1, hx.2.1⟩

/-! ### Scripts -/

theorem script (hg : GP input s h) (ha : At b md c s) :
    Ev cfg input (fun n => (parser n).parseScript) s h fun r s' _ => Made cfg b md c [r] s' := by
  refine Ev.leaf ha (wp_Pnext hg) ?_
  rintro t s1 h1 hr hg1 ha1 ⟨ht, he⟩
  have hu := hr.underT ht ha.under
  split
  · exact Ev.fail ht.ok.span
  · exact Ev.fail ht.ok.span
  · exact Ev.fail ht.ok.span
  · exact Ev.fail ht.ok.span
  · refine Ev.get_bind ?_
    refine Ev.modify_bind (h' := h1) (RR.own rfl rfl) ?_
    refine Ev.bind (H.token (hg1.own rfl rfl rfl) ht.ok (hg.q.ready he ht.known) hu (ha1.style _).mode (ha1.style _).ctr) ?_
    rintro ⟨cl, n⟩ s2 h2 - hg2 ⟨c2, ha2, hy2⟩
    refine Ev.modify_bind (h' := h2) (RR.own rfl rfl) ?_
    exact Ev.pure (hg2.own rfl rfl rfl) ⟨c2, ha2.restoreStyle ha1, hy2⟩

theorem subOrSup {kind} (hg : GP input s h) (ha : At b md c s) :
    Ev cfg input (fun n => (parser n).getSubOrSup kind) s h fun r s' _ => Made cfg b md c [r] s' := by
  unfold Rec.getSubOrSup
  split
  · rename_i k
    refine Ev.loopFuel_bind ?_
    refine Ev.leaf ha (wp_primesLoop hg (by have := cnt_loopFuel s.q; omega)) ?_
    rintro ⟨ps, fol⟩ s1 h1 - hg1 ha1 -
    have hp : Yield cfg c (ps.reverse.flatMap fun (d, n) => primeNodes d n) c := yield_primes
    simp only
    split
    · refine Ev.leaf ha1 (wp_PnextAny hg1) fun _ s2 h2 _ hg2 ha2 _ => ?_
      refine Ev.bind (H.script hg2 ha2) ?_
      rintro n s3 h3 - hg3 ⟨c3, ha3, hy3⟩
      exact Ev.pure hg3 ⟨c3, ha3, yield_rowUnless (hp.snoc hy3)⟩
    · exact Ev.pure hg1 ⟨c, ha1, yield_rowUnless hp⟩
  · exact H.script hg ha

theorem bounds' {ret : BoundsWithLimits} {c0} (hg : GP input s h) (ha : At b md c s)
    (hy : Yield cfg c0 (flatB ret.bounds) c) (hl : LimOk input ret) :
    Ev cfg input (fun n => (parser n).getBounds none ret) s h fun r s' _ =>
      (∃ c', At b md c' s' ∧ Yield cfg c0 (flatB r.bounds) c') ∧ LimOk input r ∧
      (ret.bounds.isTrivial = false → r.bounds.isTrivial = false) := by
  have := H.bnd s h hg ha.under ret c0 (by rw [ha.ctr]; exact hy) hl
  rw [ha.mode] at this
  exact this

/-- The script has been started by a token which is read already. -/
theorem addBound {sp kind} {ret : BoundsWithLimits} {c0} (hg : GP input s h) (ha : At b md c s)
    (hy : Yield cfg c0 (flatB ret.bounds) c) (hl : LimOk input ret) (hs : SpanOk input sp) :
    Ev cfg input (fun n => (parser n).addBound true sp kind ret) s h fun r s' _ =>
      (∃ c', At b md c' s' ∧ Yield cfg c0 (flatB r.bounds) c') ∧ LimOk input r ∧ r.bounds.isTrivial = false := by
  refine Ev.leaf ha (wp_skipIf hg) fun _ s1 h1 _ hg1 ha1 _ => ?_
  refine Ev.bind (H.subOrSup hg1 ha1) ?_
  rintro n s2 h2 - hg2 ⟨c2, ha2, hy2⟩
  have hx := hy.append hy2
  obtain ⟨⟨sub, sup⟩, lim⟩ := ret
  split
  · cases sub with
    | some _ => exact Ev.fail hs
    | none =>
      refine (H.bounds' hg2 ha2 (c0 := c0) (ret := ⟨⟨some n, sup⟩, lim⟩) ?_ hl).mono ?_
      · cases sup with
        | none => exact hx
        | some m => exact hx.perm (.swap _ _ _)
      · rintro r s3 h3 - - ⟨h1, h2, h3⟩
        exact ⟨h1, h2, h3 rfl⟩
  · cases sup with
    | some _ => exact Ev.fail hs
    | none =>
      refine (H.bounds' hg2 ha2 (c0 := c0) (ret := ⟨⟨sub, some n⟩, lim⟩) ?_ hl).mono ?_
      · cases sub with
        | none => exact hx
        | some m => exact hx
      · rintro r s3 h3 - - ⟨h1, h2, h3⟩
        refine ⟨h1, h2, h3 ?_⟩
        cases sub <;> rfl

/-! ### The longer arms -/

theorem sqrt (hg : GP input s h) (ha : At b md c s) :
    Ev cfg input (fun n => (parser n).parseSqrt) s h (Arm cfg b md c) := by
  refine H.readToken hg ha fun t s1 h1 hr hg1 ha1 hs ht => ?_
  split
  · refine Ev.bind (H.sequence hg1 ha1) ?_
    rintro ns s2 h2 - hg2 ⟨c2, ha2, hy2⟩
    refine Ev.bind (H.next hg2 ha2) ?_
    rintro n s3 h3 - hg3 ⟨c3, ha3, hy3⟩
    exact Ev.pure hg3 ⟨c3, ha3, .wrap _ (.two hy2.nodeVec hy3) (.refl _) trivial rfl⟩
  · refine Ev.bind (ht _ _) ?_
    rintro ⟨cl, n⟩ s2 h2 - hg2 ⟨c2, ha2, hy2⟩
    exact Ev.pure hg2 ⟨c2, ha2, .wrap _ hy2 (.refl _) trivial rfl⟩

theorem frac {attr isBinom} (hg : GP input s h) (ha : At b md c s) :
    Ev cfg input (fun n => (parser n).parseFrac attr isBinom) s h (Arm cfg b md c) := by
  refine Ev.get_bind ?_
  refine Ev.modify_bind (h' := h) (RR.own rfl rfl) ?_
  refine Ev.bind (H.next (hg.own rfl rfl rfl) (ha.style _)) ?_
  rintro n s1 h1 - hg1 ⟨c1, ha1, hy1⟩
  refine Ev.bind (H.next hg1 ha1) ?_
  rintro m s2 h2 - hg2 ⟨c2, ha2, hy2⟩
  refine Ev.modify_bind (h' := h2) (RR.own rfl rfl) ?_
  split
  · exact Ev.pure (hg2.own rfl rfl rfl) ⟨c2, ha2.restoreStyle ha, .fence (.frac hy1 hy2)⟩
  · exact Ev.pure (hg2.own rfl rfl rfl) ⟨c2, ha2.restoreStyle ha, .frac hy1 hy2⟩

theorem genfrac (hg : GP input s h) (ha : At b md c s) :
    Ev cfg input (fun n => (parser n).parseGenfrac) s h (Arm cfg b md c) := by
  refine Ev.leaf ha (wp_genfracDelimiter hg) fun o s1 h1 _ hg1 ha1 _ => ?_
  refine Ev.leaf ha1 (wp_genfracDelimiter hg1) fun cl s2 h2 _ hg2 ha2 _ => ?_
  refine Ev.leaf ha2 (wp_genfracLength hg2) fun lt s3 h3 _ hg3 ha3 _ => ?_
  refine Ev.leaf ha3 (wp_genfracStyle hg3) fun st s4 h4 _ hg4 ha4 _ => ?_
  refine Ev.bind (H.next hg4 ha4) ?_
  rintro n s5 h5 - hg5 ⟨c5, ha5, hy5⟩
  refine Ev.bind (H.next hg5 ha5) ?_
  rintro m s6 h6 - hg6 ⟨c6, ha6, hy6⟩
  exact Ev.pure hg6 ⟨c6, ha6, .fence (.frac hy5 hy6)⟩

theorem overset {isOver prev} (hg : GP input s h) (ha : At b md c s) :
    Ev cfg input (fun n => (parser n).parseOverset isOver prev) s h (Arm cfg b md c) := by
  refine Ev.get_bind ?_
  refine Ev.modify_bind (h' := h) (RR.own rfl rfl) ?_
  refine Ev.bind (H.next (hg.own rfl rfl rfl) (ha.style _)) ?_
  rintro n s1 h1 - hg1 ⟨c1, ha1, hy1⟩
  refine Ev.modify_bind (h' := h1) (RR.own rfl rfl) ?_
  have ha1' := ha1.restoreStyle ha
  have hg1' : GP input { s1 with style := s.style } h1 := hg1.own rfl rfl rfl
  refine Ev.leaf ha1' (wp_Pnext hg1') ?_
  rintro t s2 h2 hr hg2 ha2 ⟨ht, he⟩
  refine Ev.get_bind ?_
  refine Ev.modify_bind (h' := h2) (RR.own rfl rfl) ?_
  have hu := hr.underT ht ha1'.under
  refine Ev.bind (H.token (hg2.own rfl rfl rfl) ht.ok (hg1'.q.ready he ht.known) (s := { s2 with rightBoundaryHack := true }) hu
    (ha2.hack true).mode (ha2.hack true).ctr) ?_
  rintro ⟨cl, m⟩ s3 h3 - hg3 ⟨c3, ha3, hy3⟩
  refine Ev.modify_bind (h' := h3) (RR.own rfl rfl) ?_
  refine Ev.pure (hg3.own rfl rfl rfl) ⟨c3, ha3.restoreHack ha2, ?_⟩
  split
  · exact .over hy1 hy3
  · exact .under hy1 hy3

theorem brace {x isOver} (hg : GP input s h) (ha : At b md c s) :
    Ev cfg input (fun n => (parser n).parseOverUnderBrace x isOver) s h (Arm cfg b md c) := by
  refine Ev.bind (H.next hg ha) ?_
  rintro n s1 h1 - hg1 ⟨c1, ha1, hy1⟩
  refine Ev.peek_bind ?_
  have hbase : Yield cfg c [if isOver = true then Node.overAccent x.asOp .empty n else Node.underAccent x.asOp .empty n] c1 := by
    split
    · exact .wrap _ hy1 (.refl _) (show FlagsOk OpAttrs.empty by decide) rfl
    · exact .wrap _ hy1 (.refl _) (show FlagsOk OpAttrs.empty by decide) rfl
  split
  · refine Ev.leaf ha1 (wp_Pnext hg1) fun _ s2 h2 _ hg2 ha2 _ => ?_
    refine Ev.bind (H.next hg2 ha2) ?_
    rintro m s3 h3 - hg3 ⟨c3, ha3, hy3⟩
    refine Ev.pure hg3 ⟨c3, ha3, ?_⟩
    have := hbase.two hy3
    cases isOver
    · exact .wrap _ this (.swap _ _ _) trivial rfl
    · exact .wrap _ this (.swap _ _ _) trivial rfl
  · exact Ev.pure hg1 ⟨c1, ha1, hbase⟩

theorem opB {op} (hg : GP input s h) (ha : At b md c s) :
    Ev cfg input (fun n => (parser n).opBounds op) s h fun r s' _ =>
      (∃ c', At b md c' s' ∧ Yield cfg c (flatB r.bounds) c') ∧ LimOk input r := by
  unfold Rec.opBounds
  split
  · exact Ev.pure hg ⟨⟨c, ha, .nil ..⟩, nofun⟩
  · exact H.bounds hg ha

theorem op {o pa prev} (hg : GP input s h) (ha : At b md c s) :
    Ev cfg input (fun n => (parser n).parseOp o pa prev) s h (Arm cfg b md c) := by
  refine Ev.bind (H.opB hg ha) ?_
  rintro bl s1 h1 - hg1 ⟨⟨c1, ha1, hy1⟩, -⟩
  refine Ev.leaf ha1 (wp_mathopSpacing hg1) ?_
  rintro ⟨l, r⟩ s2 h2 - hg2 ha2 -
  refine Ev.pure hg2 ⟨c1, ha2, .boundsWrap (.op opLimits_flags) hy1⟩

theorem pseudoOp {name lim pa prev} (hg : GP input s h) (ha : At b md c s) :
    Ev cfg input (fun n => (parser n).parsePseudoOp name lim pa prev) s h (Arm cfg b md c) := by
  refine Ev.bind (H.bounds hg ha) ?_
  rintro bl s1 h1 - hg1 ⟨⟨c1, ha1, hy1⟩, -⟩
  refine Ev.leaf ha1 (wp_mathopSpacing hg1) ?_
  rintro ⟨l, r⟩ s2 h2 - hg2 ha2 -
  refine Ev.pure hg2 ⟨c1, ha2, .boundsWrap (.leaf _ rfl pseudoOpLimits_flags rfl) hy1⟩

theorem largeOp {o pa prev} (hg : GP input s h) (ha : At b md c s) :
    Ev cfg input (fun n => (parser n).parseForceLargeOp o pa prev) s h (Arm cfg b md c) := by
  refine Ev.bind (H.bounds hg ha) ?_
  rintro bl s1 h1 - hg1 ⟨⟨c1, ha1, hy1⟩, -⟩
  refine Ev.leaf ha1 (wp_mathopSpacing hg1) ?_
  rintro ⟨l, r⟩ s2 h2 - hg2 ha2 -
  refine Ev.pure hg2 ⟨c1, ha2, .boundsWrap (.op largeOpLimits_flags) hy1⟩

theorem mathClass {kind pa prev} (hg : GP input s h) (ha : At b md c s) :
    Ev cfg input (fun n => (parser n).parseMathClass kind pa prev) s h (Arm cfg b md c) := by
  refine H.readToken hg ha fun t s1 h1 hr hg1 ha1 hs ht => ?_
  refine Ev.bind (ht _ _) ?_
  rintro ⟨cl, n⟩ s2 h2 - hg2 ⟨c2, ha2, hy2⟩
  refine Ev.leaf ha2 (wp_peekClass hg2) ?_
  intro nx s3 h3 _ hg3 ha3 _
  refine Ev.get_bind ?_
  split
  all_goals first
    | exact Ev.pure hg3 ⟨c2, ha3, hy2.mathClass⟩
    | refine Ev.leaf ha3 (wp_mathopSpacing hg3) ?_
      rintro ⟨l, r⟩ s4 h4 - hg4 ha4 -
      exact Ev.pure hg4 ⟨c2, ha4, hy2.mathClass⟩

theorem overlay {o pa prev} (hg : GP input s h) (ha : At b md c s) :
    Ev cfg input (fun n => (parser n).parseOverlay o pa prev) s h (Arm cfg b md c) := by
  refine H.readToken hg ha fun t s1 h1 hr hg1 ha1 hs ht => ?_
  refine Ev.bind (ht _ _) ?_
  rintro ⟨cl, n⟩ s2 h2 - hg2 ⟨c2, ha2, hy2⟩
  simp only
  split
  · rename_i m hm
    exact Ev.pure hg2 ⟨c2, ha2, hy2.overlay hm⟩
  · exact Ev.fail hs

theorem transform {tf} (hg : GP input s h) (ha : At b md c s) :
    Ev cfg input (fun n => (parser n).parseTransform tf) s h (Arm cfg b md c) := by
  refine Ev.get_bind ?_
  refine Ev.modify_bind (h' := h) (RR.own rfl rfl) ?_
  refine Ev.bind (H.next (hg.own rfl rfl rfl) (ha.transform _)) ?_
  rintro n s1 h1 - hg1 ⟨c1, ha1, hy1⟩
  refine Ev.modify_bind (h' := h1) (RR.own rfl rfl) ?_
  exact Ev.pure (hg1.own rfl rfl rfl) ⟨c1, ha1.restoreTransform ha, hy1⟩

theorem group {pa prev} (hg : GP input s h) (ha : At b md c s) :
    Ev cfg input (fun n => (parser n).parseGroup pa prev) s h (Arm cfg b md c) := by
  refine Ev.bind (H.sequence hg ha) ?_
  rintro ns s1 h1 - hg1 ⟨c1, ha1, hy1⟩
  exact Ev.pure hg1 ⟨c1, ha1, hy1.nodeVec⟩

theorem left (hg : GP input s h) (ha : At b md c s) :
    Ev cfg input (fun n => (parser n).parseLeft) s h (Arm cfg b md c) := by
  refine Ev.leaf ha (wp_parseFenceDelimiter hg) fun o s1 h1 _ hg1 ha1 _ => ?_
  refine Ev.bind (H.sequence hg1 ha1) ?_
  rintro ns s2 h2 - hg2 ⟨c2, ha2, hy2⟩
  refine Ev.leaf ha2 (wp_parseFenceDelimiter hg2) fun cl s3 h3 _ hg3 ha3 _ => ?_
  exact Ev.pure hg3 ⟨c2, ha3, hy2.fence⟩

theorem operatorName {lim pa prev} (hg : GP input s h) (ha : At b md c s) :
    Ev cfg input (fun n => (parser n).parseOperatorName lim pa prev) s h (Arm cfg b md c) :=
  Ev.leaf ha (wp_extractText hg) fun _ _ _ _ hg1 ha1 _ => H.pseudoOp hg1 ha1

theorem cramped {prev} (hg : GP input s h) (ha : At b md c s) :
    Ev cfg input (fun n => (parser n).parseCramped prev) s h (Arm cfg b md c) := by
  refine H.readToken hg ha fun t s1 h1 hr hg1 ha1 hs ht => ?_
  split
  · refine Ev.leaf ha1 (wp_crampedStyle hg1) fun st s2 h2 _ hg2 ha2 _ => ?_
    refine Ev.bind (H.next hg2 ha2) ?_
    rintro n s3 h3 - hg3 ⟨c3, ha3, hy3⟩
    exact Ev.pure hg3 ⟨c3, ha3, .row hy3⟩
  · refine Ev.bind (ht _ _) ?_
    rintro ⟨cl, n⟩ s2 h2 - hg2 ⟨c2, ha2, hy2⟩
    exact Ev.pure hg2 ⟨c2, ha2, .row hy2⟩

theorem color {sp pa prev} (hg : GP input s h) (ha : At b md c s) (hs : SpanOk input sp) :
    Ev cfg input (fun n => (parser n).parseColorSwitch sp pa prev) s h (Arm cfg b md c) := by
  refine Ev.leaf ha (wp_parseColor hg hs) fun col s1 h1 _ hg1 ha1 _ => ?_
  refine Ev.bind (H.sequenceIf hg1 ha1 hs) ?_
  rintro ns s2 h2 - hg2 ⟨c2, ha2, hy2⟩
  exact Ev.pure hg2 ⟨c2, ha2, .row hy2⟩

theorem phantom {kind} (hg : GP input s h) (ha : At b md c s) :
    Ev cfg input (fun n => (parser n).parsePhantom kind) s h (Arm cfg b md c) := by
  refine Ev.bind (H.next hg ha) ?_
  rintro n s1 h1 - hg1 ⟨c1, ha1, hy1⟩
  have hp : Yield cfg c [.phantom n] c1 := .wrap _ hy1 (.refl _) trivial rfl
  refine Ev.pure hg1 ⟨c1, ha1, ?_⟩
  split
  · exact hp
  · exact .wrap _ hp (.refl _) trivial rfl
  · exact .wrap _ hp (.refl _) trivial rfl

theorem styled {st sp pa prev} (hg : GP input s h) (ha : At b md c s) (hs : SpanOk input sp) :
    Ev cfg input (fun n => (parser n).parseStyle st sp pa prev) s h (Arm cfg b md c) := by
  refine Ev.get_bind ?_
  refine Ev.modify_bind (h' := h) (RR.own rfl rfl) ?_
  refine Ev.bind (H.sequenceIf (hg.own rfl rfl rfl) (ha.style _) hs) ?_
  rintro ns s1 h1 - hg1 ⟨c1, ha1, hy1⟩
  refine Ev.modify_bind (h' := h1) (RR.own rfl rfl) ?_
  exact Ev.pure (hg1.own rfl rfl rfl) ⟨c1, ha1.restoreStyle ha, .row hy1⟩

theorem prescript (hg : GP input s h) (ha : At b md c s) :
    Ev cfg input (fun n => (parser n).parsePrescript) s h (Arm cfg b md c) := by
  refine Ev.bind (H.next hg ha) ?_
  rintro sup s1 h1 - hg1 ⟨c1, ha1, hy1⟩
  refine Ev.bind (H.next hg1 ha1) ?_
  rintro sub s2 h2 - hg2 ⟨c2, ha2, hy2⟩
  refine Ev.bind (H.next hg2 ha2) ?_
  rintro base s3 h3 - hg3 ⟨c3, ha3, hy3⟩
  refine Ev.pure hg3 ⟨c3, ha3, .wrap _ (.three hy1 hy2 hy3) ?_ trivial rfl⟩
  simp only [kids, List.flatMap_cons, List.flatMap_nil, List.append_nil]
  exact ((List.Perm.swap _ _ _).cons _).trans ((List.Perm.swap _ _ _).trans (.cons _ (.swap _ _ _)))

end Hyp
end Verif

import Verif.Lemmas.RecArms3
/-! Scripts, sequences, and the induction which shows that the parser does what it should. -/
namespace Verif
open Model Spec Lexer' TokenQueue Logic

variable [L : Limits] {cfg : ParserConfig} {input : Str} {s s' : PState} {h h' : List Token}
variable {b b' : Nat × Nat} {md : Mode} {c c' c0 : Counters}

/-- At most `b` -/
abbrev upTo (b : Nat × Nat) : Nat × Nat := (b.1, b.2 + 1)

omit L in
theorem Under.drop (hu : Under (upTo b) s) (he : s'.expansionsLeft = s.expansionsLeft) (hm : MU s' + 1 ≤ MU s) :
    Under b s' := by
  unfold Under at *
  simp only at hu
  omega

omit L in
theorem Under.upTo (hu : Under b s) : Under (Verif.upTo b) s := by
  unfold Under at *
  simp only
  omega

theorem At.drop (ha : At (upTo b) md c s) (hr : RP cfg s h s' h') (hm : MU s' + 1 ≤ MU s) : At b md c s' :=
  ⟨ha.under.drop hr.exp hm, hr.mode.trans ha.mode, hr.ctr.trans ha.ctr⟩

omit L in
theorem At.upTo (ha : At b md c s) : At (Verif.upTo b) md c s := ⟨ha.under.upTo, ha.mode, ha.ctr⟩

namespace Hyp
variable (H : Hyp cfg input b)
include H

theorem addBoundNext {sp kind} {ret : BoundsWithLimits} (hg : GP input s h) (ha : At (upTo b) md c s)
    (hy : Yield cfg c0 (flatB ret.bounds) c) (hl : LimOk input ret) (hs : SpanOk input sp)
    (hne : s.q.peek.tok.isEoi = false) :
    Ev cfg input (fun n => (parser n).addBound false sp kind ret) s h fun r s' _ =>
      (∃ c', At (upTo b) md c' s' ∧ Yield cfg c0 (flatB r.bounds) c') ∧ LimOk input r ∧
      (ret.bounds.isTrivial = false → r.bounds.isTrivial = false) := by
  have : Ev cfg input (fun n => P.next >>= fun _ => (parser n).addBound true sp kind ret) s h fun r s' _ =>
      (∃ c', At (upTo b) md c' s' ∧ Yield cfg c0 (flatB r.bounds) c') ∧ LimOk input r ∧
      (ret.bounds.isTrivial = false → r.bounds.isTrivial = false) := by
    refine Ev.bind (Ev.of_wp (wp_Pnext_peeked hg hne)) ?_
    rintro t s1 h1 - hg1 ⟨⟨-, -, hm, -⟩, hr⟩
    refine (H.addBound hg1 (ha.drop hr hm) hy hl hs).mono ?_
    rintro r s2 h2 - - ⟨⟨c2, ha2, hy2⟩, hl2, ht⟩
    exact ⟨⟨c2, ha2.upTo, hy2⟩, hl2, fun _ => ht⟩
  refine Ev.after (s' := s) (fun n => ?_) (RR.refl ..) this
  show St.bind (St.bind P.next _) _ cfg s = St.bind P.next _ cfg s
  simp only [St.bind]
  cases P.next cfg s <;> rfl

/-- `get_bounds` does what it should, if everything which needs less works. -/
theorem bndEv (hg : GP input s h) (hu : Under (upTo b) s) : BndEv cfg input (upTo b) s h := by
  intro ret c0 hy hl
  refine Ev.shift ?_
  show Ev cfg input (fun n => (parser n).getBoundsStep none ret) s h _
  have ha : At (upTo b) (mode s) (ctr s) s := ⟨hu, rfl, rfl⟩
  have hne : ∀ t, s.q.peek.tok.unwrapMath = t → t.isEoi = false → s.q.peek.tok.isEoi = false := by
    intro t ht hf
    cases hk : s.q.peek.tok <;> first | rfl | skip
    rw [hk] at ht
    subst ht
    cases hf
  refine Ev.peek_bind ?_
  simp only [Option.getD_none]
  split
  · rename_i ht; exact H.addBoundNext hg ha hy hl hg.peek.span (hne _ ht rfl)
  · rename_i ht; exact H.addBoundNext hg ha hy hl hg.peek.span (hne _ ht rfl)
  · rename_i ht; exact H.addBoundNext hg ha hy hl hg.peek.span (hne _ ht rfl)
  · rename_i k ht
    refine Ev.after (m' := fun n => P.next >>= fun _ =>
      (parser n).getBounds none { ret with limitsSpan := some (k, s.q.peek.span) }) (s' := s) (fun n => ?_) (RR.refl ..) ?_
    · show St.bind (St.bind P.next _) _ cfg s = St.bind P.next _ cfg s
      simp only [St.bind]
      cases P.next cfg s <;> rfl
    refine Ev.bind (Ev.of_wp (wp_Pnext_peeked hg (hne _ ht rfl))) ?_
    rintro t s1 h1 - hg1 ⟨⟨-, -, hm, -⟩, hr⟩
    refine (H.bounds' hg1 (ha.drop hr hm) (ret := { ret with limitsSpan := some (k, s.q.peek.span) }) hy ?_).mono ?_
    · rintro k' sp' he
      cases he
      exact hg.peek.span
    rintro r s2 h2 - - ⟨⟨c2, ha2, hy2⟩, hl2, ht⟩
    exact ⟨⟨c2, ha2.upTo, hy2⟩, hl2, ht⟩
  · exact Ev.pure hg ⟨⟨_, ha, hy⟩, hl, id⟩

/-- The scripts after a node of a sequence and the rest of the sequence -/
theorem target {e nodes inf cl n} (hg : GP input s h) (ha : At b md c s)
    (hy : Yield cfg c0 (flatSeq nodes inf) c') (hn : Yield cfg c' [n] c) :
    Ev cfg input (fun k => (parser k).seqTarget e nodes inf cl n) s h fun r s' _ =>
      Under (upTo b) s' ∧ (mode s').hack = md.hack ∧ (mode s').env = md.env ∧
      Yield cfg c0 (flatSeq r.1 r.2) (ctr s') ∧ e.isMatch s'.q.peek.tok = true := by
  refine Ev.bind (H.bounds hg ha) ?_
  rintro bl s1 h1 - hg1 ⟨⟨c1, ha1, hy1⟩, hl⟩
  refine Ev.leaf ha1 (wp_ensureNoLimits hg1 hl) ?_
  rintro _ s2 h2 - hg2 ha2 rfl
  have hall : Yield cfg c0 (flatSeq (nodes ++ [Rec.attachScripts n bl.bounds]) inf) c1 := by
    have := hy.append (hn.attach hy1)
    cases inf with
    | none => exact this
    | some x => simp only [flatSeq, ← List.append_assoc]; exact this
  refine (H.seq s2 h2 hg2 ha2.under e cl _ inf c0 (by rw [ha2.ctr]; exact hall)).mono ?_
  rintro r s3 h3 - - ⟨hu, h1, h2, hy3⟩
  exact ⟨hu.upTo, h1.trans (by rw [ha2.mode]), h2.trans (by rw [ha2.mode]), hy3⟩

end Hyp

/-- What happens to the parser's mode in `handle_tokens_without_output` -/
structure Handled (cfg : ParserConfig) (c0 : Counters) (s : PState)
    (s' : PState) (r : List Node × InfixFrac) : Prop where
  hack : (mode s').hack = (mode s).hack
  env : (mode s').env = (mode s).env
  exp : s'.expansionsLeft = s.expansionsLeft
  mu : MU s' ≤ MU s
  yield : Yield cfg c0 (flatSeq r.1 r.2) (ctr s')

theorem RP.handled (hr : RP cfg s h s' h') {nodes inf} (hy : Yield cfg c0 (flatSeq nodes inf) (Verif.ctr s)) :
    Handled cfg c0 s s' (nodes, inf) :=
  ⟨by rw [hr.mode], by rw [hr.mode], hr.exp, hr.q.mu, by rw [hr.ctr]; exact hy⟩

theorem ev_handle {t : TokSpan} {e nodes inf} (hg : GP input s h) (ht : TokOk input h t)
    (hy : Yield cfg c0 (flatSeq nodes inf) (ctr s)) :
    Ev cfg input (fun _ => handleTokensWithoutOutput t e nodes inf) s h fun r s' h' =>
      (r = none ∧ s' = s ∧ h' = h) ∨ ∃ r', r = some r' ∧ t.tok.isEoi = false ∧ Handled cfg c0 s s' r' := by
  obtain ⟨tok, sp⟩ := t
  obtain ⟨hheld, hs⟩ := ht
  simp only at hheld hs
  have hnone : Ev cfg input (fun _ => (pure none : P (Option (List Node × InfixFrac)))) s h fun r s' h' =>
      (r = none ∧ s' = s ∧ h' = h) ∨ ∃ r', r = some r' ∧ tok.isEoi = false ∧ Handled cfg c0 s s' r' :=
    Ev.pure hg (.inl ⟨rfl, rfl, rfl⟩)
  have hleaf : ∀ (m : P Unit), tok.isEoi = false → (LP cfg input).Wp m s h (fun _ _ _ => True) →
      Ev cfg input (fun _ => m >>= fun _ => pure (some (nodes, inf))) s h fun r s' h' =>
        (r = none ∧ s' = s ∧ h' = h) ∨ ∃ r', r = some r' ∧ tok.isEoi = false ∧ Handled cfg c0 s s' r' := by
    intro m he hm
    refine Ev.bind (Ev.of_wp hm) ?_
    rintro - s1 h1 - hg1 ⟨-, hr⟩
    exact Ev.pure hg1 (.inr ⟨_, rfl, he, hr.handled hy⟩)
  unfold handleTokensWithoutOutput
  cases tok
  case eoi =>
    cases e with
    | endToken e => exact Ev.fail hs
    | anyEndToken => exact hnone
  case infixGenFrac w d =>
    cases inf with
    | none =>
      refine Ev.modify_bind (h' := h) (RR.own rfl rfl) ?_
      refine Ev.pure (hg.own rfl rfl rfl) (.inr ⟨_, rfl, rfl, rfl, rfl, rfl, Nat.le_refl _, ?_⟩)
      simp only [flatSeq, List.append_nil] at hy ⊢
      exact hy
    | some x => exact Ev.fail hs
  case relax => exact Ev.pure hg (.inr ⟨_, rfl, rfl, rfl, rfl, rfl, Nat.le_refl _, hy⟩)
  case transformSwitch tf =>
    refine Ev.modify_bind (h' := h) (RR.own rfl rfl) ?_
    exact Ev.pure (hg.own rfl rfl rfl) (.inr ⟨_, rfl, rfl, rfl, rfl, rfl, Nat.le_refl _, hy⟩)
  case newCommand m =>
    refine hleaf _ rfl (wp_defineCommand hg ?_)
    have := plain_of_held hheld (by intros; exact nofun)
    simp only [plain, payloadOk, Bool.not_eq_true', Bool.and_eq_false_iff, bne_eq_false_iff_eq] at this
    exact this.symm
  case letCmd => exact hleaf _ rfl (wp_letCommand hg nofun)
  case defCmd g =>
    refine hleaf _ rfl (wp_defCommand hg ?_)
    rintro rfl
    have := plain_of_held hheld (by intros; exact nofun)
    simpa [plain, payloadOk] using this
  case globalPrefix =>
    refine Ev.loopFuel_bind (hleaf _ rfl (wp_globalPrefix hg (by have := cnt_loopFuel s.q; omega) ?_))
    have := plain_of_held hheld (by intros; exact nofun)
    simpa [plain, payloadOk] using this
  case verticalLineDef d =>
    refine Ev.modify_bind (h' := h) (RR.own rfl rfl) ?_
    exact Ev.pure (hg.own rfl rfl rfl) (.inr ⟨_, rfl, rfl, rfl, rfl, rfl, Nat.le_refl _, hy⟩)
  case noNumber => exact hleaf _ rfl (wp_noNumber hg)
  case tag p => exact hleaf _ rfl (wp_setTag hg hs)
  case label => exact hleaf _ rfl (wp_setLabel hg hs)
  all_goals exact hnone

namespace Hyp
variable (H : Hyp cfg input b)
include H

/-- The loop of `parse_sequence` does what it should, if everything which needs less works. -/
theorem seqEv (hg : GP input s h) (hu : Under (upTo b) s) : SeqEv cfg input (upTo b) s h := by
  intro e prev nodes inf c0 hy
  refine Ev.shift ?_
  show Ev cfg input (fun n => (parser n).seqLoopStep e prev nodes inf) s h _
  have ha : At (upTo b) (mode s) (ctr s) s := ⟨hu, rfl, rfl⟩
  refine Ev.peek_bind ?_
  split
  · rename_i hend
    exact Ev.pure hg ⟨hu, rfl, rfl, hy, hend⟩
  refine Ev.bind (Ev.of_wp (wp_merge hg)) ?_
  rintro r s1 h1 - hg1 ⟨hp, hr⟩
  have ha1 := ha.step hr
  rcases r with _ | ⟨cl, n⟩
  · refine Ev.leaf ha1 (wp_Pnext hg1) ?_
    rintro t s2 h2 hr2 hg2 ha2 ⟨ht, hpk⟩
    have hw := hr2.underT ht ha1.under
    refine Ev.bind (ev_handle (c0 := c0) hg2 ht.ok (by rw [ha2.ctr]; exact hy)) ?_
    rintro r s3 h3 - hg3 hx
    rcases hx with ⟨rfl, rfl, rfl⟩ | ⟨⟨nodes', inf'⟩, rfl, he, hh⟩
    · have hw' : WithinT b t.tok s3 := by
        unfold UnderT at hw; unfold WithinT; simp only at hw; omega
      refine Ev.bind (H.tokEv hg2 ht.ok (hg1.q.ready hpk ht.known) hw' .sequence prev) ?_
      rintro ⟨cl, n⟩ s4 h4 - hg4 ⟨c4, ha4, hy4⟩
      rw [ha2.ctr, ha2.mode] at *
      exact H.target hg4 ha4 hy hy4
    · have hu3 : Under b s3 := by
        have hw' := tokWeight_pos he
        have h1 := hh.exp
        have h2 := hh.mu
        unfold UnderT at hw; unfold Under; simp only at hw
        omega
      refine (H.seq s3 h3 hg3 hu3 e prev nodes' inf' c0 hh.yield).mono ?_
      rintro r s4 h4 - - ⟨h1, h2, h3, h4⟩
      exact ⟨h1.upTo, h2.trans (hh.hack.trans (by rw [ha2.mode])), h3.trans (hh.env.trans (by rw [ha2.mode])), h4⟩
  · obtain ⟨hl, hm⟩ := hp cl n rfl
    exact H.target hg1 (ha.drop hr hm) hy (.letter hl)

end Hyp

theorem TokEv.mono {t : TokSpan} (hle : ∀ s, Under b s → Under b' s) (ht : TokEv cfg input b t s h) :
    TokEv cfg input b' t s h := fun pa prev =>
  (ht pa prev).mono fun _ _ _ _ _ ⟨c', ha, hy⟩ => ⟨c', ⟨hle _ ha.under, ha.mode, ha.ctr⟩, hy⟩

theorem SeqEv.mono (hle : ∀ s, Under b s → Under b' s) (ht : SeqEv cfg input b s h) : SeqEv cfg input b' s h :=
  fun e prev nodes inf c0 hy => (ht e prev nodes inf c0 hy).mono fun _ _ _ _ _ hx => ⟨hle _ hx.1, hx.2⟩

theorem BndEv.mono (hle : ∀ s, Under b s → Under b' s) (ht : BndEv cfg input b s h) : BndEv cfg input b' s h :=
  fun ret c0 hy hl => (ht ret c0 hy hl).mono fun _ _ _ _ _ ⟨⟨c', ha, hy⟩, hx⟩ =>
    ⟨⟨c', ⟨hle _ ha.under, ha.mode, ha.ctr⟩, hy⟩, hx⟩

/-- Everything works, whatever the budget. -/
theorem hyp_all (cfg : ParserConfig) (input : Str) (b : Nat × Nat) : Hyp cfg input b := by
  obtain ⟨b1, b2⟩ := b
  induction b1 using Nat.strongRecOn generalizing b2 with
  | ind b1 ih1 =>
  induction b2 using Nat.strongRecOn with
  | ind b2 ih2 =>
  have below : ∀ x y, x < b1 ∨ (x = b1 ∧ y < b2) → Hyp cfg input (x, y) := by
    rintro x y (hx | ⟨rfl, hy⟩)
    · exact ih1 x hx y
    · exact ih2 y hy
  have up : ∀ x y, x < b1 ∨ (x = b1 ∧ y < b2) → ∀ s, Under (upTo (x, y)) s → Under (b1, b2) s := by
    intro x y hxy s hu
    unfold Under at *
    simp only at hu ⊢
    omega
  constructor
  · intro t s h hg ht hk hu
    have hb := below s.expansionsLeft (weight t.tok + MU s) hu
    exact (hb.tokEv hg ht hk (.inr ⟨rfl, Nat.le_refl _⟩)).mono fun s' hs' => up _ _ hu s' hs'.upTo
  · intro s h hg hu
    have hb := below s.expansionsLeft (MU s) hu
    exact (hb.seqEv hg (.inr ⟨rfl, Nat.lt_succ_self _⟩)).mono (up _ _ hu)
  · intro s h hg hu
    have hb := below s.expansionsLeft (MU s) hu
    exact (hb.bndEv hg (.inr ⟨rfl, Nat.lt_succ_self _⟩)).mono (up _ _ hu)

/-- A whole snippet -/
theorem ev_parse (hg : GP input s h) :
    Ev cfg input (fun n => parse n) s h fun r s' _ => mode s' = mode s ∧ Yield cfg (ctr s) r (ctr s') := by
  refine ((hyp_all cfg input (s.expansionsLeft + 1, 0)).sequence (md := mode s) (c := ctr s) hg
    ⟨.inl (Nat.lt_succ_self _), rfl, rfl⟩).mono ?_
  rintro r s' h' - - ⟨c', ha, hy⟩
  exact ⟨ha.mode, by rw [ha.ctr]; exact hy⟩

end Verif

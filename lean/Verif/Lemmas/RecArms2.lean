import Verif.Lemmas.RecArms
/-! The recursive functions of the parser: environments, scripts, expansions. -/
namespace Verif
open Model Spec Lexer' TokenQueue Logic

variable [L : Limits] {cfg : ParserConfig} {input : Str} {s s' : PState} {h h' : List Token} {α β : Type}
variable {b : Nat × Nat} {md : Mode} {c c' : Counters}

/-! ### Rows -/

/-- What numbering a row does to the counters -/
def RowStep (c : Counters) (info : Option RowLabelInfo) (c' : Counters) : Prop :=
  match info with
  | none => c' = c
  | some info => ∃ auto, (auto = true → info.tag = autoTag (c.count + 1)) ∧ c' = c.after ⟨info, auto⟩

omit L in
theorem RowStep.yield {n : Node} {info : Option RowLabelInfo} {c0 c1 c2} (hr : RowStep c1 info c2)
    (hy : Yield cfg c0 (kids n) c1) (hl : LocalOk cfg n) (ht : tagOf n = info) : Yield cfg c0 [n] c2 := by
  cases info with
  | none => cases hr; exact .wrap _ hy (.refl _) hl ht
  | some info =>
    obtain ⟨auto, h1, rfl⟩ := hr
    exact .wrapTag _ auto hy hl ht h1

omit L in
theorem nextTag_spec (n : NumberedEnvState) (count : Nat) (isLast : Bool) :
    (n.nextEquationTag count isLast).2.1.mode = n.mode ∧ (n.nextEquationTag count isLast).2.1.label = n.label ∧
    ((n.nextEquationTag count isLast).1 = some none → (n.nextEquationTag count isLast).2.2 = count) ∧
    (∀ t, (n.nextEquationTag count isLast).1 = some (some t) → (n.nextEquationTag count isLast).2.2 = count ∨
      ((n.nextEquationTag count isLast).2.2 = count + 1 ∧ t = autoTag (count + 1))) := by
  unfold NumberedEnvState.nextEquationTag
  split
  · exact ⟨rfl, rfl, fun _ => rfl, nofun⟩
  · split
    · exact ⟨rfl, rfl, nofun, fun _ _ => .inl rfl⟩
    · split
      · exact ⟨rfl, rfl, fun _ => rfl, nofun⟩
      · split
        · exact ⟨rfl, rfl, nofun, fun t ht => .inr ⟨rfl, by cases ht; rfl⟩⟩
        · exact ⟨rfl, rfl, nofun, nofun⟩

theorem ev_numberRow {n : NumberedEnvState} {isLast sp} (hg : GP input s h) (ha : At b md c s) (hs : SpanOk input sp)
    (hl : ∀ l, n.label = some l → '&' ∉ l) :
    Ev cfg input (fun _ => numberRow n isLast sp) s h fun r s' _ =>
      (∃ c', At b md c' s' ∧ RowStep c r.1 c') ∧ LabelOk r.1 ∧ r.2.mode = n.mode ∧ r.2.label = none ∧
        s'.env = s.env := by
  refine Ev.get_bind ?_
  have hstep : ∀ (count : Nat) (labels : StrMap Str), CountsOn (Verif.ctr s) ⟨count, labels⟩ →
      RR cfg s h { s with q := { s.q with equationCount := count, labelMap := labels } } h ∧
      GP input { s with q := { s.q with equationCount := count, labelMap := labels } } h ∧
      At b md ⟨count, labels⟩ { s with q := { s.q with equationCount := count, labelMap := labels } } := by
    intro count labels hc
    refine ⟨⟨⟨[], by simp, rfl, by simp [unfolds]⟩, fun _ h => h, hc, id⟩,
      ⟨⟨⟨hg.q.inv.next, hg.q.inv.more⟩, hg.q.lex, hg.q.toks, hg.q.stores, hg.q.held⟩, hg.args, hg.label⟩, ?_⟩
    exact ⟨ha.under, ha.mode, rfl⟩
  have hctr := ha.ctr
  obtain ⟨h1, h2, h3, h4⟩ := nextTag_spec n s.q.equationCount isLast
  generalize hr : n.nextEquationTag s.q.equationCount isLast = r at h1 h2 h3 h4
  obtain ⟨tag, n', count⟩ := r
  simp only at h1 h2 h3 h4
  cases tag with
  | none => exact Ev.fail hs
  | some tag =>
    simp only
    cases tag with
    | none =>
      obtain ⟨e1, e2, e3⟩ := hstep count s.q.labelMap (by rw [h3 rfl]; exact .refl _)
      refine Ev.modify_bind (h' := h) e1 (Ev.pure e2 ⟨⟨_, e3, ?_⟩, nofun, h1, rfl, rfl⟩)
      show _ = _
      rw [← hctr, h3 rfl]; rfl
    | some tag =>
      have hrow : ∃ auto, (auto = true → tag = autoTag ((Verif.ctr s).count + 1)) ∧
          (⟨count, match some tag, n'.label with
            | some tag, some label => s.q.labelMap.insert label tag.text
            | _, _ => s.q.labelMap⟩ : Counters) = (Verif.ctr s).after ⟨⟨tag, n'.label⟩, auto⟩ := by
        rcases h4 tag rfl with h4 | ⟨h4, h5⟩
        · refine ⟨false, nofun, ?_⟩
          unfold Counters.after Verif.ctr
          rw [h4]
          cases n'.label <;> rfl
        · refine ⟨true, fun _ => h5, ?_⟩
          unfold Counters.after Verif.ctr
          rw [h4]
          cases n'.label <;> rfl
      obtain ⟨auto, hauto, hafter⟩ := hrow
      have hlab : LabelOk (some ⟨tag, n'.label⟩) := by
        intro info hi t ht
        cases hi
        exact hl t (by rw [← h2]; exact ht)
      obtain ⟨e1, e2, e3⟩ := hstep count (match some tag, n'.label with
        | some tag, some label => s.q.labelMap.insert label tag.text
        | _, _ => s.q.labelMap) ⟨[⟨⟨tag, n'.label⟩, auto⟩], hauto, hafter.symm⟩
      refine Ev.modify_bind (h' := h) e1 (Ev.pure e2 ⟨⟨_, e3, ?_⟩, hlab, h1, rfl, rfl⟩)
      rw [← hctr]
      exact ⟨auto, hauto, hafter⟩

theorem ev_numberLastRow {nm : Option NumberedEnvState} {sp} (hg : GP input s h) (ha : At b md c s) (hs : SpanOk input sp)
    (hl : ∀ n l, nm = some n → n.label = some l → '&' ∉ l) :
    Ev cfg input (fun _ => Rec.numberLastRow nm sp) s h fun r s' _ =>
      (∃ c', At b md c' s' ∧ RowStep c r.1 c') ∧ LabelOk r.1 ∧ (nm = none → r.1 = none) := by
  unfold Rec.numberLastRow
  split
  · rename_i n
    refine Ev.bind (ev_numberRow hg ha hs (hl n · rfl)) ?_
    rintro ⟨info, n'⟩ s1 h1 - hg1 ⟨h2, h3, -⟩
    exact Ev.pure hg1 ⟨h2, h3, nofun⟩
  · exact Ev.pure hg ⟨⟨c, ha, rfl⟩, nofun, fun _ => rfl⟩

omit L in
/-- Changes of the environment which leave its kind -/
theorem At.env (ha : At b md c s) (x : EnvState) : At b { md with env := envSig x } c { s with env := x } := by
  have := ha.own (s' := { s with env := x }) rfl rfl
  rw [← ha.mode]; exact this

theorem ev_newLine {sp} (hg : GP input s h) (ha : At b md c s) (hs : SpanOk input sp) :
    Ev cfg input (fun _ => parseNewLine sp) s h (Arm cfg b md c) := by
  refine Ev.get_bind ?_
  split
  · exact Ev.pure hg (ha.made .emptyRow)
  · refine Ev.leaf ha (wp_parseHline hg) fun border s1 h1 hr1 hg1 ha1 _ => ?_
    cases hn : s.env.numbered with
    | none => exact Ev.pure hg1 (ha1.made (.leaf _ rfl nofun rfl))
    | some n =>
      simp only
      split
      · exact Ev.fail hs
      · refine Ev.bind (ev_numberRow (n := { n with numRows := n.numRows.map (· + 1) }) hg1 ha1 hs
          fun l hl => hg.label n l hn hl) ?_
        rintro ⟨info, n'⟩ s2 h2 - hg2 ⟨⟨c2, ha2, hst⟩, hlab, hmode, hnl, henv⟩
        simp only at hst hlab hmode hnl
        refine Ev.modify_bind (h' := h2) (RR.own rfl rfl) ?_
        refine Ev.pure ⟨hg2.q, hg2.args, ?_⟩ ⟨c2, ?_, hst.yield (.nil ..) hlab rfl⟩
        · intro m l hm hl
          cases hm
          rw [hnl] at hl; cases hl
        · have h3 := ha2.env { s2.env with numbered := some n' }
          have h4 : envSig { s2.env with numbered := some n' } = md.env := by
            have h5 : envSig s2.env = md.env := by rw [← ha2.mode]; rfl
            rw [← h5]
            have h6 : envSig s2.env = envSig s.env := by rw [h5, ← ha.mode]; rfl
            have h7 : (s2.env.numbered).map (·.mode) = some n.mode := by
              have := congrArg EnvSig.numbered h6
              simp only [envSig, hn] at this
              exact this
            simp only [envSig, h7, hmode, Option.map_some]
          rw [h4] at h3
          exact h3

/-! ### Environments -/

omit L in
theorem constructNode_none {e : Env} {content spec last n bt}
    (hx : e.constructNode content spec last n bt = none) : (e = .array ∨ e = .dArray ∨ e = .subarray) ∧ spec = none := by
  cases e <;> first
    | cases hx
    | (simp only [Env.constructNode, Option.map_eq_none_iff] at hx; simp [hx])

omit L in
theorem yield_table {a st bt} {content : List Node} (hy : Yield cfg c content c') :
    Yield cfg c [.table a st bt content] c' := .wrap _ hy (.refl _) trivial rfl

omit L in
theorem constructNode_yield {e : Env} {content spec last n bt nd} {c0 c1 c2}
    (hx : e.constructNode content spec last n bt = some nd) (hy : Yield cfg c0 content c1) (hr : RowStep c1 last c2)
    (hl : LabelOk last) (hn : e.getNumberedEnvState = none → last = none) : Yield cfg c0 [nd] c2 := by
  cases e
  all_goals first
    | (cases hx; exact hr.yield hy hl rfl)
    | (have := hn rfl
       subst this
       cases hr
       first
         | (cases hx; exact yield_table hy)
         | (cases hx; exact .fence (yield_table hy))
         | (simp only [Env.constructNode, Option.map_eq_some_iff] at hx
            obtain ⟨sp, -, rfl⟩ := hx
            exact .wrap _ hy (.refl _) trivial rfl))

theorem ev_finishEnv {e : Env} {sp spec bt} {content : List Node} {nm : Option NumberedEnvState} {c0}
    (hg : GP input s h) (ha : At b md c s) (hs : SpanOk input sp) (hy : Yield cfg c0 content c)
    (hl : ∀ n l, nm = some n → n.label = some l → '&' ∉ l)
    (hspec : (e = .array ∨ e = .dArray ∨ e = .subarray) → spec.isSome = true)
    (hn : e.getNumberedEnvState = none → nm = none)
    (hend : SequenceEnd.isMatch (.endToken .endEnv) s.q.peek.tok = true) :
    Ev cfg input (fun _ => Rec.finishEnv e sp spec bt content nm) s h (Arm cfg b md c0) := by
  refine Ev.leaf ha (wp_Pnext hg) ?_
  rintro t s1 h1 - hg1 ha1 ⟨ht, hpk⟩
  split
  · split
    · exact Ev.fail ht.ok.span
    · refine Ev.bind (ev_numberLastRow hg1 ha1 hs hl) ?_
      rintro ⟨info, nr⟩ s2 h2 - hg2 ⟨⟨c2, ha2, hst⟩, hlab, hnone⟩
      simp only
      split
      · rename_i nd hnd
        exact Ev.pure hg2 ⟨c2, ha2, constructNode_yield hnd hy hst hlab fun h => hnone (hn h)⟩
      · rename_i hnd
        obtain ⟨h3, rfl⟩ := constructNode_none hnd
        exact absurd (hspec h3) (by simp)
  · rename_i hne
    refine absurd hend ?_
    rw [hpk] at hne
    change ∀ env, s.q.peek.tok.unwrapMath = .endEnv env → False at hne
    generalize s.q.peek.tok = k at hne ⊢
    intro hend
    cases k with
    | endEnv env => exact hne env rfl
    | _ => cases hend

namespace Hyp
variable (H : Hyp cfg input b)
include H

theorem begin {e : Env} {sp pa} (hg : GP input s h) (ha : At b md c s) (hs : SpanOk input sp) :
    Ev cfg input (fun n => (parser n).parseBegin e sp pa) s h (Arm cfg b md c) := by
  refine Ev.leaf ha (wp_parseArraySpec hg) fun spec s1 h1 _ hg1 ha1 hspec => ?_
  refine Ev.leaf ha1 (wp_parseHline hg1) fun border s2 h2 _ hg2 ha2 _ => ?_
  refine Ev.get_bind ?_
  refine Ev.modify_bind (h' := h2) (RR.own rfl rfl) ?_
  have hg2' : GP input { s2 with style := e.style, env := e.newState } h2 := by
    refine ⟨hg2.q, hg2.args, ?_⟩
    intro n l hn hl
    simp only [Env.newState] at hn
    cases e <;> first | (cases hn; cases hl) | cases hn
  refine Ev.bind (H.sequenceIfEnd hg2' ((ha2.style e.style).env e.newState) hs) ?_
  rintro ns s3 h3 - hg3 ⟨⟨c3, ha3, hy3⟩, hend⟩
  refine Ev.get_bind ?_
  refine Ev.modify_bind (h' := h3) (RR.own rfl rfl) ?_
  have ha3' : At b md c3 { s3 with style := s2.style, env := s2.env } := by
    have h4 := (ha3.style s2.style).env s2.env
    have h5 := ha2.mode
    rw [← h5] at h4 ⊢
    exact h4
  refine ev_finishEnv ⟨hg3.q, hg3.args, ?_⟩ ha3' hs hy3 hg3.label ?_ ?_ (hend rfl)
  · exact hg2.label
  · intro h; simp [hspec h]
  · intro hn
    have := congrArg (fun m => m.env.numbered) ha3.mode
    simp only [mode, envSig, Env.newState, hn, Option.map_none, Option.map_eq_none_iff] at this
    exact this

theorem scriptWithoutBase {tok : Token} {sp} (htok : tok = .underscore ∨ tok = .circumflex ∨ ∃ k, tok = .prime k)
    (hg : GP input s h) (ha : At b md c s) (hs : SpanOk input sp) :
    Ev cfg input (fun n => (parser n).parseScriptWithoutBase tok sp) s h (Arm cfg b md c) := by
  have hb : Ev cfg input (fun n => (parser n).getBounds (some (tok, sp)) {}) s h fun r s' _ =>
      (∃ c', At b md c' s' ∧ Yield cfg c (flatB r.bounds) c') ∧ LimOk input r ∧ r.bounds.isTrivial = false := by
    refine Ev.shift ?_
    show Ev cfg input (fun n => (parser n).getBoundsStep (some (tok, sp)) {}) s h _
    refine Ev.peek_bind ?_
    rcases htok with rfl | rfl | ⟨k, rfl⟩
    · exact H.addBound (ret := {}) hg ha (.nil ..) nofun hs
    · exact H.addBound (ret := {}) hg ha (.nil ..) nofun hs
    · exact H.addBound (ret := {}) hg ha (.nil ..) nofun hs
  refine Ev.bind hb ?_
  rintro bl s1 h1 - hg1 ⟨⟨c1, ha1, hy1⟩, hl1, hn1⟩
  refine Ev.leaf ha1 (wp_ensureNoLimits hg1 hl1) ?_
  rintro r s2 h2 - hg2 ha2 rfl
  split
  · rename_i nd hnd
    exact Ev.pure hg2 ⟨c1, ha2, Yield.subsup .emptyRow hy1 hnd⟩
  · rename_i hnd
    have := Yield.bounds_none_ss hnd
    obtain ⟨⟨sub, sup⟩, lim⟩ := bl
    cases sub <;> cases sup <;> first | (change true = false at hn1; cases hn1) | (change some _ = none at hnd; cases hnd)

theorem boundsArg (hg : GP input s h) (ha : At b md c s) :
    Ev cfg input (fun n => (parser n).getBoundsArg) s h fun r s' _ =>
      (∃ c', At b md c' s' ∧ Yield cfg c (flatB r.1.bounds ++ r.2) c') ∧ LimOk input r.1 := by
  refine Ev.peek_bind ?_
  split
  · refine Ev.leaf ha (wp_Pnext hg) fun _ s1 h1 _ hg1 ha1 _ => ?_
    exact Ev.pure hg1 ⟨⟨c, ha1, .op (by decide)⟩, nofun⟩
  · refine Ev.leaf ha (wp_Pnext hg) fun _ s1 h1 _ hg1 ha1 _ => ?_
    refine Ev.bind (H.bounds hg1 ha1) ?_
    rintro bl s2 h2 - hg2 ⟨⟨c2, ha2, hy2⟩, hl2⟩
    refine Ev.bind (H.sequence hg2 ha2) ?_
    rintro ns s3 h3 - hg3 ⟨c3, ha3, hy3⟩
    exact Ev.pure hg3 ⟨⟨c3, ha3, hy2.append hy3⟩, hl2⟩
  · refine Ev.leaf ha (wp_Pnext hg) fun _ s1 h1 _ hg1 ha1 _ => ?_
    refine Ev.pure hg1 ⟨⟨c, ha1, .nil ..⟩, ?_⟩
    intro k sp hk
    cases hk
    exact hg.peek.span
  · refine Ev.bind (H.next hg ha) ?_
    rintro n s1 h1 - hg1 ⟨c1, ha1, hy1⟩
    exact Ev.pure hg1 ⟨⟨c1, ha1, hy1⟩, nofun⟩

theorem sideset {pa prev} (hg : GP input s h) (ha : At b md c s) :
    Ev cfg input (fun n => (parser n).parseSideset pa prev) s h (Arm cfg b md c) := by
  refine Ev.bind (H.boundsArg hg ha) ?_
  rintro ⟨bl1, after1⟩ s1 h1 - hg1 ⟨⟨c1, ha1, hy1⟩, hl1⟩
  refine Ev.leaf ha1 (wp_ensureNoLimits hg1 hl1) ?_
  rintro r s2 h2 - hg2 ha2 rfl
  refine Ev.bind (H.boundsArg hg2 ha2) ?_
  rintro ⟨bl2, after2⟩ s3 h3 - hg3 ⟨⟨c3, ha3, hy3⟩, hl3⟩
  refine Ev.leaf ha3 (wp_ensureNoLimits hg3 hl3) ?_
  rintro r s4 h4 - hg4 ha4 rfl
  refine Ev.leaf ha4 (wp_liftQ hg4 (wp_readArgument hg4.q)) fun a s5 h5 _ hg5 ha5 harg => ?_
  refine Ev.leaf ha5 (P' := fun r _ h' => TokOk input h' r) (Wp.ofExcept hg5 harg.ok.exactlyOne.1 harg.ok.exactlyOne.2)
    fun t s6 h6 _ hg6 ha6 ht => ?_
  split
  · exact Ev.fail ht.span
  · rename_i o ho
    refine Ev.leaf ha6 (wp_mathopSpacing hg6) ?_
    rintro ⟨l, r⟩ s7 h7 - hg7 ha7 -
    have hop : ∀ c, Yield cfg c [Node.operator o.asOp (if o.cat = .J then OpAttrs.noMovableLimits else OpAttrs.empty)
        none l r] c := fun c => .op (by split <;> decide)
    have hnode := Yield.sideset (hop _) hy1 hy3
    dsimp only
    generalize Rec.sidesetNode _ _ _ _ _ = node at hnode ⊢
    refine Ev.bind (H.bounds hg7 ha7) ?_
    rintro bl s8 h8 - hg8 ⟨⟨c8, ha8, hy8⟩, -⟩
    refine Ev.get_bind ?_
    split
    · rename_i ht
      refine Ev.pure hg8 ⟨c8, ha8, Yield.getD_none hnode hy8 ?_⟩
      obtain ⟨⟨sub, sup⟩, lim⟩ := bl
      cases sub <;> cases sup <;> first | rfl | cases ht
    · rename_i htr
      obtain ⟨⟨sub, sup⟩, lim⟩ := bl
      split
      · rename_i nd hnd
        refine Ev.pure (P' := Arm cfg b md c) hg8 ⟨c8, ha8, ?_⟩
        split at hnd
        · exact Yield.underover hnode hy8 hnd
        · exact Yield.subsup hnode hy8 hnd
      · rename_i hnd
        split at hnd <;> cases sub <;> cases sup <;>
          first | exact absurd rfl htr | (change some _ = none at hnd; cases hnd)

theorem xarrowArgs (hg : GP input s h) (ha : At b md c s) :
    Ev cfg input (fun n => (parser n).parseXArrowArgs) s h fun r s' _ =>
      ∃ c1 c2, At b md c2 s' ∧ Yield cfg c r.1.toList c1 ∧ Yield cfg c1 [r.2] c2 := by
  refine H.readToken hg ha fun t s1 h1 hr hg1 ha1 hs ht => ?_
  split
  · refine Ev.bind (H.sequence hg1 ha1) ?_
    rintro ns s2 h2 - hg2 ⟨c2, ha2, hy2⟩
    refine Ev.bind (H.next hg2 ha2) ?_
    rintro n s3 h3 - hg3 ⟨c3, ha3, hy3⟩
    exact Ev.pure hg3 ⟨c2, c3, ha3, hy2.nodeVec, hy3⟩
  · refine Ev.bind (ht _ _) ?_
    rintro ⟨cl, n⟩ s2 h2 - hg2 ⟨c2, ha2, hy2⟩
    exact Ev.pure hg2 ⟨c, c2, ha2, .nil .., hy2⟩

theorem xarrow {rel pa prev} (hg : GP input s h) (ha : At b md c s) :
    Ev cfg input (fun n => (parser n).parseXArrow rel pa prev) s h (Arm cfg b md c) := by
  refine Ev.get_bind ?_
  refine Ev.modify_bind (h' := h) (RR.own rfl rfl) ?_
  have hg0 : GP input { s with style := .script, rightBoundaryHack := true } h := hg.own rfl rfl rfl
  refine Ev.bind (H.xarrowArgs hg0 ((ha.style .script).hack true)) ?_
  rintro ⟨u, o⟩ s1 h1 - hg1 ⟨c1, c2, ha1, hy1, hy2⟩
  refine Ev.modify_bind (h' := h1) (RR.own rfl rfl) ?_
  have hg1' : GP input { s1 with style := s.style, rightBoundaryHack := s.rightBoundaryHack } h1 := hg1.own rfl rfl rfl
  have ha1' : At b md c2 { s1 with style := s.style, rightBoundaryHack := s.rightBoundaryHack } := by
    have h4 := (ha1.style s.style).hack s.rightBoundaryHack
    have h5 := ha.mode
    rw [← h5] at h4 ⊢
    exact h4
  refine Ev.leaf ha1' (wp_peekClass hg1') fun nx s3 h3 _ hg3 ha3 _ => ?_
  refine Ev.get_bind ?_
  exact Ev.pure hg3 ⟨c2, ha3, .xarrow hy1 hy2⟩

end Hyp

/-! ### Operators without arguments -/

omit L in
theorem bigAttrs_weak {x : Stretchy} {f : OpAttrs} (hf : f = .empty ∨ f = .formInfix ∨ f = .formPrefix ∨ f = .formPostfix) :
    WeakFlags (bigAttrs x ||| f) := by
  rcases hf with rfl | rfl | rfl | rfl <;> cases x <;> decide

theorem ev_big {size pt pa prev} (hg : GP input s h) (ha : At b md c s) :
    Ev cfg input (fun _ => parseBig size pt pa prev) s h (Arm cfg b md c) := by
  have h0 : ∀ x : Stretchy, WeakFlags (bigAttrs x) := by intro x; cases x <;> decide
  refine Ev.leaf ha (wp_Pnext hg) fun t s1 h1 _ hg1 ha1 ht => ?_
  refine Ev.leaf ha1 (wp_extractDelimiter hg1 ht.1.ok.span) fun p s2 h2 _ hg2 ha2 _ => ?_
  split
  · refine Ev.leaf ha2 (wp_peekClass hg2) fun nx s3 h3 _ hg3 ha3 _ => ?_
    refine Ev.get_bind ?_
    refine Ev.pure hg3 (ha3.made (.op ?_))
    split
    · exact bigAttrs_weak (.inr (.inl rfl))
    · exact h0 _
  · rename_i side _
    have h3 : ∀ (cl : Class) a z l r, WeakFlags a →
        Ev cfg input (fun _ => pure (Parsed.node cl (.operator p.op a z l r))) s2 h2 (Arm cfg b md c) :=
      fun cl a z l r hw => Ev.pure (P' := Arm cfg b md c) hg2 (ha2.made (.op hw))
    dsimp only
    split
    · refine h3 _ _ _ _ _ ?_
      split
      · exact bigAttrs_weak (.inr (.inr (.inl rfl)))
      · exact bigAttrs_weak (.inr (.inr (.inr rfl)))
    · exact h3 _ _ _ _ _ (h0 _)
  · exact Ev.pure hg2 (ha2.made (.op (h0 _)))

theorem ev_middle (hg : GP input s h) (ha : At b md c s) :
    Ev cfg input (fun _ => parseMiddle) s h (Arm cfg b md c) := by
  refine Ev.leaf ha (wp_Pnext hg) fun t s1 h1 _ hg1 ha1 ht => ?_
  refine Ev.leaf ha1 (wp_extractDelimiter hg1 ht.1.ok.span) fun p s2 h2 _ hg2 ha2 _ => ?_
  refine Ev.pure hg2 (ha2.made (.op ?_))
  unfold middleStretchAttrs
  split <;> decide

omit L in
theorem ordNode_yield {v o} : Yield cfg c [ordNode v o] c := by
  have hd : ∀ (x y : Prop) [Decidable x] [Decidable y], Yield cfg c [Node.operator o.asOp
      (if x then OpAttrs.stretchyFalse else OpAttrs.empty) none (if y then some MathSpacing.zero else none)
      (if y then some MathSpacing.zero else none)] c := by
    intro x y _ _
    refine .op ?_
    by_cases hx : x
    · rw [if_pos hx]; decide
    · rw [if_neg hx]; decide
  cases v with
  | none => exact hd _ _
  | some d =>
    by_cases ho : o = Sym.VERTICAL_LINE
    · have : ∃ a l r, ordNode (some d) o = .operator o.asOp a none l r ∧ WeakFlags a := by
        unfold ordNode
        simp only [if_pos ho]
        cases d <;> exact ⟨_, _, _, rfl, by decide⟩
      obtain ⟨a, l, r, h1, h2⟩ := this
      rw [h1]; exact .op h2
    · have : ordNode (some d) o = ordNode none o := by unfold ordNode; simp only [if_neg ho]
      rw [this]; exact hd _ _

omit L in
theorem parenNode_yield {x o} : Yield cfg c [parenNode x o] c := by
  unfold parenNode
  refine .op ?_
  cases x <;> simp only [Bool.false_eq_true, if_false, if_true] <;> (repeat' split) <;> decide

omit L in
theorem relationAttrs_weak {x} : WeakFlags (relationAttrs x) := by cases x <;> decide

omit L in
theorem textNodes_yield {l : List TextSnippet} : Yield cfg c (textNodes l) c := by
  unfold textNodes
  induction l with
  | nil => exact .nil ..
  | cons t ts ih =>
    rw [List.map_cons]
    refine .cons ?_ ih
    have ht : Yield cfg c [.text t.style t.size t.text] c := .leaf _ rfl trivial rfl
    simp only
    split
    · split
      · exact ht
      · exact .wrap _ ht (.refl _) trivial rfl
    · exact ht

end Verif

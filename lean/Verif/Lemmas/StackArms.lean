import Verif.Lemmas.GrammarArms
/-! What the parser does for stacked symbols, arrows with labels, `\genfrac` and `\cramped` -/
namespace Verif
open Model Spec Lexer' TokenQueue

variable {cfg : ParserConfig} {k : Ctx} {α β : Type} {m : Nat → P α} {f : Nat → α → P β}
  {ts ts' ts'' fol : List Tk} {l l' l'' : Loc} {a : α} {t : Tk} {c : Ctx}

theorem at_stacked {s : PState} {b : Bool} (h : s.ctx = k.at l) :
    PState.ctx { s with rightBoundaryHack := b } = k.at { l with stacked := b } := by
  have h' : PState.ctx { s with rightBoundaryHack := b } = { s.ctx with rightBoundaryHack := b } := rfl
  rw [h', h]; rfl

theorem at_style_stacked {s : PState} {st : Style} {b : Bool} (h : s.ctx = k.at l) :
    PState.ctx { s with style := st, rightBoundaryHack := b } = k.at { l with style := st, stacked := b } := by
  have h' : PState.ctx { s with style := st, rightBoundaryHack := b } =
    { s.ctx with style := st, rightBoundaryHack := b } := rfl
  rw [h', h]; rfl

/-! ### Stacked symbols -/

/-- A group which goes on with what is in front of it -/
theorem arm_group_on {sp : Span} {prev nx : Class} {F : Except LatexErrKind (List Node × Loc)}
    (h : Does cfg k (fun n => (parser n).seqLoop (.endToken .groupClose) prev [] none) ts l
      (⟨.groupEnd, false⟩ :: fol) (seqRes [] F)) :
    Does cfg k (fun n => (parser n).parseArm ⟨.groupBegin, sp⟩ .continueSequence prev nx) ts l fol
      (asParsed (F >>= fun r => .ok ((.default, nodeVecToNode r.1 false), { r.2 with style := l.style }))) := by
  unfold Rec.parseArm
  refine Does.get_bind fun s _ => ?_
  show Does cfg k (fun n => (parser n).parseGroup .continueSequence prev) _ _ _ _
  unfold Rec.parseGroup
  simp only [if_true]
  rw [asParsed_bind, ← restyle_bind (g := fun x => asParsed (.ok ((.default, nodeVecToNode x.1 false), x.2)))]
  refine Does.bind (does_sequence (keep := false) rfl rfl h) fun ns l' _ => ?_
  exact Does.pure

/-- A token which goes on with what is in front of it -/
theorem arm_alone (hk : k.Plain) {x : Token} {sp : Span} {prev nx : Class}
    (hx : (match x with | .digit _ => true | t => isAtom t) = true) :
    Does cfg k (fun n => (parser n).parseArm ⟨x, sp⟩ .continueSequence prev nx) ts l ts
      (asParsed (.ok (aloneNode l.style prev nx x, l))) := by
  cases x with
  | digit d =>
    unfold Rec.parseArm
    refine Does.get_bind fun s _ => ?_
    refine Does.after (m := fun _ => parseDigit d .continueSequence) (a := .number [d]) ?_ Does.pure
    unfold parseDigit
    refine Does.get_bind fun s hs' => ?_
    rw [ctx_transform hs', hk.transform]
    exact Does.pure
  | _ => exact arm_atom hk (pa := .continueSequence) hx

theorem arm_stack {sp : Span} {pa : ParseAs} {prev nx : Class} {isOver : Bool}
    {A : Except LatexErrKind (Node × Loc)} {B : Loc → Except LatexErrKind ((Class × Node) × Loc)}
    (h1 : Does cfg k (fun n => (parser n).parseNext .arg) ts { l with style := .script } (t :: ts') A)
    (hw : t.tok.isWs = false) (hn : Named t.tok.unwrapMath = true)
    (h2 : ∀ l' sp, Does cfg k (fun n => (parser n).parseToken ⟨t.tok.unwrapMath, sp⟩ .continueSequence prev) ts'
      l' fol (B l')) :
    Does cfg k (fun n => (parser n).parseArm ⟨if isOver then .overset else .underset, sp⟩ pa prev nx) ts l fol
      (asParsed (A >>= fun r => B { r.2 with style := l.style, stacked := true } >>= fun rt =>
        .ok ((rt.1.1, stackNode isOver r.1 rt.1.2), { rt.2 with stacked := r.2.stacked }))) := by
  unfold Rec.parseArm
  refine Does.get_bind fun s _ => ?_
  have h : Does cfg k (fun n => (parser n).parseOverset isOver prev) ts l fol
      (asParsed (A >>= fun r => B { r.2 with style := l.style, stacked := true } >>= fun rt =>
        .ok ((rt.1.1, stackNode isOver r.1 rt.1.2), { rt.2 with stacked := r.2.stacked }))) := by
    unfold Rec.parseOverset
    refine Does.get_bind fun s0 hs0 => ?_
    refine Does.modify_bind (fun s => rfl) (l' := { l with style := .script }) (fun s hs => at_style hs) ?_
    rw [asParsed_bind]
    refine Does.bind h1 fun sym l1 _ => ?_
    refine Does.modify_bind (fun s => rfl) (l' := { l1 with style := l.style })
      (fun s hs => by rw [ctx_style hs0]; exact at_style hs) ?_
    refine Does.next_bind hw hn fun sp' => ?_
    refine Does.get_bind fun s1 hs1 => ?_
    refine Does.modify_bind (fun s => rfl) (l' := { l1 with style := l.style, stacked := true })
      (fun s hs => at_stacked hs) ?_
    rw [asParsed_bind]
    refine Does.bind (h2 _ sp') fun x l2 _ => ?_
    refine Does.modify_bind (fun s => rfl) (l' := { l2 with stacked := l1.stacked })
      (fun s hs => by rw [ctx_hack hs1]; exact at_stacked hs) ?_
    cases isOver <;> exact Does.pure
  cases isOver <;> exact h

/-! ### Arrows -/

theorem arrowNode_eq (rel : Rel) (sp : Option MathSpacing × Option MathSpacing) (under : Option Node) (over : Node) :
    Rec.xarrowNode rel sp.1 sp.2 under over = arrowNode rel sp under over := by cases under <;> rfl

theorem arm_arrow (hk : k.Plain) {sp : Span} {prev nx : Class} {rel : Rel}
    {N : Except LatexErrKind ((Class × Node) × Loc)}
    (hl : HasLead fol) (hw : t.tok.isWs = false) (hn : Named t.tok.unwrapMath = true)
    (hb : t.tok.unwrapMath.isSquareOpen = false)
    (h : ∀ sp, Does cfg k (fun n => (parser n).parseToken ⟨t.tok.unwrapMath, sp⟩ .arg .default) ts
      { l with style := .script, stacked := true } fol N) :
    Does cfg k (fun n => (parser n).parseArm ⟨.xarrow rel, sp⟩ .sequence prev nx) (t :: ts) l fol
      (asParsed (N >>= fun r => .ok ((.relation, arrowNode rel (relationSpacing l.style prev (leadClass fol) false)
        none r.1.2), { r.2 with style := l.style, stacked := l.stacked }))) := by
  unfold Rec.parseArm
  refine Does.get_bind fun s _ => ?_
  show Does cfg k (fun n => (parser n).parseXArrow rel .sequence prev) _ _ _ _
  unfold Rec.parseXArrow
  refine Does.get_bind fun s0 hs0 => ?_
  refine Does.modify_bind (fun s => rfl) (l' := { l with style := .script, stacked := true })
    (fun s hs => at_style_stacked hs) ?_
  rw [asParsed_bind]
  have h1 : Does cfg k (fun n => (parser n).parseXArrowArgs) (t :: ts) { l with style := .script, stacked := true } fol
      (N >>= fun r => .ok ((none, r.1.2), r.2)) := by
    unfold Rec.parseXArrowArgs
    refine Does.next_bind hw hn fun sp => ?_
    simp only [hb, Bool.false_eq_true, if_false]
    refine Does.bind (h sp) fun x l' _ => ?_
    exact Does.pure
  have e : (N >>= fun r => asParsed (.ok ((.relation, arrowNode rel (relationSpacing l.style prev (leadClass fol) false)
        none r.1.2), { r.2 with style := l.style, stacked := l.stacked }))) =
      ((N >>= fun r => (.ok ((none, r.1.2), r.2) : Except LatexErrKind ((Option Node × Node) × Loc))) >>= fun r =>
        asParsed (.ok ((.relation, arrowNode rel (relationSpacing l.style prev (leadClass fol) false)
        r.1.1 r.1.2), { r.2 with style := l.style, stacked := l.stacked }))) := by cases N <;> rfl
  rw [e]
  refine Does.bind h1 fun x l1 _ => ?_
  refine Does.modify_bind (fun s => rfl) (l' := { l1 with style := l.style, stacked := l.stacked })
    (fun s hs => by rw [ctx_style hs0, ctx_hack hs0]; exact at_style_stacked hs) ?_
  refine Does.peekClass_bind hl hk ?_
  refine Does.get_bind fun s hs => ?_
  rw [ctx_style hs]
  dsimp only
  rw [← arrowNode_eq]
  exact Does.pure

theorem arm_arrowUnder (hk : k.Plain) {sp : Span} {prev nx : Class} {rel : Rel}
    {F : Except LatexErrKind (List Node × Loc)} {A : Loc → Except LatexErrKind (Node × Loc)}
    (hl : HasLead fol)
    (h : Does cfg k (fun n => (parser n).seqLoop (.endToken .squareBracketClose) .opening [] none) ts
      { l with style := .script, stacked := true } (⟨.squareBracketClose, false⟩ :: ts') (seqRes [] F))
    (h2 : ∀ l', Does cfg k (fun n => (parser n).parseNext .arg) ts' l' fol (A l')) :
    Does cfg k (fun n => (parser n).parseArm ⟨.xarrow rel, sp⟩ .sequence prev nx) (⟨.squareBracketOpen, false⟩ :: ts) l
      fol
      (asParsed (F >>= fun ru => A { ru.2 with style := .script } >>= fun r =>
        .ok ((.relation, arrowNode rel (relationSpacing l.style prev (leadClass fol) false)
        (some (nodeVecToNode ru.1 false)) r.1), { r.2 with style := l.style, stacked := l.stacked }))) := by
  unfold Rec.parseArm
  refine Does.get_bind fun s _ => ?_
  show Does cfg k (fun n => (parser n).parseXArrow rel .sequence prev) _ _ _ _
  unfold Rec.parseXArrow
  refine Does.get_bind fun s0 hs0 => ?_
  refine Does.modify_bind (fun s => rfl) (l' := { l with style := .script, stacked := true })
    (fun s hs => at_style_stacked hs) ?_
  have h1 : Does cfg k (fun n => (parser n).parseXArrowArgs) (⟨.squareBracketOpen, false⟩ :: ts)
      { l with style := .script, stacked := true } fol
      (F >>= fun ru => A { ru.2 with style := .script } >>= fun r =>
        .ok ((some (nodeVecToNode ru.1 false), r.1), r.2)) := by
    unfold Rec.parseXArrowArgs
    refine Does.next_bind rfl rfl fun sp => ?_
    simp only [Token.isSquareOpen, Token.unwrapMath, if_true]
    have e0 := restyle_bind (st := .script) (r := F) (g := fun x => A x.2 >>= fun r =>
      .ok ((some (nodeVecToNode x.1 false), r.1), r.2))
    rw [← e0]
    refine Does.bind (does_sequence (keep := false) rfl rfl h) fun ns l' _ => ?_
    refine Does.bind (h2 l') fun x l2 _ => ?_
    exact Does.pure
  have e : asParsed (F >>= fun ru => A { ru.2 with style := .script } >>= fun r =>
        .ok ((.relation, arrowNode rel (relationSpacing l.style prev (leadClass fol) false)
        (some (nodeVecToNode ru.1 false)) r.1), { r.2 with style := l.style, stacked := l.stacked })) =
      ((F >>= fun ru => A { ru.2 with style := .script } >>= fun r =>
        (.ok ((some (nodeVecToNode ru.1 false), r.1), r.2) : Except LatexErrKind ((Option Node × Node) × Loc))) >>=
        fun r => asParsed (.ok ((.relation, arrowNode rel (relationSpacing l.style prev (leadClass fol) false)
        r.1.1 r.1.2), { r.2 with style := l.style, stacked := l.stacked }))) := by
    cases F with
    | error e => rfl
    | ok p =>
      show asParsed (A { p.2 with style := .script } >>= _) = ((A { p.2 with style := .script } >>= _) >>= _)
      cases A { p.2 with style := .script } <;> rfl
  rw [e]
  refine Does.bind h1 fun x l1 _ => ?_
  refine Does.modify_bind (fun s => rfl) (l' := { l1 with style := l.style, stacked := l.stacked })
    (fun s hs => by rw [ctx_style hs0, ctx_hack hs0]; exact at_style_stacked hs) ?_
  refine Does.peekClass_bind hl hk ?_
  refine Does.get_bind fun s hs => ?_
  rw [ctx_style hs]
  dsimp only
  rw [← arrowNode_eq]
  exact Does.pure

/-! ### `\cramped` -/

theorem arm_cramped {sp : Span} {pa : ParseAs} {prev nx : Class} {st : Option Style}
    {F : Except LatexErrKind (List Node × Loc)}
    (h : Does cfg k (fun n => (parser n).seqLoop (.endToken .groupClose) .opening [] none) ts l
      (⟨.groupEnd, false⟩ :: fol) (seqRes [] F)) :
    Does cfg k (fun n => (parser n).parseArm ⟨.cramped, sp⟩ pa prev nx)
      (crampedTokens st ++ ⟨.groupBegin, false⟩ :: ts) l fol
      (asParsed (F >>= fun r => .ok ((.default, .row [nodeVecToNode r.1 true] { style := st, mathShiftCompact := true }),
        { r.2 with style := l.style }))) := by
  have hg : ∀ sp prev, Does cfg k (fun n => (parser n).parseToken ⟨.groupBegin, sp⟩ .arg prev) ts l fol
      (F >>= fun r => .ok ((.default, nodeVecToNode r.1 true), { r.2 with style := l.style })) := fun sp prev =>
    Does.token_arg (pa := .arg) rfl (arm_group (pa := .arg) (by simp) h)
  unfold Rec.parseArm
  refine Does.get_bind fun s _ => ?_
  show Does cfg k (fun n => (parser n).parseCramped prev) _ _ _ _
  unfold Rec.parseCramped
  have e : asParsed (F >>= fun r => .ok ((.default, .row [nodeVecToNode r.1 true] { style := st, mathShiftCompact := true }),
        { r.2 with style := l.style })) =
      ((F >>= fun r => (.ok ((.default, nodeVecToNode r.1 true), { r.2 with style := l.style }) :
        Except LatexErrKind ((Class × Node) × Loc))) >>= fun r =>
        asParsed (.ok ((.default, .row [r.1.2] { style := st, mathShiftCompact := true }), r.2))) := by
    cases F <;> rfl
  rw [e]
  cases st with
  | none =>
    refine Does.next_bind (t := ⟨.groupBegin, false⟩) rfl rfl fun sp' => ?_
    simp only [Token.isSquareOpen, Token.unwrapMath, Bool.false_eq_true, if_false]
    refine Does.bind (hg sp' prev) fun x l' _ => ?_
    exact Does.pure
  | some st =>
    refine Does.next_bind (t := ⟨.squareBracketOpen, false⟩) rfl rfl fun sp' => ?_
    simp only [Token.isSquareOpen, Token.unwrapMath, if_true]
    refine Does.after (m := fun _ => Rec.crampedStyle) (a := some st) (ts' := ⟨.groupBegin, false⟩ :: ts) (l' := l) ?_ ?_
    · unfold Rec.crampedStyle
      refine Does.next_bind (t := ⟨.style st, false⟩) rfl rfl fun sp' => ?_
      refine Does.next_bind (t := ⟨.squareBracketClose, false⟩) rfl rfl fun sp' => ?_
      exact Does.pure
    · have hnext := does_next (t := ⟨.groupBegin, false⟩) (pa := .arg) rfl rfl (fun sp => hg sp .default)
      have e2 : ∀ N : Except LatexErrKind ((Class × Node) × Loc), (N >>= fun r =>
          asParsed (.ok ((.default, .row [r.1.2] { style := some st, mathShiftCompact := true }), r.2))) =
          ((N >>= fun r => (.ok (r.1.2, r.2) : Except LatexErrKind (Node × Loc))) >>= fun r =>
          asParsed (.ok ((.default, .row [r.1] { style := some st, mathShiftCompact := true }), r.2))) := by
        intro N; cases N <;> rfl
      rw [e2]
      refine Does.bind hnext fun x l' _ => ?_
      exact Does.pure

/-! ### `\genfrac` -/

/-- A token which can be in the braces of an argument -/
def inBraces (t : Token) : Bool := !t.isWs && (match t.unwrapMath with
  | .groupBegin | .groupEnd | .eoi => false
  | t => Named t)

theorem inBraces_iff {t : Token} (h : inBraces t = true) : t.isWs = false ∧ Named t.unwrapMath = true ∧
    t.unwrapMath ≠ .groupBegin ∧ t.unwrapMath ≠ .groupEnd ∧ t.unwrapMath ≠ .eoi := by
  unfold inBraces at h
  simp only [Bool.and_eq_true, Bool.not_eq_true'] at h
  obtain ⟨h1, h2⟩ := h
  refine ⟨h1, ?_⟩
  generalize t.unwrapMath = y at h2
  cases y <;> first | (cases h2; done) | exact ⟨h2, by simp, by simp, by simp⟩

/-- At most one token in braces -/
theorem Is.one {s : PState} {o : Option Token} (ho : ∀ t, o = some t → inBraces t = true)
    (h : Is cfg s (oneTokens o ++ ts) c) :
    ∃ sp arg q', liftQ (readArgument false) cfg s = .ok arg { s with q := q' } ∧
      arg.intoOneOrNone = .ok (o.map fun t => ⟨t.unwrapMath, sp⟩) ∧ Is cfg { s with q := q' } ts c := by
  cases o with
  | none =>
    have h : Is cfg s (⟨.groupBegin, false⟩ :: ⟨.groupEnd, false⟩ :: ts) c := h
    obtain ⟨qt, q1, h1, h2, h3⟩ := h.nextKeeping rfl rfl
    obtain ⟨qt', q2, h4, h5, h6⟩ := h3.nextKeeping rfl rfl
    have h4 : nextKeepingName cfg q1 = .ok qt' q2 := h4
    have h2 : qt.tok = .groupBegin := h2
    have h5 : qt'.tok = .groupEnd := h5
    refine ⟨default, .group [] ⟨qt.ts.span.start, qt'.span.stop⟩, q2, ?_, rfl, h6⟩
    have hf : recordGroup false cfg q1 = .ok ([], qt'.span.stop) q2 := by
      unfold recordGroup
      show recordGroupLoop false q1.loopFuel 0 [] cfg q1 = _
      have hl : q1.loopFuel = (q1.queue.length + q1.lexer.rest.length + 1) + 1 := rfl
      rw [hl, recordGroupLoop_succ]
      unfold St.bind
      simp only [Bool.false_eq_true, if_false, h4, groupCont, h5]
      rfl
    unfold liftQ St.zoom readArgument
    simp only [bind, St.bind, St.get, TokenQueue.next, h1, Pure.pure, St.pure, Bool.false_eq_true, if_false,
      QueuedTok.ts, h2, Token.isGroupBegin, if_true, hf]
    rfl
  | some t =>
    obtain ⟨g1, g2, g3, g4, g5⟩ := inBraces_iff (ho t rfl)
    have h : Is cfg s (⟨.groupBegin, false⟩ :: ⟨t, false⟩ :: ⟨.groupEnd, false⟩ :: ts) c := h
    obtain ⟨qt, q1, h1, h2, h3⟩ := h.nextKeeping rfl rfl
    obtain ⟨qt', q2, h4, h5, h6⟩ := h3.nextKeeping g1 g2
    obtain ⟨qt2, q3, h7, h8, h9⟩ := h6.nextKeeping rfl rfl
    have h4 : nextKeepingName cfg q1 = .ok qt' q2 := h4
    have h7 : nextKeepingName cfg q2 = .ok qt2 q3 := h7
    have h2 : qt.tok = .groupBegin := h2
    have h8 : qt2.tok = .groupEnd := h8
    refine ⟨qt'.ts.span, .group [qt'.ts] ⟨qt.ts.span.start, qt2.span.stop⟩, q3, ?_, ?_, h9⟩
    · have hf : recordGroup false cfg q1 = .ok ([qt'], qt2.span.stop) q3 := by
        unfold recordGroup
        show recordGroupLoop false q1.loopFuel 0 [] cfg q1 = _
        have hl : q1.loopFuel = (q1.queue.length + q1.lexer.rest.length) + 1 + 1 := rfl
        rw [hl, recordGroupLoop_succ]
        have hg : groupCont false (q1.queue.length + q1.lexer.rest.length + 1) 0 [] qt' =
            recordGroupLoop false (q1.queue.length + q1.lexer.rest.length + 1) 0 [qt'] := by
          unfold groupCont
          dsimp only at h5
          rw [h5]
          generalize t.unwrapMath = y at g3 g4 g5
          cases y <;> first | exact absurd rfl g3 | exact absurd rfl g4 | exact absurd rfl g5 | rfl
        unfold St.bind
        simp only [Bool.false_eq_true, if_false, h4, hg]
        rw [recordGroupLoop_succ]
        unfold St.bind
        simp only [Bool.false_eq_true, if_false, h7, groupCont, h8]
        rfl
      unfold liftQ St.zoom readArgument
      simp only [bind, St.bind, St.get, TokenQueue.next, h1, Pure.pure, St.pure, Bool.false_eq_true, if_false,
        QueuedTok.ts, h2, Token.isGroupBegin, if_true, hf]
      rfl
    · show Except.ok (some qt'.ts) = _
      rw [Option.map_some, ← h5]; rfl

theorem Does.one_bind {r : Except LatexErrKind (β × Loc)} {f : Nat → MacroArgument → P β} {o : Option Token}
    (ho : ∀ t, o = some t → inBraces t = true)
    (h : ∀ sp arg, arg.intoOneOrNone = .ok (o.map fun t => ⟨t.unwrapMath, sp⟩) →
      Does cfg k (fun n => f n arg) ts l ts' r) :
    Does cfg k (fun n => liftQ (readArgument false) >>= f n) (oneTokens o ++ ts) l ts' r := by
  cases r with
  | error e =>
    intro s hs
    obtain ⟨sp, arg, q', h1, h0, h2⟩ := hs.one ho
    obtain ⟨n0, e, s', h3, h4⟩ := h sp arg h0 _ h2
    refine ⟨n0, e, s', fun n hn => ?_, h4⟩
    show St.bind _ (f n) cfg s = _
    unfold St.bind
    rw [h1]; exact h3 n hn
  | ok p =>
    intro s hs
    obtain ⟨sp, arg, q', h1, h0, h2⟩ := hs.one ho
    obtain ⟨n0, s', h3, h4⟩ := h sp arg h0 _ h2
    refine ⟨n0, s', fun n hn => ?_, h4⟩
    show St.bind _ (f n) cfg s = _
    unfold St.bind
    rw [h1]; exact h3 n hn

theorem does_genDelim {o : Option Token} (ho : ∀ t, o = some t → inBraces t = true) :
    Does cfg k (fun _ => genfracDelimiter) (oneTokens o ++ ts) l ts (genDelim o >>= fun d => .ok (d, l)) := by
  unfold genfracDelimiter
  refine Does.one_bind ho fun sp arg ha => ?_
  rw [ha]
  cases o with
  | none => exact Does.pure
  | some t =>
    refine Does.after (m := fun _ => (Pure.pure (some ⟨t.unwrapMath, sp⟩) : P (Option TokSpan))) Does.pure ?_
    unfold genDelim extractDelimiter someDelim
    dsimp only
    cases t.unwrapMath.delimiter with
    | none => exact Does.fail_bind
    | some d => exact Does.pure

theorem does_genStyle {o : Option Char} :
    Does cfg k (fun _ => genfracStyle) (oneTokens (o.map .digit) ++ ts) l ts (genStyle o >>= fun d => .ok (d, l)) := by
  unfold genfracStyle
  refine Does.one_bind (by intro t h; cases o with | none => cases h | some c => cases h; rfl) fun sp arg ha => ?_
  rw [ha]
  cases o with
  | none => exact Does.pure
  | some c =>
    refine Does.after (m := fun _ => (Pure.pure (some ⟨.digit c, sp⟩) : P (Option TokSpan))) Does.pure ?_
    dsimp only
    by_cases h0 : c = '0'
    · subst h0; exact Does.pure
    by_cases h1 : c = '1'
    · subst h1; exact Does.pure
    by_cases h2 : c = '2'
    · subst h2; exact Does.pure
    by_cases h3 : c = '3'
    · subst h3; exact Does.pure
    have hg : genStyle (some c) = .error .expectedArgumentGotEOI := by
      unfold genStyle
      split <;> first | rfl | (rename_i h; cases h <;> contradiction)
    rw [if_neg h0, if_neg h1, if_neg h2, if_neg h3, hg]
    exact Does.fail

theorem does_genLine {text : List Token} (ht : (plainText text).isSome = true) :
    Does cfg k (fun _ => genfracLength) (textTokens text ++ ts) l ts (genLine text >>= fun d => .ok (d, l)) := by
  obtain ⟨str, hstr⟩ := Option.isSome_iff_exists.1 ht
  unfold genfracLength
  have e1 : textTokens text ++ ts = (⟨.groupBegin, false⟩ : Tk) :: tight text ++ ⟨.groupEnd, true⟩ :: ts := by
    unfold textTokens; simp
  rw [e1]
  refine Does.stringLiteral_bind hstr fun sp' => ?_
  unfold genLine
  rw [hstr]
  dsimp only [Option.getD_some]
  cases hs : trimAscii str with
  | nil => exact Does.pure
  | cons c cs =>
    dsimp only [List.isEmpty_cons]
    simp only [Bool.false_eq_true, if_false]
    cases parseLengthSpecification (c :: cs) with
    | none => exact Does.fail
    | some x => exact Does.pure

/-- A step whose result is a value or an error -/
theorem Does.value {r : Except LatexErrKind α} {R : α → Except LatexErrKind (β × Loc)}
    (h : Does cfg k m ts l ts' (r >>= fun d => .ok (d, l)))
    (h' : ∀ a, r = .ok a → Does cfg k (fun n => f n a) ts' l ts'' (R a)) :
    Does cfg k (fun n => m n >>= f n) ts l ts'' (r >>= R) := by
  refine Does.seq h (fun e he => ?_) (fun d l1 he => ?_)
  · cases hr : r with
    | error e' => rw [hr] at he; cases he; rfl
    | ok x => rw [hr] at he; cases he
  · cases hr : r with
    | error e' => rw [hr] at he; cases he
    | ok x => rw [hr] at he; cases he; exact h' _ hr

theorem arm_genfrac {sp : Span} {pa : ParseAs} {prev nx : Class} {x : GenFrac}
    {N : Except LatexErrKind (Node × Loc)} {D : Loc → Except LatexErrKind (Node × Loc)} (hx : x.ok = true)
    (h1 : Does cfg k (fun n => (parser n).parseNext .arg) ts l ts' N)
    (h2 : ∀ l', Does cfg k (fun n => (parser n).parseNext .arg) ts' l' fol (D l')) :
    Does cfg k (fun n => (parser n).parseArm ⟨.genfrac, sp⟩ pa prev nx) (x.tokens ++ ts) l fol
      (asParsed (genDelim x.left >>= fun opening => genDelim x.right >>= fun closing => genLine x.line >>= fun lt =>
        genStyle x.style >>= fun style => N >>= fun r1 => D r1.2 >>= fun r2 =>
        .ok ((.default, fenced [.frac r1.1 r2.1 lt.value lt.unit none] opening closing style), r2.2))) := by
  unfold GenFrac.ok at hx
  simp only [Bool.and_eq_true, List.all_append, List.all_eq_true] at hx
  obtain ⟨⟨hl, hr⟩, ht⟩ := hx
  unfold Rec.parseArm
  refine Does.get_bind fun s _ => ?_
  show Does cfg k (fun n => (parser n).parseGenfrac) _ _ _ _
  unfold Rec.parseGenfrac GenFrac.tokens
  rw [List.append_assoc, List.append_assoc, List.append_assoc, asParsed_bind]
  refine Does.value (does_genDelim fun t h => ?_) fun opening _ => ?_
  · have := hl t (by rw [h]; exact List.mem_singleton.2 rfl)
    unfold inBraces; rw [this.1]; exact this.2
  rw [asParsed_bind]
  refine Does.value (does_genDelim fun t h => ?_) fun closing _ => ?_
  · have := hr t (by rw [h]; exact List.mem_singleton.2 rfl)
    unfold inBraces; rw [this.1]; exact this.2
  rw [asParsed_bind]
  refine Does.value (does_genLine ht) fun lt _ => ?_
  rw [asParsed_bind]
  refine Does.value does_genStyle fun style _ => ?_
  rw [asParsed_bind]
  refine Does.bind h1 fun num l1 _ => ?_
  rw [asParsed_bind]
  refine Does.bind (h2 l1) fun den l2 _ => ?_
  exact Does.pure

end Verif

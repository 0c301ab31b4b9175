import Verif.Lemmas.DoesText
/-! The parser on the pieces of a formula, given what it does with the smaller formulas in them. -/
namespace Verif
open Model Spec Lexer' TokenQueue

variable {cfg : ParserConfig} {k : Ctx} {α β : Type} {m : Nat → P α} {f : Nat → α → P β}
  {ts ts' ts'' fol : List Tk} {l l' l'' : Loc} {a : α} {t : Tk} {c : Ctx}

/-- One computation after another -/
theorem Does.seq {r : Except LatexErrKind (α × Loc)} {R : Except LatexErrKind (β × Loc)}
    (h : Does cfg k m ts l ts' r) (herr : ∀ e, r = .error e → R = .error e)
    (hok : ∀ a l', r = .ok (a, l') → Does cfg k (fun n => f n a) ts' l' ts'' R) :
    Does cfg k (fun n => m n >>= f n) ts l ts'' R := by
  cases r with
  | error e => rw [herr e rfl]; exact Raises.bind h
  | ok p => exact Does.after (a := p.1) (l' := p.2) h (hok p.1 p.2 rfl)

/-! ### Heads -/

/-- Tokens which end a sequence -/
def closer : Token → Bool
  | .groupEnd | .endEnv _ | .right | .eoi => true
  | _ => false

/-- Tokens which start or modify scripts -/
def scripty : Token → Bool
  | .underscore | .circumflex | .prime _ | .limits _ => true
  | _ => false

/-- Tokens which produce something -/
def quiet : Token → Bool
  | .eoi | .infixGenFrac _ _ | .relax | .transformSwitch _ | .newCommand _ | .letCmd | .defCmd _ | .globalPrefix
  | .verticalLineDef _ | .noNumber | .tag _ | .label => false
  | _ => true

/-- Is it a line in a table? -/
def isHline : Token → Bool
  | .hline _ => true
  | _ => false

/-- A token which can come after scripts and after a line break -/
def clean (t : Token) : Bool :=
  !t.isWs && Named t.unwrapMath && !scripty t.unwrapMath && !isHline t

theorem clean_iff {x : Token} : clean x = true ↔
    x.isWs = false ∧ Named x.unwrapMath = true ∧ scripty x.unwrapMath = false ∧ isHline x = false := by
  unfold clean
  simp [and_assoc]

/-- The first token is one which can come after scripts. -/
def Starts (ts : List Tk) : Prop := ∃ t rest, ts = t :: rest ∧ clean t.tok = true

theorem lead_append (ts ts' : List Tk) : leadClass (ts ++ ts') = lead ts (leadClass ts') := by
  induction ts with
  | nil => rfl
  | cons t ts ih =>
    show t.tok.cls.getD (leadClass (ts ++ ts')) = t.tok.cls.getD (lead ts (leadClass ts'))
    rw [ih]

theorem HasLead.append (h : HasLead ts') : HasLead (ts ++ ts') := by
  obtain ⟨t, h1, h2⟩ := h
  exact ⟨t, List.mem_append.2 (Or.inr h1), h2⟩

theorem HasLead.cons (h : HasLead ts) : HasLead (t :: ts) := HasLead.append (ts := [t]) h

theorem handle_quiet {x : TokSpan} (h : quiet x.tok = true) (e : SequenceEnd) (nodes : List Node)
    (i : InfixFrac) : handleTokensWithoutOutput x e nodes i = (pure none : P _) := by
  obtain ⟨x, sp⟩ := x
  dsimp only at h
  unfold handleTokensWithoutOutput
  cases x <;> first | rfl | cases h

theorem at_style {s : PState} {st : Style} (h : s.ctx = k.at l) :
    PState.ctx { s with style := st } = k.at { l with style := st } := by
  have h' : PState.ctx { s with style := st } = { s.ctx with style := st } := rfl
  rw [h', h]; rfl

theorem at_env {s : PState} {e : EnvState} (h : s.ctx = k.at l) :
    PState.ctx { s with env := e } = k.at { l with env := e } := by
  have h' : PState.ctx { s with env := e } = { s.ctx with env := e } := rfl
  rw [h', h]; rfl

theorem at_style_env {s : PState} {st : Style} {e : EnvState} (h : s.ctx = k.at l) :
    PState.ctx { s with style := st, env := e } = k.at { l with style := st, env := e } := by
  have h' : PState.ctx { s with style := st, env := e } = { s.ctx with style := st, env := e } := rfl
  rw [h', h]; rfl

theorem ctx_style {s : PState} (h : s.ctx = k.at l) : s.style = l.style := congrArg Ctx.style h
theorem ctx_env {s : PState} (h : s.ctx = k.at l) : s.env = l.env := congrArg Ctx.env h
theorem ctx_count {s : PState} (h : s.ctx = k.at l) : s.q.equationCount = l.count := congrArg Ctx.count h
theorem ctx_labels {s : PState} (h : s.ctx = k.at l) : s.q.labelMap = l.labels := congrArg Ctx.labels h
theorem ctx_transform {s : PState} (h : s.ctx = k.at l) : s.transform = k.transform := congrArg Ctx.transform h
theorem ctx_hack {s : PState} (h : s.ctx = k.at l) : s.rightBoundaryHack = l.stacked :=
  congrArg Ctx.rightBoundaryHack h
theorem ctx_vld {s : PState} (h : s.ctx = k.at l) : s.verticalLineDef = k.verticalLineDef :=
  congrArg Ctx.verticalLineDef h

theorem env_lines (e : Env) : e.allowsHlines = envLines e := by cases e <;> rfl
theorem env_style (e : Env) : e.style = envStyle e := by cases e <;> rfl
theorem env_state (e : Env) : e.newState = envState e := by cases e <;> rfl

/-! ### From arms to tokens -/

/-- A class and a node, as `parse_one_token` returns them -/
def asParsed (r : Except LatexErrKind ((Class × Node) × Loc)) : Except LatexErrKind (Parsed × Loc) :=
  match r with
  | .ok ((c, n), l) => .ok (.node c n, l)
  | .error e => .error e

theorem Does.token (hk : k.Plain) {x : TokSpan} {pa : ParseAs} {prev : Class} {nx : Class}
    {r : Except LatexErrKind ((Class × Node) × Loc)} (hl : HasLead ts)
    (hnx : nx = if pa.inSequence then leadClass ts else .default)
    (h : Does cfg k (fun n => (parser n).parseArm x pa prev (l.seen nx)) ts l ts' (asParsed r)) :
    Does cfg k (fun n => (parser n).parseToken x pa prev) ts l ts' r := by
  refine Does.step (G := fun n => (parser n).parseTokenStep x pa prev) (fun n => rfl) ?_
  refine Does.seq (r := asParsed r) (ts' := ts') (m := fun n => (parser n).parseOneToken x pa prev) ?_ ?_ ?_
  · refine Does.peekClass_bind hl hk ?_
    refine Does.get_bind fun s hs => ?_
    rw [ctx_hack hs, ← hnx]
    exact h
  · intro e he
    cases r with
    | ok p => cases he
    | error e' => cases he; rfl
  · intro p l1 he
    cases r with
    | error e' => cases he
    | ok q =>
      obtain ⟨⟨c, n⟩, l2⟩ := q
      cases he
      exact Does.pure

/-- The same without looking ahead -/
theorem Does.token_arg {x : TokSpan} {pa : ParseAs} {prev : Class}
    {r : Except LatexErrKind ((Class × Node) × Loc)} (hpa : pa.inSequence = false)
    (h : Does cfg k (fun n => (parser n).parseArm x pa prev .default) ts l ts' (asParsed r)) :
    Does cfg k (fun n => (parser n).parseToken x pa prev) ts l ts' r := by
  refine Does.step (G := fun n => (parser n).parseTokenStep x pa prev) (fun n => rfl) ?_
  refine Does.seq (r := asParsed r) (ts' := ts') (m := fun n => (parser n).parseOneToken x pa prev) ?_ ?_ ?_
  · unfold Rec.parseOneToken
    rw [hpa]
    refine Does.after (m := fun n => peekClassToken false) (a := .default) Does.pure ?_
    refine Does.get_bind fun s hs => ?_
    rw [show (decide (Class.default = Class.ending)) = false from rfl, Bool.and_false]
    exact h
  · intro e he
    cases r with
    | ok p => cases he
    | error e' => cases he; rfl
  · intro p l1 he
    cases r with
    | error e' => cases he
    | ok q =>
      obtain ⟨⟨c, n⟩, l2⟩ := q
      cases he
      exact Does.pure

/-! ### Atoms and numbers -/

theorem arm_atom (hk : k.Plain) {x : Token} {sp : Span} {pa : ParseAs} {prev nx : Class} (hx : isAtom x = true) :
    Does cfg k (fun n => (parser n).parseArm ⟨x, sp⟩ pa prev nx) ts l ts
      (asParsed (.ok (atomNode l.style pa.inSequence prev nx x, l))) := by
  unfold Rec.parseArm
  refine Does.get_bind fun s hs => ?_
  rw [ctx_style hs, ctx_transform hs, ctx_vld hs, hk.transform, hk.vld]
  cases x <;> first | (cases hx; done) | exact Does.pure | skip

theorem digits_solid (more : List (Bool × Char)) : ∀ t ∈ digitTokens fullStop more, solid t.tok = true := by
  intro t ht
  unfold digitTokens at ht
  obtain ⟨⟨p, ch⟩, -, h2⟩ := List.mem_flatMap.1 ht
  cases p with
  | false =>
    simp only [Bool.false_eq_true, if_false, List.mem_singleton] at h2
    subst h2; rfl
  | true =>
    simp only [if_true, List.mem_cons, List.not_mem_nil, or_false] at h2
    rcases h2 with rfl | rfl <;> rfl

theorem does_digits {fuel : Nat} {more : List (Bool × Char)} {acc : Str}
    (hf : (digitTokens fullStop more).length < fuel) (hs : ∃ t rest, fol = t :: rest ∧ t.tok.isWs = false)
    (hn : headNot continuesNumber fol = true) :
    Does cfg k (fun _ => digitsLoop fuel acc) (digitTokens fullStop more ++ fol) l fol
      (.ok (acc ++ digitText more, l)) := by
  induction more generalizing fuel acc with
  | nil =>
    obtain ⟨fuel, rfl⟩ : ∃ j, fuel = j + 1 := ⟨fuel - 1, by have : 0 < fuel := hf; omega⟩
    obtain ⟨t, rest, rfl, hw⟩ := hs
    refine Does.peek_bind hw fun sp => ?_
    have hn' : continuesNumber t.tok = false := by simpa [headNot] using hn
    unfold continuesNumber at hn'
    obtain ⟨x, tg⟩ := t
    dsimp only at hn' ⊢
    cases x <;> first
      | (cases hn'; done)
      | (dsimp only at hn'; simp only [hn', Bool.false_eq_true, if_false, digitText, List.flatMap_nil, List.append_nil]
         exact Does.pure)
  | cons d more ih =>
    obtain ⟨fuel, rfl⟩ : ∃ j, fuel = j + 1 := ⟨fuel - 1, by have : _ < fuel := hf; omega⟩
    obtain ⟨p, ch⟩ := d
    cases p with
    | false =>
      show Does cfg k _ (⟨.digit ch, false⟩ :: (digitTokens fullStop more ++ fol)) _ _ _
      have hl : (digitTokens fullStop more).length + 1 < fuel + 1 := hf
      refine Does.peek_bind rfl fun sp => ?_
      refine Does.next_bind rfl rfl fun sp => ?_
      have e : acc ++ digitText ((false, ch) :: more) = (acc ++ [ch]) ++ digitText more := by
        unfold digitText; simp
      rw [e]
      exact ih (by omega)
    | true =>
      show Does cfg k _ (⟨fullStop, false⟩ :: ⟨.digit ch, false⟩ :: (digitTokens fullStop more ++ fol)) _ _ _
      have hl : (digitTokens fullStop more).length + 2 < fuel + 1 := hf
      obtain ⟨fuel, rfl⟩ : ∃ j, fuel = j + 1 := ⟨fuel - 1, by omega⟩
      refine Does.peek_bind rfl fun sp => ?_
      show Does cfg k (fun _ => if fullStop.isFullStop then _ else _) _ _ _ _
      have hfs : fullStop.isFullStop = true := by decide
      simp only [hfs, if_true]
      refine Does.peekSecond_bind rfl rfl fun sp => ?_
      refine Does.next_bind rfl rfl fun sp => ?_
      refine Does.peek_bind rfl fun sp => ?_
      refine Does.next_bind rfl rfl fun sp => ?_
      have e : acc ++ digitText ((true, ch) :: more) = (acc ++ ['.'] ++ [ch]) ++ digitText more := by
        unfold digitText; simp
      rw [e]
      exact ih (by omega)

theorem arm_number (hk : k.Plain) {d : Char} {sp : Span} {more : List (Bool × Char)} {prev nx : Class}
    (hs : ∃ t rest, fol = t :: rest ∧ t.tok.isWs = false) (hn : headNot continuesNumber fol = true) :
    Does cfg k (fun n => (parser n).parseArm ⟨.digit d, sp⟩ .sequence prev nx) (digitTokens fullStop more ++ fol) l fol
      (asParsed (.ok ((.default, .number (d :: digitText more)), l))) := by
  unfold Rec.parseArm
  refine Does.get_bind fun s _ => ?_
  refine Does.after (m := fun _ => parseDigit d .sequence) (a := .number (d :: digitText more)) ?_ Does.pure
  unfold parseDigit
  refine Does.get_bind fun s hs' => ?_
  rw [ctx_transform hs', hk.transform]
  simp only [if_true]
  refine Does.loopFuel_bind (digits_solid more) fun F hF => ?_
  exact Does.after (m := fun _ => digitsLoop F [d]) (does_digits (acc := [d]) (by omega) hs hn) Does.pure

theorem arm_digit_arg (hk : k.Plain) {d : Char} {sp : Span} {pa : ParseAs} {prev nx : Class} (hp : pa.inSequence = false) :
    Does cfg k (fun n => (parser n).parseArm ⟨.digit d, sp⟩ pa prev nx) ts l ts
      (asParsed (.ok ((.default, .number [d]), l))) := by
  unfold Rec.parseArm
  refine Does.get_bind fun s _ => ?_
  refine Does.after (m := fun _ => parseDigit d pa) (a := .number [d]) ?_ Does.pure
  unfold parseDigit
  refine Does.get_bind fun s hs' => ?_
  rw [ctx_transform hs', hk.transform]
  have : pa ≠ .sequence := by rintro rfl; cases hp
  simp only [this, if_false]
  exact Does.pure

/-! ### Sequences and groups -/

/-- The result of the loop, given the nodes of the rest -/
def seqRes (nodes : List Node) (r : Except LatexErrKind (List Node × Loc)) :
    Except LatexErrKind ((List Node × InfixFrac) × Loc) :=
  match r with
  | .ok (ns, l) => .ok ((nodes ++ ns, none), l)
  | .error e => .error e

/-- The result of a sequence, after which the style is as before -/
def restyle (st : Style) (r : Except LatexErrKind (List Node × Loc)) : Except LatexErrKind (List Node × Loc) :=
  match r with
  | .ok (ns, l) => .ok (ns, { l with style := st })
  | .error e => .error e

theorem at_restyle {s s0 : PState} (h : s.ctx = k.at l') (h0 : s0.ctx = k.at l) :
    PState.ctx { s with transform := s0.transform, style := s0.style } = k.at { l' with style := l.style } := by
  have h' : PState.ctx { s with transform := s0.transform, style := s0.style } =
      { s.ctx with transform := s0.transform, style := s0.style } := rfl
  rw [h', h, ctx_transform h0, ctx_style h0]; rfl

theorem does_sequence {e : SequenceEnd} {prev : Class} {keep : Bool} {F : Except LatexErrKind (List Node × Loc)}
    {en : Tk} (hw : en.tok.isWs = false) (hn : Named en.tok.unwrapMath = true)
    (h : Does cfg k (fun n => (parser n).seqLoop e prev [] none) ts l (en :: fol) (seqRes [] F)) :
    Does cfg k (fun n => (parser n).parseSequence e prev keep) ts l (if keep then en :: fol else fol)
      (restyle l.style F) := by
  unfold Rec.parseSequence
  refine Does.get_bind fun s0 hs0 => ?_
  refine Does.seq h (fun e he => ?_) (fun p l1 he => ?_)
  · cases F with
    | ok p => cases he
    | error e' => cases he; rfl
  · cases F with
    | error e' => cases he
    | ok q =>
      obtain ⟨ns, l2⟩ := q
      cases he
      refine Does.after (m := fun _ => P.skipIf (!keep)) (Does.skipIf hw hn) ?_
      have hts : (if (!keep) = true then fol else en :: fol) = if keep = true then en :: fol else fol := by
        cases keep <;> rfl
      rw [hts]
      exact Does.modify_bind (fun s => rfl) (fun s hs => at_restyle hs hs0) Does.pure

/-- Results which are an error, or of which the value is known -/
theorem Does.seq' {r : Except LatexErrKind (α × Loc)} {g : α × Loc → Except LatexErrKind (β × Loc)}
    (h : Does cfg k m ts l ts' r)
    (hok : ∀ a l', r = .ok (a, l') → Does cfg k (fun n => f n a) ts' l' ts'' (g (a, l'))) :
    Does cfg k (fun n => m n >>= f n) ts l ts'' (r >>= g) := Does.bind h hok

theorem asParsed_bind {γ : Type} {r : Except LatexErrKind γ} {g : γ → Except LatexErrKind ((Class × Node) × Loc)} :
    asParsed (r >>= g) = r >>= fun x => asParsed (g x) := by cases r <;> rfl

theorem restyle_bind {st : Style} {r : Except LatexErrKind (List Node × Loc)}
    {g : List Node × Loc → Except LatexErrKind (β × Loc)} :
    (restyle st r >>= g) = r >>= fun x => g (x.1, { x.2 with style := st }) := by cases r <;> rfl

theorem arm_group {sp : Span} {pa : ParseAs} {prev nx : Class} {F : Except LatexErrKind (List Node × Loc)}
    (hpa : pa ≠ .continueSequence)
    (h : Does cfg k (fun n => (parser n).seqLoop (.endToken .groupClose) .opening [] none) ts l
      (⟨.groupEnd, false⟩ :: fol) (seqRes [] F)) :
    Does cfg k (fun n => (parser n).parseArm ⟨.groupBegin, sp⟩ pa prev nx) ts l fol
      (asParsed (F >>= fun r =>
        .ok ((.default, nodeVecToNode r.1 (pa = .arg)), { r.2 with style := l.style }))) := by
  unfold Rec.parseArm
  refine Does.get_bind fun s _ => ?_
  show Does cfg k (fun n => (parser n).parseGroup pa prev) _ _ _ _
  unfold Rec.parseGroup
  simp only [hpa, if_false]
  rw [asParsed_bind, ← restyle_bind (g := fun x => asParsed (.ok ((.default, nodeVecToNode x.1 (pa = .arg)), x.2)))]
  refine Does.bind (does_sequence (keep := false) rfl rfl h) fun ns l' _ => ?_
  exact Does.pure

/-! ### Arguments -/

/-- The next token, as an argument -/
theorem does_next {pa : ParseAs} {N : Except LatexErrKind ((Class × Node) × Loc)} (hw : t.tok.isWs = false)
    (hn : Named t.tok.unwrapMath = true)
    (h : ∀ sp, Does cfg k (fun n => (parser n).parseToken ⟨t.tok.unwrapMath, sp⟩ pa .default) ts l fol N) :
    Does cfg k (fun n => (parser n).parseNext pa) (t :: ts) l fol (N >>= fun r => .ok (r.1.2, r.2)) := by
  unfold Rec.parseNext
  refine Does.next_bind hw hn fun sp => ?_
  refine Does.bind (h sp) fun x l' _ => ?_
  exact Does.pure

theorem fractionStyle_eq (st : Style) (attr : Option FracAttr) : fractionStyle st attr = Rec.fracStyle st attr := by
  cases attr with
  | none => cases st <;> rfl
  | some a => cases a <;> rfl

theorem arm_frac {sp : Span} {attr : Option FracAttr} {isBinom : Bool} {pa : ParseAs} {prev nx : Class}
    {N : Except LatexErrKind (Node × Loc)} {D : Loc → Except LatexErrKind (Node × Loc)}
    (h1 : Does cfg k (fun n => (parser n).parseNext .arg) ts { l with style := fractionStyle l.style attr } ts' N)
    (h2 : ∀ l', Does cfg k (fun n => (parser n).parseNext .arg) ts' l' fol (D l')) :
    Does cfg k (fun n => (parser n).parseArm ⟨if isBinom then .binom attr else .frac attr, sp⟩ pa prev nx) ts l fol
      (asParsed (N >>= fun r1 => D r1.2 >>= fun r2 =>
        let lt := if isBinom then Length.zero else Length.none
        let node := Node.frac r1.1 r2.1 lt.value lt.unit attr
        .ok ((.default, if isBinom then fenced [node] (some openParen) (some closeParen) none else node),
          { r2.2 with style := l.style }))) := by
  rw [fractionStyle_eq] at h1
  unfold Rec.parseArm
  refine Does.get_bind fun s _ => ?_
  have h : Does cfg k (fun n => (parser n).parseFrac attr isBinom) ts l fol
      (asParsed (N >>= fun r1 => D r1.2 >>= fun r2 =>
        let lt := if isBinom then Length.zero else Length.none
        let node := Node.frac r1.1 r2.1 lt.value lt.unit attr
        .ok ((.default, if isBinom then fenced [node] (some openParen) (some closeParen) none else node),
          { r2.2 with style := l.style }))) := by
    unfold Rec.parseFrac
    refine Does.get_bind fun s0 hs0 => ?_
    refine Does.modify_bind (fun s => rfl) (l' := { l with style := Rec.fracStyle l.style attr })
      (fun s hs => by rw [ctx_style hs]; exact at_style hs) ?_
    rw [asParsed_bind]
    refine Does.bind h1 fun num l1 _ => ?_
    rw [asParsed_bind]
    refine Does.bind (h2 l1) fun den l2 _ => ?_
    refine Does.modify_bind (fun s => rfl) (l' := { l2 with style := l.style })
      (fun s hs => by rw [ctx_style hs0]; exact at_style hs) ?_
    cases isBinom <;> exact Does.pure
  cases isBinom <;> exact h

theorem isSquareOpen_false {x : Token} (h : x ≠ .squareBracketOpen) : x.isSquareOpen = false := by
  cases x <;> first | rfl | exact absurd rfl h

theorem arm_sqrt {sp : Span} {pa : ParseAs} {prev nx : Class} {N : Except LatexErrKind ((Class × Node) × Loc)}
    (hw : t.tok.isWs = false) (hn : Named t.tok.unwrapMath = true) (hb : t.tok.unwrapMath.isSquareOpen = false)
    (h : ∀ sp, Does cfg k (fun n => (parser n).parseToken ⟨t.tok.unwrapMath, sp⟩ .arg .default) ts l fol N) :
    Does cfg k (fun n => (parser n).parseArm ⟨.sqrt, sp⟩ pa prev nx) (t :: ts) l fol
      (asParsed (N >>= fun r => .ok ((.default, .sqrt r.1.2), r.2))) := by
  unfold Rec.parseArm
  refine Does.get_bind fun s _ => ?_
  show Does cfg k (fun n => (parser n).parseSqrt) _ _ _ _
  unfold Rec.parseSqrt
  refine Does.next_bind hw hn fun sp => ?_
  simp only [hb, Bool.false_eq_true, if_false]
  rw [asParsed_bind]
  refine Does.bind (h sp) fun x l' _ => ?_
  exact Does.pure

theorem arm_root {sp : Span} {pa : ParseAs} {prev nx : Class} {F : Except LatexErrKind (List Node × Loc)}
    {A : Loc → Except LatexErrKind (Node × Loc)}
    (h : Does cfg k (fun n => (parser n).seqLoop (.endToken .squareBracketClose) .opening [] none) ts l
      (⟨.squareBracketClose, false⟩ :: ts') (seqRes [] F))
    (h2 : ∀ l', Does cfg k (fun n => (parser n).parseNext .arg) ts' l' fol (A l')) :
    Does cfg k (fun n => (parser n).parseArm ⟨.sqrt, sp⟩ pa prev nx) (⟨.squareBracketOpen, false⟩ :: ts) l fol
      (asParsed (F >>= fun r => A { r.2 with style := l.style } >>= fun ra =>
        .ok ((.default, .root (nodeVecToNode r.1 true) ra.1), ra.2))) := by
  unfold Rec.parseArm
  refine Does.get_bind fun s _ => ?_
  show Does cfg k (fun n => (parser n).parseSqrt) _ _ _ _
  unfold Rec.parseSqrt
  refine Does.next_bind rfl rfl fun sp => ?_
  simp only [Token.isSquareOpen, Token.unwrapMath, if_true]
  rw [asParsed_bind, ← restyle_bind (g := fun x => asParsed (A x.2 >>= fun ra =>
        .ok ((.default, .root (nodeVecToNode x.1 true) ra.1), ra.2)))]
  refine Does.bind (does_sequence (keep := false) rfl rfl h) fun ns l' _ => ?_
  rw [asParsed_bind]
  refine Does.bind (h2 l') fun x l2 _ => ?_
  exact Does.pure

theorem arm_deco {sp : Span} {pa pa' : ParseAs} {prev nx : Class} {d : Deco}
    {A : Except LatexErrKind (Node × Loc)} (hpa : pa' = if d.reset then .arg else .argWithSpace)
    (h : Does cfg k (fun n => (parser n).parseNext pa') ts l fol A) :
    Does cfg k (fun n => (parser n).parseArm ⟨d.token, sp⟩ pa prev nx) ts l fol
      (asParsed (A >>= fun r => .ok ((.default, d.node r.1), r.2))) := by
  subst hpa
  unfold Rec.parseArm
  refine Does.get_bind fun s _ => ?_
  rw [asParsed_bind]
  cases d with
  | accent o isOver attrs =>
    refine Does.bind h fun x l' _ => ?_
    exact Does.pure
  | enclose n =>
    refine Does.bind h fun x l' _ => ?_
    exact Does.pure
  | phantom kind =>
    show Does cfg k (fun n => (parser n).parsePhantom kind) _ _ _ _
    unfold Rec.parsePhantom
    refine Does.bind h fun x l' _ => ?_
    cases kind <;> exact Does.pure

theorem startsLabel_eq (isOver : Bool) (x : Token) : Rec.braceLabelStart isOver x = startsLabel isOver x := by
  cases x <;> rfl

theorem arm_brace {sp : Span} {pa : ParseAs} {prev nx : Class} {x : OrdLike} {isOver : Bool}
    {A : Except LatexErrKind (Node × Loc)}
    (h : Does cfg k (fun n => (parser n).parseNext .argWithSpace) ts l (t :: fol) A) (hw : t.tok.isWs = false)
    (ht : startsLabel isOver t.tok = false) :
    Does cfg k (fun n => (parser n).parseArm ⟨.overUnderBrace x isOver, sp⟩ pa prev nx) ts l (t :: fol)
      (asParsed (A >>= fun r => .ok ((.default, braceNode x isOver r.1), r.2))) := by
  unfold Rec.parseArm
  refine Does.get_bind fun s _ => ?_
  show Does cfg k (fun n => (parser n).parseOverUnderBrace x isOver) _ _ _ _
  unfold Rec.parseOverUnderBrace
  rw [asParsed_bind]
  refine Does.bind h fun n l' _ => ?_
  refine Does.peek_bind hw fun sp' => ?_
  simp only [startsLabel_eq, ht, Bool.false_eq_true, if_false]
  exact Does.pure

theorem arm_braceLabel {sp : Span} {pa : ParseAs} {prev nx : Class} {x : OrdLike} {isOver : Bool}
    {A : Except LatexErrKind (Node × Loc)} {B : Loc → Except LatexErrKind (Node × Loc)}
    (h : Does cfg k (fun n => (parser n).parseNext .argWithSpace) ts l
      (⟨if isOver then .circumflex else .underscore, false⟩ :: ts') A)
    (h2 : ∀ l', Does cfg k (fun n => (parser n).parseNext .arg) ts' l' fol (B l')) :
    Does cfg k (fun n => (parser n).parseArm ⟨.overUnderBrace x isOver, sp⟩ pa prev nx) ts l fol
      (asParsed (A >>= fun r => B r.2 >>= fun rl => .ok ((.default,
        if isOver then .over rl.1 (braceNode x isOver r.1) else .under rl.1 (braceNode x isOver r.1)), rl.2))) := by
  unfold Rec.parseArm
  refine Does.get_bind fun s _ => ?_
  show Does cfg k (fun n => (parser n).parseOverUnderBrace x isOver) _ _ _ _
  unfold Rec.parseOverUnderBrace
  rw [asParsed_bind]
  refine Does.bind h fun n l' _ => ?_
  have hw : Token.isWs (if isOver then .circumflex else .underscore) = false := by cases isOver <;> rfl
  have hn : Named (Token.unwrapMath (if isOver then .circumflex else .underscore)) = true := by cases isOver <;> rfl
  have hb : Rec.braceLabelStart isOver (if isOver then .circumflex else .underscore) = true := by cases isOver <;> rfl
  refine Does.peek_bind hw fun sp' => ?_
  simp only [hb, if_true]
  refine Does.next_bind hw hn fun sp' => ?_
  rw [asParsed_bind]
  refine Does.bind (h2 l') fun n l' _ => ?_
  exact Does.pure

theorem arm_prescript {sp : Span} {pa : ParseAs} {prev nx : Class}
    {A : Except LatexErrKind (Node × Loc)} {B C : Loc → Except LatexErrKind (Node × Loc)}
    (h1 : Does cfg k (fun n => (parser n).parseNext .arg) ts l ts' A)
    (h2 : ∀ l', Does cfg k (fun n => (parser n).parseNext .arg) ts' l' ts'' (B l'))
    (h3 : ∀ l', Does cfg k (fun n => (parser n).parseNext .arg) ts'' l' fol (C l')) :
    Does cfg k (fun n => (parser n).parseArm ⟨.prescript, sp⟩ pa prev nx) ts l fol
      (asParsed (A >>= fun r1 => B r1.2 >>= fun r2 => C r2.2 >>= fun r3 =>
        .ok ((.default, .multiscripts r3.1 [(r2.1, r1.1)] []), r3.2))) := by
  unfold Rec.parseArm
  refine Does.get_bind fun s _ => ?_
  show Does cfg k (fun n => (parser n).parsePrescript) _ _ _ _
  unfold Rec.parsePrescript
  rw [asParsed_bind]
  refine Does.bind h1 fun n l' _ => ?_
  rw [asParsed_bind]
  refine Does.bind (h2 l') fun n l' _ => ?_
  rw [asParsed_bind]
  refine Does.bind (h3 l') fun n l' _ => ?_
  exact Does.pure

/-- The argument of `\mathrel` and so on -/
theorem arm_mathClass (hk : k.Plain) {sp : Span} {prev nx : Class} {kind : MathClassKind}
    {N : Except LatexErrKind ((Class × Node) × Loc)} (hw : t.tok.isWs = false)
    (hn : Named t.tok.unwrapMath = true) (hl : HasLead fol)
    (h : ∀ sp, Does cfg k (fun n => (parser n).parseToken ⟨t.tok.unwrapMath, sp⟩ .sequence prev) ts l fol N) :
    Does cfg k (fun n => (parser n).parseArm ⟨.mathClass kind, sp⟩ .sequence prev nx) (t :: ts) l fol
      (asParsed (N >>= fun r => .ok ((givenClass kind, mathClassNode r.1.2
        (classSpacing r.2.style prev (leadClass fol) kind).1 (classSpacing r.2.style prev (leadClass fol) kind).2),
        r.2))) := by
  unfold Rec.parseArm
  refine Does.get_bind fun s _ => ?_
  show Does cfg k (fun n => (parser n).parseMathClass kind .sequence prev) _ _ _ _
  unfold Rec.parseMathClass
  refine Does.next_bind hw hn fun sp => ?_
  rw [asParsed_bind]
  refine Does.bind (h sp) fun x l' _ => ?_
  refine Does.peekClass_bind hl hk ?_
  refine Does.get_bind fun s hs => ?_
  rw [ctx_style hs]
  cases kind with
  | op =>
    unfold mathopSpacing
    refine Does.after (m := fun _ => mathopSpacing .sequence prev true)
      (a := opSpacing l'.style prev (leadClass fol) true) ?_ Does.pure
    unfold mathopSpacing
    refine Does.peekClass_bind hl hk ?_
    refine Does.get_bind fun s hs => ?_
    rw [ctx_style hs]
    exact Does.pure
  | _ => exact Does.pure

/-- The argument of `\not` and so on -/
theorem arm_overlay {sp : Span} {prev nx : Class} {o : OverlayChar}
    {N : Except LatexErrKind ((Class × Node) × Loc)} (hw : t.tok.isWs = false)
    (hn : Named t.tok.unwrapMath = true)
    (h : ∀ sp, Does cfg k (fun n => (parser n).parseToken ⟨t.tok.unwrapMath, sp⟩ .sequence prev) ts l fol N) :
    Does cfg k (fun n => (parser n).parseArm ⟨.overlay o, sp⟩ .sequence prev nx) (t :: ts) l fol
      (asParsed (N >>= fun r => struck o r.1.2 >>= fun n => .ok ((r.1.1, n), r.2))) := by
  unfold Rec.parseArm
  refine Does.get_bind fun s _ => ?_
  show Does cfg k (fun n => (parser n).parseOverlay o .sequence prev) _ _ _ _
  unfold Rec.parseOverlay
  refine Does.next_bind hw hn fun sp => ?_
  rw [asParsed_bind]
  refine Does.bind (h sp) fun x l' _ => ?_
  dsimp only
  unfold struck
  cases overlayNode o x.2 with
  | none => exact Does.fail
  | some n => exact Does.pure

theorem does_someDelim {x : Token} {sp : Span} {loc : DelimiterModifier} :
    Does cfg k (fun _ => extractDelimiter ⟨x, sp⟩ loc) ts l ts (someDelim loc x >>= fun d => .ok (d, l)) := by
  unfold extractDelimiter someDelim
  dsimp only
  cases x.delimiter with
  | none => exact Does.fail
  | some d => exact Does.pure

/-! ### Fonts -/

/-- The context in the argument of a font command -/
def Ctx.inFont (k : Ctx) (tf : MathVariant) : Ctx := { k with transform := some tf }

theorem fontChar_eq (tf : MathVariant) (t : Token) : mergedChar tf t = fontChar tf t := by
  cases t <;> cases tf <;> rfl

theorem fontChar_solid {tf : MathVariant} {t : Token} {c : SuperChar} (h : fontChar tf t = some c) :
    t.isWs = false ∧ t.isEoi = false ∧ t.unwrapMath = t ∧ Named t = true := by
  cases t <;> first | (cases h; done) | exact ⟨rfl, rfl, rfl, rfl⟩

theorem fontWord_cons {tf : MathVariant} {t : Token} {ts : List Token} {cs : List SuperChar}
    (h : fontWord tf (t :: ts) = some cs) : ∃ c cs', fontChar tf t = some c ∧ fontWord tf ts = some cs' ∧ cs = c :: cs' := by
  unfold fontWord at h
  cases h1 : fontChar tf t with
  | none => rw [h1] at h; cases h
  | some c =>
    cases h2 : fontWord tf ts with
    | none => rw [h1, h2] at h; cases h
    | some cs' => rw [h1, h2] at h; cases h; exact ⟨c, cs', rfl, rfl, rfl⟩

theorem fontWord_solid {tf : MathVariant} {text : List Token} {cs : List SuperChar} (h : fontWord tf text = some cs) :
    ∀ t ∈ text.map (fun t => (⟨t, false⟩ : Tk)), solid t.tok = true := by
  induction text generalizing cs with
  | nil => intro t ht; cases ht
  | cons y text ih =>
    obtain ⟨c, cs', h1, h2, rfl⟩ := fontWord_cons h
    intro t ht
    rcases List.mem_cons.1 ht with rfl | ht
    · obtain ⟨a, b, d, e⟩ := fontChar_solid h1
      exact solid_iff.2 ⟨a, b, by rw [d]; exact e⟩
    · exact ih h2 t ht

theorem does_merge {tf : MathVariant} {text : List Token} {cs acc : List SuperChar} {F : Nat}
    (h : fontWord tf text = some cs) (hF : text.length < F) (hw : t.tok.isWs = false) (hn : fontChar tf t.tok = none) :
    Does cfg k (fun _ => mergeLoop tf F acc) (text.map (fun t => ⟨t, false⟩) ++ t :: ts) l (t :: ts)
      (.ok (acc ++ cs, l)) := by
  induction text generalizing F acc cs with
  | nil =>
    obtain ⟨F, rfl⟩ : ∃ j, F = j + 1 := ⟨F - 1, by have : 0 < F := hF; omega⟩
    cases h
    refine Does.peek_bind hw fun sp => ?_
    simp only [fontChar_eq, hn, List.append_nil]
    exact Does.pure
  | cons y text ih =>
    have hF : text.length + 1 < F := hF
    obtain ⟨F, rfl⟩ : ∃ j, F = j + 1 := ⟨F - 1, by omega⟩
    obtain ⟨c, cs', h1, h2, rfl⟩ := fontWord_cons h
    obtain ⟨a, b, d, e⟩ := fontChar_solid h1
    show Does cfg k _ (⟨y, false⟩ :: (text.map (fun t => ⟨t, false⟩) ++ t :: ts)) _ _ _
    refine Does.peek_bind a fun sp => ?_
    simp only [fontChar_eq, h1]
    refine Does.next_bind a (by rw [d]; exact e) fun sp => ?_
    have e : acc ++ c :: cs' = (acc ++ [c]) ++ cs' := by simp
    rw [e]
    exact ih h2 (by omega)

theorem does_wordLoop {tf : MathVariant} {text : List Token} {cs : List SuperChar} {prev : Class}
    (h : fontWord tf text = some cs) (hne : text ≠ []) :
    Does cfg (k.inFont tf) (fun n => (parser n).seqLoop (.endToken .groupClose) prev [] none)
      (text.map (fun t => ⟨t, false⟩) ++ ⟨.groupEnd, false⟩ :: fol) l (⟨.groupEnd, false⟩ :: fol)
      (seqRes [] (.ok ([wordNode tf cs], l))) := by
  refine Does.step (G := fun n => (parser n).seqLoopStep (.endToken .groupClose) prev [] none) (fun n => rfl) ?_
  unfold Rec.seqLoopStep
  cases text with
  | nil => exact absurd rfl hne
  | cons y text =>
    obtain ⟨c, cs', h1, h2, rfl⟩ := fontWord_cons h
    obtain ⟨a, b, d, e⟩ := fontChar_solid h1
    have hm : SequenceEnd.isMatch (.endToken .groupClose) y = false := by
      cases y <;> first | (cases h1; done) | rfl
    show Does cfg _ _ (⟨y, false⟩ :: (text.map (fun t => ⟨t, false⟩) ++ ⟨.groupEnd, false⟩ :: fol)) _ _ _
    refine Does.peek_bind a fun sp => ?_
    simp only [hm, Bool.false_eq_true, if_false]
    show Does cfg _ _ ((y :: text).map (fun t => ⟨t, false⟩) ++ ⟨.groupEnd, false⟩ :: fol) _ _ _
    refine Does.after (m := fun _ => mergeAndTransformLetters) (a := some (.default, wordNode tf (c :: cs'))) (l' := l)
      (ts' := ⟨.groupEnd, false⟩ :: fol) ?_ ?_
    · unfold mergeAndTransformLetters
      refine Does.get_bind fun s hs => ?_
      have htf : s.transform = some tf := ctx_transform hs
      rw [htf]
      refine Does.loopFuel_bind (fontWord_solid h) fun F hF => ?_
      refine Does.after (does_merge (acc := []) h (by rw [List.length_map] at hF; omega) rfl rfl) ?_
      unfold wordNode
      cases cs' with
      | nil => cases tf <;> exact Does.pure
      | cons c' cs' => exact Does.pure
    · dsimp only
      unfold Rec.seqTarget
      refine Does.after (m := fun n => (parser n).getBounds none {}) (a := {}) (l' := l)
        (ts' := ⟨.groupEnd, false⟩ :: fol) ?_ ?_
      · refine Does.step (G := fun n => (parser n).getBoundsStep none {}) (fun n => rfl) ?_
        unfold Rec.getBoundsStep
        refine Does.peek_bind rfl fun sp => ?_
        exact Does.pure
      refine Does.after (m := fun n => BoundsWithLimits.ensureNoExplicitLimits {}) (a := {}) (l' := l) Does.pure ?_
      have hat : Rec.attachScripts (wordNode tf (c :: cs')) {} = wordNode tf (c :: cs') := by
        unfold wordNode Rec.attachScripts
        cases cs' <;> rfl
      rw [hat]
      refine Does.step (G := fun n => (parser n).seqLoopStep (.endToken .groupClose) .default [wordNode tf (c :: cs')] none)
        (fun n => rfl) ?_
      unfold Rec.seqLoopStep
      refine Does.peek_bind rfl fun sp => ?_
      exact Does.pure

theorem arm_transform {tf : MathVariant} {sp : Span} {prev nx : Class} {pa : ParseAs} {n0 : Node}
    (h : Does cfg (k.inFont tf) (fun n => (parser n).parseNext .arg) ts l fol (.ok (n0, l))) :
    Does cfg k (fun n => (parser n).parseArm ⟨.transform tf, sp⟩ pa prev nx) ts l fol
      (asParsed (.ok ((.closing, n0), l))) := by
  unfold Rec.parseArm
  refine Does.get_bind fun s _ => ?_
  show Does cfg k (fun n => (parser n).parseTransform tf) _ _ _ _
  unfold Rec.parseTransform
  refine Does.get_bind fun s0 hs0 => ?_
  refine Gets.modify_bind (c' := (k.inFont tf).at l) (fun s => rfl) (fun s hs => ?_) ?_
  · show { s.ctx with transform := some tf } = _
    rw [hs]; rfl
  refine Gets.bind (m := fun n => (parser n).parseNext .arg) h ?_
  refine Gets.modify_bind (c' := k.at l) (fun s => rfl) (fun s hs => ?_) ?_
  · show { s.ctx with transform := s0.transform } = _
    rw [hs, ctx_transform hs0]; rfl
  exact Does.pure (k := k) (l := l)

theorem arm_leaf (hk : k.Plain) {x : Leaf} {y : Token} {tail : List Tk} {sp : Span} {prev nx : Class}
    (hx : x.tokens = ⟨y, false⟩ :: tail) (hok : x.ok = true) (hl : HasLead ts) :
    Does cfg k (fun n => (parser n).parseArm ⟨y, sp⟩ .sequence prev nx) (tail ++ ts) l ts
      (asParsed (x.denote l.style prev (leadClass ts) >>= fun r => .ok (r, l))) := by
  cases x with
  | big size side d =>
    cases hx
    unfold Leaf.ok at hok
    simp only [Bool.and_eq_true, Bool.not_eq_true'] at hok
    unfold Rec.parseArm
    refine Does.get_bind fun s _ => ?_
    show Does cfg k (fun n => parseBig size side .sequence prev) (⟨d, false⟩ :: ts) _ _ _
    unfold parseBig
    refine Does.next_bind hok.2 hok.1 fun sp' => ?_
    unfold Leaf.denote
    rw [bind_assoc, asParsed_bind]
    refine Does.seq does_someDelim (fun e he => ?_) (fun p l1 he => ?_)
    · cases hd : someDelim .big d.unwrapMath with
      | error e' => rw [hd] at he; cases he; rfl
      | ok x => rw [hd] at he; cases he
    · cases hd : someDelim .big d.unwrapMath with
      | error e' => rw [hd] at he; cases he
      | ok x =>
        rw [hd] at he; cases he
        show Does _ _ _ _ _ _ (asParsed (.ok (bigNode size side l.style prev (leadClass ts) p, l)))
        unfold bigNode
        cases side with
        | none => exact Does.pure
        | some side =>
          cases side with
          | middle =>
            refine Does.peekClass_bind hl hk ?_
            refine Does.get_bind fun s hs => ?_
            rw [ctx_style hs]
            exact Does.pure
          | left =>
            dsimp only
            by_cases hi : p.spacing = .infixRelation
            · simp only [if_pos hi, if_true]; exact Does.pure
            · simp only [if_neg hi, if_true]; exact Does.pure
          | right =>
            dsimp only
            by_cases hi : p.spacing = .infixRelation
            · simp only [if_pos hi, reduceCtorEq, if_false]; exact Does.pure
            · simp only [if_neg hi, reduceCtorEq, if_false]; exact Does.pure
  | middle d =>
    cases hx
    unfold Leaf.ok at hok
    simp only [Bool.and_eq_true, Bool.not_eq_true'] at hok
    unfold Rec.parseArm
    refine Does.get_bind fun s _ => ?_
    show Does cfg k (fun n => parseMiddle) (⟨d, false⟩ :: ts) _ _ _
    unfold parseMiddle
    refine Does.next_bind hok.2 hok.1 fun sp' => ?_
    unfold Leaf.denote
    rw [bind_assoc, asParsed_bind]
    refine Does.seq does_someDelim (fun e he => ?_) (fun p l1 he => ?_)
    · cases hd : someDelim .middle d.unwrapMath with
      | error e' => rw [hd] at he; cases he; rfl
      | ok x => rw [hd] at he; cases he
    · cases hd : someDelim .middle d.unwrapMath with
      | error e' => rw [hd] at he; cases he
      | ok x => rw [hd] at he; cases he; exact Does.pure
  | eqRef text =>
    unfold Leaf.tokens textTokens at hx
    cases hx
    unfold Leaf.ok at hok
    obtain ⟨str, hstr⟩ := Option.isSome_iff_exists.1 hok
    unfold Rec.parseArm
    refine Does.get_bind fun s _ => ?_
    dsimp only [Leaf.denote]
    rw [hstr]
    have e1 : (⟨.groupBegin, false⟩ :: tight text ++ [⟨.groupEnd, true⟩]) ++ ts =
        (⟨.groupBegin, false⟩ : Tk) :: tight text ++ ⟨.groupEnd, true⟩ :: ts := by simp
    rw [e1]
    refine Does.stringLiteral_bind hstr fun sp' => ?_
    exact Does.pure
  | hspace kind text =>
    unfold Leaf.tokens textTokens at hx
    cases hx
    unfold Leaf.ok at hok
    obtain ⟨str, hstr⟩ := Option.isSome_iff_exists.1 hok
    unfold Rec.parseArm
    refine Does.get_bind fun s _ => ?_
    dsimp only [Leaf.denote]
    rw [hstr]
    dsimp only [Option.getD_some]
    have e1 : (⟨.groupBegin, false⟩ :: tight text ++ [⟨.groupEnd, true⟩]) ++ ts =
        (⟨.groupBegin, false⟩ : Tk) :: tight text ++ ⟨.groupEnd, true⟩ :: ts := by simp
    rw [e1]
    show Does cfg k (fun n => parseCustomSpace kind >>= fun a => Pure.pure (Parsed.node .default a)) _ _ _ _
    unfold parseCustomSpace
    cases hp : parseLengthSpecification (trimAscii str) with
    | none =>
      refine Does.bind (r := .error (.expectedLength str)) (ts' := ts) (g := fun _ => .error (.expectedLength str)) ?_
        (fun _ _ h => by cases h)
      refine Does.stringLiteral_bind hstr fun sp' => ?_
      simp only [hp]
      exact Does.fail
    | some q =>
      obtain ⟨v, u, unit, im⟩ := q
      by_cases him : im = (kind == .mathUnits)
      · simp only [him, if_true]
        refine Does.after (a := .space (specLength v u)) (l' := l) (ts' := ts) ?_ Does.pure
        refine Does.stringLiteral_bind hstr fun sp' => ?_
        simp only [hp, him, beq_self_eq_true, if_true]
        exact Does.pure
      · simp only [him, if_false]
        refine Does.bind (r := .error (.illegalUnit unit (kind == .mathUnits))) (ts' := ts)
          (g := fun _ => .error (.illegalUnit unit (kind == .mathUnits))) ?_ (fun _ _ h => by cases h)
        refine Does.stringLiteral_bind hstr fun sp' => ?_
        simp only [hp, beq_iff_eq, him, if_false]
        exact Does.fail
  | textBox style text =>
    unfold Leaf.tokens at hx
    cases hx
    unfold Leaf.ok at hok
    obtain ⟨str, hstr⟩ := Option.isSome_iff_exists.1 hok
    unfold Rec.parseArm
    refine Does.get_bind fun s _ => ?_
    dsimp only [Leaf.denote]
    rw [hstr]
    have e1 : (⟨.groupBegin, true⟩ :: tight text).append [⟨.groupEnd, true⟩] ++ ts =
        (⟨.groupBegin, true⟩ : Tk) :: tight text ++ ⟨.groupEnd, true⟩ :: ts := by simp
    rw [e1]
    refine Does.after (does_text hstr) ?_
    cases str <;> exact Does.pure
  | font tf text =>
    unfold Leaf.tokens at hx
    cases hx
    unfold Leaf.ok at hok
    simp only [Bool.and_eq_true, Bool.not_eq_true'] at hok
    obtain ⟨cs, hcs⟩ := Option.isSome_iff_exists.1 hok.2
    dsimp only [Leaf.denote]
    rw [hcs]
    have e1 : (⟨.groupBegin, false⟩ :: text.map (fun t => (⟨t, false⟩ : Tk))).append [⟨.groupEnd, false⟩] ++ ts =
        (⟨.groupBegin, false⟩ : Tk) :: (text.map (fun t => ⟨t, false⟩) ++ ⟨.groupEnd, false⟩ :: ts) := by simp
    rw [e1]
    refine arm_transform (does_next (N := .ok ((.default, wordNode tf cs), l)) rfl rfl fun sp' => ?_)
    refine Does.token_arg (k := k.inFont tf) (pa := .arg) rfl ?_
    have hn : nodeVecToNode [wordNode tf cs] true = wordNode tf cs := by
      unfold wordNode
      split <;> rfl
    have ha : asParsed (.ok ((.default, wordNode tf cs), l)) = asParsed ((.ok ([wordNode tf cs], l) : Except _ _) >>= fun r =>
        .ok ((.default, nodeVecToNode r.1 true), { r.2 with style := l.style })) := by
      show asParsed (.ok ((.default, wordNode tf cs), l)) = asParsed (.ok ((.default, nodeVecToNode [wordNode tf cs] true), l))
      rw [hn]
    rw [ha]
    exact arm_group (pa := .arg) (F := .ok ([wordNode tf cs], l)) (by intro h; cases h)
      (does_wordLoop hcs (by intro h; rw [h] at hok; cases hok.1))
  | fontTok tf t =>
    cases hx
    unfold Leaf.ok at hok
    obtain ⟨c, hc⟩ := Option.isSome_iff_exists.1 hok
    obtain ⟨a, b, d, e⟩ := fontChar_solid hc
    dsimp only [Leaf.denote]
    rw [hc]
    refine arm_transform (does_next (N := .ok ((.default, wordNode tf [c]), l)) a (by rw [d]; exact e) fun sp' => ?_)
    refine Does.token_arg (k := k.inFont tf) (pa := .arg) rfl ?_
    rw [show (⟨t, false⟩ : Tk).tok.unwrapMath = t from d]
    unfold Rec.parseArm
    refine Does.get_bind fun s hs => ?_
    have htf : s.transform = some tf := ctx_transform hs
    cases t <;> first | (cases hc; done) | skip
    case letter =>
      cases hc
      rw [htf]
      cases tf <;> exact Does.pure
    case uprightLetter =>
      cases hc
      rw [htf]
      cases tf <;> exact Does.pure
    case digit ch =>
      cases tf with
      | normal => cases hc
      | transform tf =>
        cases hc
        refine Does.after (m := fun _ => parseDigit ch .arg) (l' := l) (ts' := ts)
          (a := wordNode (.transform tf) [transform tf (SuperChar.fromChar ch) false]) ?_ Does.pure
        unfold parseDigit
        refine Does.get_bind fun s hs => ?_
        have htf : s.transform = some (.transform tf) := ctx_transform hs
        rw [htf]
        exact Does.pure

/-! ### Fences -/

theorem does_fenceDelim {x : Tk} {loc : DelimiterModifier} (hw : x.tok.isWs = false)
    (hn : Named x.tok.unwrapMath = true) :
    Does cfg k (fun _ => parseFenceDelimiter loc) (x :: ts) l ts
      (fenceDelim loc x.tok.unwrapMath >>= fun d => .ok (d, l)) := by
  unfold parseFenceDelimiter
  refine Does.next_bind hw hn fun sp => ?_
  unfold fenceDelim
  cases hf : x.tok.unwrapMath.isFullStop with
  | true => simp only [if_true]; exact Does.pure
  | false =>
    simp only [Bool.false_eq_true, if_false]
    unfold extractDelimiter
    dsimp only
    cases hd : x.tok.unwrapMath.delimiter with
    | none => exact Does.fail_bind
    | some d => exact Does.after (m := fun _ => Pure.pure d) Does.pure Does.pure

theorem arm_fence {sp : Span} {pa : ParseAs} {prev nx : Class} {lt rt : Tk}
    {F : Except LatexErrKind (List Node × Loc)}
    (hw : lt.tok.isWs = false) (hn : Named lt.tok.unwrapMath = true)
    (hw' : rt.tok.isWs = false) (hn' : Named rt.tok.unwrapMath = true)
    (h : Does cfg k (fun n => (parser n).seqLoop (.endToken .right) .opening [] none) ts l
      (⟨.right, false⟩ :: rt :: fol) (seqRes [] F)) :
    Does cfg k (fun n => (parser n).parseArm ⟨.left, sp⟩ pa prev nx) (lt :: ts) l fol
      (asParsed (fenceDelim .left lt.tok.unwrapMath >>= fun opening => F >>= fun r =>
        fenceDelim .right rt.tok.unwrapMath >>= fun closing =>
        .ok ((.default, fenced r.1 opening closing none), { r.2 with style := l.style }))) := by
  unfold Rec.parseArm
  refine Does.get_bind fun s _ => ?_
  show Does cfg k (fun n => (parser n).parseLeft) _ _ _ _
  unfold Rec.parseLeft
  refine Does.seq (does_fenceDelim hw hn) (fun e he => ?_) (fun d l1 he => ?_)
  · cases hd : fenceDelim .left lt.tok.unwrapMath with
    | error e' => rw [hd] at he; cases he; rfl
    | ok x => rw [hd] at he; cases he
  · cases hd : fenceDelim .left lt.tok.unwrapMath with
    | error e' => rw [hd] at he; cases he
    | ok x =>
      rw [hd] at he; cases he
      show Does cfg k _ _ _ _ (asParsed (F >>= fun r =>
        fenceDelim .right rt.tok.unwrapMath >>= fun closing =>
        .ok ((.default, fenced r.1 d closing none), { r.2 with style := l.style })))
      rw [asParsed_bind, ← restyle_bind (g := fun x => asParsed (
        fenceDelim .right rt.tok.unwrapMath >>= fun closing =>
        .ok ((.default, fenced x.1 d closing none), x.2)))]
      refine Does.bind (does_sequence (keep := false) rfl rfl h) fun ns l' _ => ?_
      refine Does.seq (does_fenceDelim hw' hn') (fun e he => ?_) (fun d l1 he => ?_)
      · cases hd : fenceDelim .right rt.tok.unwrapMath with
        | error e' => rw [hd] at he; cases he; rfl
        | ok x => rw [hd] at he; cases he
      · cases hd : fenceDelim .right rt.tok.unwrapMath with
        | error e' => rw [hd] at he; cases he
        | ok x => rw [hd] at he; cases he; exact Does.pure

/-! ### Rows -/

theorem Is.counted {s : PState} {n : Nat} {lm : StrMap Str} (h : Is cfg s ts (k.at l)) :
    Is cfg { s with q := { s.q with equationCount := n, labelMap := lm } } ts
      (k.at { l with count := n, labels := lm }) := by
  refine ⟨⟨h.inv.next, h.inv.more⟩, h.clean, h.comes, ?_⟩
  have h' : PState.ctx { s with q := { s.q with equationCount := n, labelMap := lm } } =
      { s.ctx with count := n, labels := lm } := rfl
  rw [h', h.ctx]; rfl

theorem does_numberRow {n : NumberedEnvState} {isLast : Bool} {sp : Span} :
    Does cfg k (fun _ => numberRow n isLast sp) ts l ts
      (endRow n isLast l >>= fun r => .ok ((r.1, r.2.1), r.2.2)) := by
  unfold endRow
  cases hx : n.nextEquationTag l.count isLast with
  | mk tag x =>
    obtain ⟨n', count⟩ := x
    cases tag with
    | none =>
      intro s hs
      refine ⟨0, sp.err .hardLimitExceeded, s, fun _ _ => ?_, ?_⟩
      · simp only [numberRow, bind, St.bind, St.get, ctx_count hs.ctx, hx]
        rfl
      · rfl
    | some tag =>
      intro s hs
      refine ⟨0, { s with q := { s.q with equationCount := count, labelMap := (match (generalizing := false) tag, n'.label with
          | some tag, some label => s.q.labelMap.insert label tag.text
          | _, _ => s.q.labelMap) } }, fun _ _ => ?_, ?_⟩
      · simp only [numberRow, bind, St.bind, St.get, ctx_count hs.ctx, hx]
        rfl
      · rw [ctx_labels hs.ctx]
        exact hs.counted

theorem does_hline {allowed : Bool} (hw : t.tok.isWs = false) (hh : isHline t.tok = false) :
    Does cfg k (fun _ => parseHline allowed) (t :: ts) l (t :: ts) (.ok (none, l)) := by
  unfold parseHline
  cases allowed with
  | false => exact Does.pure
  | true =>
    refine Does.peek_bind hw fun sp => ?_
    dsimp only
    generalize t :: ts = ts0
    generalize t.tok = x at hh
    cases x <;> first | (cases hh; done) | exact Does.pure

/-- A line, where it is allowed -/
theorem does_line {line : Option LineType} (hs : Starts ts) :
    Does cfg k (fun _ => parseHline true) (lineTokens line ++ ts) l ts (.ok (line, l)) := by
  cases line with
  | none =>
    obtain ⟨t, rest, rfl, hc⟩ := hs
    obtain ⟨hw, -, -, hh⟩ := clean_iff.1 hc
    exact does_hline hw hh
  | some x =>
    unfold parseHline
    refine Does.peek_bind rfl fun sp => ?_
    refine Does.next_bind rfl rfl fun sp => ?_
    exact Does.pure

theorem arm_newLine {sp : Span} {pa : ParseAs} {prev nx : Class} {line : Option LineType}
    (h1 : l.env.meaningfulNewlines = false → ts = ts') (h : l.env.meaningfulNewlines = true →
      Does cfg k (fun _ => parseHline l.env.allowHlines) ts l ts' (.ok (line, l))) :
    Does cfg k (fun n => (parser n).parseArm ⟨.newLine, sp⟩ pa prev nx) ts l ts' (asParsed (lineBreak line l)) := by
  unfold Rec.parseArm
  refine Does.get_bind fun s _ => ?_
  show Does cfg k (fun n => parseNewLine sp) _ _ _ _
  unfold parseNewLine
  refine Does.get_bind fun s hs => ?_
  rw [ctx_env hs]
  unfold lineBreak
  cases hm : l.env.meaningfulNewlines with
  | false =>
    rw [h1 hm]
    exact Does.pure
  | true =>
  simp only [Bool.not_true, Bool.false_eq_true, if_false]
  refine Does.after (h hm) ?_
  cases l.env.numbered with
  | none => exact Does.pure
  | some n =>
    dsimp only
    split
    · exact Does.fail
    · rw [asParsed_bind]
      refine Does.seq does_numberRow (fun e he => ?_) (fun x l1 he => ?_)
      · cases hr : endRow { n with numRows := n.numRows.map (· + 1) } false l with
        | error e' => rw [hr] at he; cases he; rfl
        | ok x => rw [hr] at he; cases he
      · cases hr : endRow { n with numRows := n.numRows.map (· + 1) } false l with
        | error e' => rw [hr] at he; cases he
        | ok y =>
          rw [hr] at he
          cases he
          have he : y.2.2.env = l.env := by
            unfold endRow at hr
            split at hr
            · cases hr
            · cases hr; rfl
          refine Does.modify_bind (fun s => rfl) (l' := { y.2.2 with env := { l.env with numbered := some y.2.1 } })
            (fun s hs => ?_) Does.pure
          rw [ctx_env hs, he]
          exact at_env hs

/-- The column specification -/
theorem does_spec {e : Env} {o : EnvArgs} (ho : o.ok e = true) :
    Does cfg k (fun _ => parseArraySpec e) ((match o.spec with | none => [] | some text => textTokens text) ++ ts) l ts
      (o.columns e >>= fun s => .ok (s.map fun s => { s with borderTop := none }, l)) := by
  unfold EnvArgs.ok at ho
  simp only [Bool.and_eq_true] at ho
  replace ho := ho.1
  unfold parseArraySpec EnvArgs.columns
  have hiff : noSpec e = true ↔ ¬(e = .array ∨ e = .dArray ∨ e = .subarray) := by
    unfold noSpec; simp [and_assoc]
  cases hsp : o.spec with
  | none =>
    rw [hsp] at ho
    rw [if_neg (hiff.1 ho)]
    exact Does.pure
  | some text =>
    rw [hsp] at ho
    simp only [Bool.and_eq_true, Bool.not_eq_true'] at ho
    obtain ⟨str, hstr⟩ := Option.isSome_iff_exists.1 ho.2
    have hpos : e = .array ∨ e = .dArray ∨ e = .subarray := by
      by_cases h : e = .array ∨ e = .dArray ∨ e = .subarray
      · exact h
      · rw [hiff.2 h] at ho; cases ho.1
    rw [if_pos hpos]
    dsimp only [textTokens]
    rw [hstr]
    dsimp only [Option.getD_some]
    have e1 : (⟨.groupBegin, false⟩ :: tight text ++ [⟨.groupEnd, true⟩]) ++ ts =
        (⟨.groupBegin, false⟩ : Tk) :: tight text ++ ⟨.groupEnd, true⟩ :: ts := by simp
    rw [e1]
    refine Does.stringLiteral_bind hstr fun sp' => ?_
    dsimp only
    cases parseColumnSpecification str with
    | none => exact Does.fail
    | some s => exact Does.pure

theorem arm_env {sp : Span} {prev nx : Class} {e e' : Env} {F : Except LatexErrKind (List Node × Loc)}
    {o : EnvArgs} (ho : o.ok e = true) (hs : Starts ts)
    (h : Does cfg k (fun n => (parser n).seqLoop (.endToken .endEnv) .opening [] none) ts
      { l with style := envStyle e, env := envState e } (⟨.endEnv e', false⟩ :: fol) (seqRes [] F)) :
    Does cfg k (fun n => (parser n).parseArm ⟨.beginEnv e, sp⟩ .sequence prev nx) (o.tokens ++ ts) l fol
      (asParsed (o.columns e >>= fun spec => F >>= fun r => endEnv e e' spec o.line r.1 l r.2)) := by
  unfold Rec.parseArm
  refine Does.get_bind fun s _ => ?_
  show Does cfg k (fun n => (parser n).parseBegin e sp .sequence) _ _ _ _
  unfold Rec.parseBegin
  unfold EnvArgs.tokens
  rw [List.append_assoc]
  refine Does.seq (does_spec ho) (fun e1 he => ?_) (fun spec0 l1 he => ?_)
  · cases hc : o.columns e with
    | error e2 => rw [hc] at he; cases he; rfl
    | ok s => rw [hc] at he; cases he
  cases hcol : o.columns e with
  | error e2 => rw [hcol] at he; cases he
  | ok spec =>
  rw [hcol] at he
  cases he
  show Does cfg k _ _ _ _ (asParsed (F >>= fun r => endEnv e e' spec o.line r.1 l r.2))
  have hline : Does cfg k (fun _ => parseHline e.allowsHlines) (lineTokens o.line ++ ts) l ts (.ok (o.line, l)) := by
    unfold EnvArgs.ok at ho
    simp only [Bool.and_eq_true] at ho
    rw [env_lines]
    cases hal : envLines e with
    | true => exact does_line hs
    | false =>
      have : o.line = none := by
        have h := ho.2
        rw [hal] at h
        cases hx : o.line with
        | none => rfl
        | some x => rw [hx] at h; cases h
      rw [this]
      obtain ⟨t, rest, rfl, hc⟩ := hs
      obtain ⟨hw, -, -, hh⟩ := clean_iff.1 hc
      exact does_hline hw hh
  refine Does.after hline ?_
  have hspec : (spec.map fun s => { s with borderTop := none }).map (fun s => { s with borderTop := o.line }) = spec := by
    unfold EnvArgs.columns at hcol
    split at hcol
    · cases hcol; rfl
    · split at hcol
      · cases hcol; rfl
      · cases hcol
  rw [hspec]
  refine Does.get_bind fun s0 hs0 => ?_
  rw [env_style, env_state]
  refine Does.modify_bind (fun s => rfl) (l' := { l with style := envStyle e, env := envState e })
    (fun s hs => at_style_env hs) ?_
  rw [asParsed_bind]
  have hseq := does_sequence (keep := true) rfl rfl h
  refine Does.seq (m := fun n => (parser n).parseSequenceIfInSequence .sequence sp (.endToken .endEnv) .opening true)
    hseq (fun e he => ?_) (fun ns l1 he => ?_)
  · cases F with
    | ok p => cases he
    | error e' => cases he; rfl
  cases F with
  | error e' => cases he
  | ok q =>
  obtain ⟨ns', l2⟩ := q
  cases he
  refine Does.get_bind fun s1 hs1 => ?_
  rw [ctx_env hs1]
  refine Does.modify_bind (fun s => rfl) (l' := { l2 with style := l.style, env := l.env })
    (fun s hs => by
      rw [ctx_style hs0, ctx_env hs0]
      exact at_style_env (l := { l2 with style := envStyle e }) hs) ?_
  unfold Rec.finishEnv
  refine Does.next_bind rfl rfl fun sp' => ?_
  show Does cfg k (fun n => if e' ≠ e then _ else _) _ _ _ (asParsed (endEnv e e' spec o.line ns l l2))
  unfold endEnv
  by_cases hee : e' = e
  · simp only [hee, ne_eq, not_true, if_false]
    unfold Rec.numberLastRow
    have hsome : ∀ info rows, ∃ node, e.constructNode ns spec info rows o.line = some node := by
      intro info rows
      have hc : noSpec e = true ∨ ∃ s, spec = some s := by
        unfold EnvArgs.ok at ho
        unfold EnvArgs.columns at hcol
        cases hsp : o.spec with
        | none =>
          rw [hsp] at ho
          simp only [Bool.and_eq_true] at ho
          exact Or.inl ho.1
        | some text =>
          rw [hsp] at hcol
          dsimp only at hcol
          split at hcol
          · cases hcol; exact Or.inr ⟨_, rfl⟩
          · cases hcol
      rcases hc with hc | ⟨s, rfl⟩
      · cases e <;> first | (cases hc; done) | exact ⟨_, rfl⟩
      · cases e <;> exact ⟨_, rfl⟩
    cases l2.env.numbered with
    | none =>
      dsimp only
      refine Does.after (m := fun _ => Pure.pure (none, none)) Does.pure ?_
      obtain ⟨node, hnode⟩ := hsome none none
      simp only [hnode]
      exact Does.pure
    | some n =>
      dsimp only
      rw [asParsed_bind]
      refine Does.seq (ts' := fol) (m := fun _ => numberRow n true sp >>= fun x => Pure.pure (x.1, x.2.numRows))
        (r := endRow n true { l2 with style := l.style, env := l.env } >>= fun r => .ok ((r.1, r.2.1.numRows), r.2.2))
        ?_ (fun e he => ?_) (fun x l3 he => ?_)
      · refine Does.seq does_numberRow (fun e he => ?_) (fun x l1 he => ?_)
        · cases hr : endRow n true { l2 with style := l.style, env := l.env } with
          | error e' => rw [hr] at he; cases he; rfl
          | ok x => rw [hr] at he; cases he
        · cases hr : endRow n true { l2 with style := l.style, env := l.env } with
          | error e' => rw [hr] at he; cases he
          | ok x => rw [hr] at he; cases he; exact Does.pure
      · cases hr : endRow n true { l2 with style := l.style, env := l.env } with
        | error e' => rw [hr] at he; cases he; rfl
        | ok x => rw [hr] at he; cases he
      · cases hr : endRow n true { l2 with style := l.style, env := l.env } with
        | error e' => rw [hr] at he; cases he
        | ok y =>
          rw [hr] at he; cases he
          obtain ⟨node, hnode⟩ := hsome y.1 y.2.1.numRows
          show Does cfg k _ _ _ _ (asParsed (match e.constructNode ns spec y.1 y.2.1.numRows o.line with
            | some node => _ | none => _))
          simp only [hnode]
          exact Does.pure
  · simp only [ne_eq, hee, not_false_iff, if_true]
    exact Does.fail

end Verif

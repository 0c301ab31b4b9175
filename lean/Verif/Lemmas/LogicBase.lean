import Verif.Lemmas.LogicQueue
import Verif.Lemmas.Transform
import Verif.Model.ParserBase
/-! The logic for those parts of the parser which are not recursive. -/
namespace Verif
open Model Spec Lexer' TokenQueue Logic

variable [L : Limits]

/-- What is left to read -/
abbrev MU (s : PState) : Nat := mu weight 4 s.q

/-- What does not change in an environment -/
structure EnvSig where
  allowColumns : Bool
  meaningfulNewlines : Bool
  allowHlines : Bool
  numbered : Option NumberingMode

def envSig (e : EnvState) : EnvSig :=
  ⟨e.allowColumns, e.meaningfulNewlines, e.allowHlines, e.numbered.map (·.mode)⟩

/-- The parts of the parser's state which commands and groups put back -/
structure Mode where
  style : Style
  transform : Option MathVariant
  hack : Bool
  env : EnvSig

def mode (s : PState) : Mode := ⟨s.style, s.transform, s.rightBoundaryHack, envSig s.env⟩

/-- The invariant of the parser's state -/
structure GP (input : Str) (s : PState) (h : List Token) : Prop where
  q : GQ input s.q h
  args : ∀ t ∈ s.cmdArgs.tokens, QTokOk input h t
  label : ∀ n l, s.env.numbered = some n → n.label = some l → '&' ∉ l

/-- What the steps do which neither expand a macro nor number a row -/
structure RP (cfg : ParserConfig) (s : PState) (h : List Token) (s' : PState) (h' : List Token) : Prop where
  q : RQ cfg s.q h s'.q h'
  exp : s'.expansionsLeft = s.expansionsLeft
  mode : mode s' = mode s

theorem RP.refl (cfg s h) : RP cfg s h s h := ⟨RQ.refl .., rfl, rfl⟩

theorem RP.trans {cfg s h s1 h1 s2 h2} (a : RP cfg s h s1 h1) (b : RP cfg s1 h1 s2 h2) : RP cfg s h s2 h2 :=
  ⟨a.q.trans b.q, b.exp.trans a.exp, b.mode.trans a.mode⟩

/-- The logic for these steps -/
def LP (cfg : ParserConfig) (input : Str) : Logic PState where
  cfg := cfg
  inv := GP input
  rel := RP cfg
  good := ErrGood input
  refl := RP.refl cfg
  trans := RP.trans

variable {cfg : ParserConfig} {input : Str} {s : PState} {h : List Token} {α β : Type}

/-- An operation on the queue changes nothing else. -/
theorem wp_liftQ_frame {m : Q α} {Q : α → TokenQueue → List Token → Prop} (hg : GP input s h)
    (hm : (LQ cfg input).Wp m s.q h Q) :
    (LP cfg input).Wp (liftQ m) s h fun a s' h' => Q a s'.q h' ∧ s' = { s with q := s'.q } := by
  rcases hm.outcome with ⟨a, q', h', hr, h1, h2, h3⟩ | ⟨e, q', h', hr, h1, h2⟩
  · refine Wp.ok (a := a) (s' := { s with q := q' }) ?_
      ⟨h', ⟨h1, rfl, rfl⟩, ⟨h2, qtoks_mono h1.sub hg.args, hg.label⟩, h3, rfl⟩
    show liftQ m cfg s = _
    change m cfg s.q = _ at hr
    unfold liftQ St.zoom; rw [hr]
  · refine Wp.err (e := e) (s' := { s with q := q' }) ?_ ⟨h', ⟨h1, rfl, rfl⟩, h2⟩
    show liftQ m cfg s = _
    change m cfg s.q = _ at hr
    unfold liftQ St.zoom; rw [hr]

/-- An operation on the queue -/
theorem wp_liftQ {m : Q α} {Q : α → TokenQueue → List Token → Prop} (hg : GP input s h)
    (hm : (LQ cfg input).Wp m s.q h Q) : (LP cfg input).Wp (liftQ m) s h fun a s' h' => Q a s'.q h' :=
  (wp_liftQ_frame hg hm).mono fun _ _ _ _ _ h => h.1

theorem wp_liftQ' {m : Q α} {Q : α → TokenQueue → List Token → Prop} {Q' : α → PState → List Token → Prop}
    (hg : GP input s h) (hm : (LQ cfg input).Wp m s.q h Q)
    (hq : ∀ a s' h', RP cfg s h s' h' → GP input s' h' → Q a s'.q h' → Q' a s' h') :
    (LP cfg input).Wp (liftQ m) s h Q' := (wp_liftQ hg hm).mono hq

theorem wp_Pnext (hg : GP input s h) : (LP cfg input).Wp P.next s h fun t s' h' =>
    Read cfg input s.q t s'.q h' ∧ t = s.q.peek.unwrapMath := wp_liftQ hg (wp_next hg.q)

theorem wp_PnextAny (hg : GP input s h) : (LP cfg input).Wp P.nextAny s h fun t s' h' =>
    Read cfg input s.q t s'.q h' ∧ t = s.q.peekAny := wp_liftQ hg (wp_nextAny hg.q)

theorem wp_fail {sp : Span} {k} {Q : α → PState → List Token → Prop} (hs : SpanOk input sp)
    (hk : k = .internal → MayFail := by exact nofun) :
    (LP cfg input).Wp (P.fail sp k) s h Q := Wp.throw (hs.err k hk)

theorem Wp.peek_bind {f : TokSpan → P β} {Q : β → PState → List Token → Prop}
    (hf : (LP cfg input).Wp (f s.q.peek) s h Q) : (LP cfg input).Wp (P.peek >>= f) s h Q := hf

theorem Wp.peekAny_bind {f : TokSpan → P β} {Q : β → PState → List Token → Prop}
    (hf : (LP cfg input).Wp (f s.q.peekAny) s h Q) : (LP cfg input).Wp (P.peekAny >>= f) s h Q := hf

theorem Wp.loopFuel_bind {f : Nat → P β} {Q : β → PState → List Token → Prop}
    (hf : (LP cfg input).Wp (f s.q.loopFuel) s h Q) : (LP cfg input).Wp (P.loopFuel >>= f) s h Q := hf

theorem GP.peek (hg : GP input s h) : TokOk input h s.q.peek := hg.q.peekOk
theorem GP.peekAny (hg : GP input s h) : TokOk input h s.q.peekAny := hg.q.peekAnyOk

/-- A token which cannot be the end of the input has been read: there is less to read. -/
theorem read_lt {q q' : TokenQueue} {h' : List Token} {t : TokSpan} (hr : Read cfg input q t q' h')
    (hne : t.tok.isEoi = false) :
    mu weight 4 q' + 1 ≤ mu weight 4 q ∧ cnt q' + 1 ≤ cnt q := by
  have h1 := hr.mu
  have h2 := hr.cnt
  rw [one_pos hne] at h2
  have := tokWeight_pos hne
  omega

theorem unwrapMath_ne_eoi {h : List Token} {t : TokSpan} (ht : TokHeld h t.tok) (hne : t.tok.isEoi = false) :
    t.unwrapMath.tok.isEoi = false := by
  cases hx : t.unwrapMath.tok.isEoi with
  | false => rfl
  | true => rw [unwrap_isEoi ht hx] at hne; cases hne

/-- Reading a token after having looked at it -/
theorem wp_Pnext_peeked (hg : GP input s h) (hne : s.q.peek.tok.isEoi = false) :
    (LP cfg input).Wp P.next s h fun t s' h' => Read cfg input s.q t s'.q h' ∧ t = s.q.peek.unwrapMath ∧
      MU s' + 1 ≤ MU s ∧ cnt s'.q + 1 ≤ cnt s.q := by
  refine (wp_Pnext hg).mono ?_
  rintro t s' h' - - ⟨h1, h2⟩
  refine ⟨h1, h2, read_lt h1 ?_⟩
  rw [h2]
  exact unwrapMath_ne_eoi hg.peek.held hne

theorem wp_PnextAny_peeked (hg : GP input s h) (hne : s.q.peekAny.tok.isEoi = false) :
    (LP cfg input).Wp P.nextAny s h fun t s' h' => Read cfg input s.q t s'.q h' ∧ t = s.q.peekAny ∧
      MU s' + 1 ≤ MU s ∧ cnt s'.q + 1 ≤ cnt s.q := by
  refine (wp_PnextAny hg).mono ?_
  rintro t s' h' - - ⟨h1, h2⟩
  refine ⟨h1, h2, read_lt h1 ?_⟩
  rw [h2]
  exact hne

/-! ### Classes and delimiters -/

theorem wp_peekClass {b : Bool} (hg : GP input s h) :
    (LP cfg input).Wp (Model.peekClassToken b) s h fun _ _ _ => True := by
  unfold Model.peekClassToken
  split
  · exact Wp.pure hg trivial
  · refine Wp.bind (wp_liftQ hg (wp_peekClassToken hg.q)) fun r s1 h1 _ hg1 _ => ?_
    refine Wp.get_bind ?_
    repeat' split
    all_goals exact Wp.pure hg1 trivial

theorem wp_mathopSpacing {pa : ParseAs} {prev e} (hg : GP input s h) :
    (LP cfg input).Wp (mathopSpacing pa prev e) s h fun _ _ _ => True :=
  Wp.bind (wp_peekClass hg) fun _ _ _ _ hg1 _ => Wp.get_bind (Wp.pure hg1 trivial)

theorem wp_extractDelimiter {t : TokSpan} {loc} (hg : GP input s h) (ht : SpanOk input t.span) :
    (LP cfg input).Wp (extractDelimiter t loc) s h fun _ _ _ => True := by
  unfold extractDelimiter
  split
  · exact Wp.pure hg trivial
  · exact wp_fail ht

theorem wp_ensureNoLimits {b : BoundsWithLimits} (hg : GP input s h)
    (hb : ∀ k sp, b.limitsSpan = some (k, sp) → SpanOk input sp) :
    (LP cfg input).Wp b.ensureNoExplicitLimits s h fun r _ _ => r = b.bounds := by
  unfold BoundsWithLimits.ensureNoExplicitLimits
  split
  · rename_i k sp hk
    exact wp_fail (hb k sp hk)
  · exact Wp.pure hg rfl

/-! ### String literals -/

omit L in
theorem recover_no_amp {t : TokSpan} {c} (h : recoverLimitedAscii t.tok = some c) : c ≠ '&' := by
  unfold recoverLimitedAscii at h
  split at h
  · split at h
    · split at h
      · rename_i hc
        cases h
        rintro rfl
        revert hc; decide
      · cases h
    · cases h
  · split at h
    · rename_i hc; cases h; rintro rfl; revert hc; decide
    · cases h
  · split at h
    · rename_i hc; cases h; rintro rfl; revert hc; decide
    · cases h
  · cases h; decide
  · cases h

omit L in
theorem literalText_ok {ts : List TokSpan} {r} (h : literalText ts = .ok r) : '&' ∉ r := by
  induction ts generalizing r with
  | nil => cases h; simp
  | cons t ts ih =>
    unfold literalText at h
    split at h
    · cases h
    · rename_i c hc
      split at h
      · rename_i s hs
        cases h
        have := recover_no_amp hc
        have := ih hs
        simp only [List.mem_cons, not_or]
        exact ⟨fun e => recover_no_amp hc e.symm, this⟩
      · cases h

theorem literalText_err {ts : List TokSpan} {e} (hts : ∀ t ∈ ts, SpanOk input t.span) (h : literalText ts = .error e) :
    ErrGood input e := by
  induction ts with
  | nil => cases h
  | cons t ts ih =>
    unfold literalText at h
    split at h
    · cases h; exact (hts t (by simp)).err _
    · split at h
      · cases h
      · rename_i e' he
        cases h
        exact ih (fun t ht => hts t (by simp [ht])) he

theorem wp_literal {ts : List TokSpan} (hg : GP input s h) (hts : ∀ t ∈ ts, SpanOk input t.span) :
    (LP cfg input).Wp (St.ofExcept (literalText ts)) s h fun r _ _ => '&' ∉ r :=
  Wp.ofExcept hg (fun _ ha => literalText_ok ha) (fun _ he => literalText_err hts he)

theorem wp_parseStringLiteral (hg : GP input s h) :
    (LP cfg input).Wp parseStringLiteral s h fun r _ _ => '&' ∉ r.1 ∧ SpanOk input r.2 := by
  refine Wp.bind (wp_liftQ hg (wp_readArgument hg.q)) fun a s1 h1 _ hg1 ha => ?_
  have hok := ha.ok
  split
  · rename_i toks span
    refine Wp.bind (wp_literal hg1 fun t ht => (hok.1 t ht).span) fun r s2 h2 _ hg2 hr => ?_
    exact Wp.pure hg2 ⟨hr, hok.2⟩
  · rename_i t
    split
    · rename_i content hc
      refine Wp.pure hg1 ⟨?_, hok.span⟩
      rcases hok.held with hp | ⟨⟨_, _, _, _, _, -, hx⟩, -⟩
      · rw [hc] at hp
        exact (plainText_iff.1 (by simpa [plain, payloadOk] using hp)).2.2
      · rw [hc] at hx; cases hx
    · refine Wp.bind (wp_literal hg1 ?_) fun r s2 h2 _ hg2 hr => ?_
      · intro x hx; rw [List.mem_singleton.1 hx]; exact hok.span
      · exact Wp.pure hg2 ⟨hr, hok.span⟩

theorem wp_parseRaise (hg : GP input s h) : (LP cfg input).Wp parseRaise s h fun _ _ _ => True := by
  refine Wp.bind (wp_parseStringLiteral hg) ?_
  rintro ⟨str, sp⟩ s1 h1 - hg1 ⟨-, hsp⟩
  simp only
  split
  · split
    · exact wp_fail hsp
    · exact Wp.pure hg1 trivial
  · exact wp_fail hsp

theorem wp_parseCustomSpace {kind : UnitKind} (hg : GP input s h) :
    (LP cfg input).Wp (parseCustomSpace kind) s h fun n _ _ => ∃ l, n = .space l := by
  refine Wp.bind (wp_parseStringLiteral hg) ?_
  rintro ⟨str, sp⟩ s1 h1 - hg1 ⟨-, hsp⟩
  simp only
  split
  · split
    · exact Wp.pure hg1 ⟨_, rfl⟩
    · exact wp_fail hsp
  · exact wp_fail hsp

theorem wp_genfracLength (hg : GP input s h) : (LP cfg input).Wp genfracLength s h fun _ _ _ => True := by
  refine Wp.bind (wp_parseStringLiteral hg) ?_
  rintro ⟨str, sp⟩ s1 h1 - hg1 ⟨-, hsp⟩
  simp only
  split
  · exact Wp.pure hg1 trivial
  · split
    · exact Wp.pure hg1 trivial
    · exact wp_fail hsp

theorem wp_parseArraySpec {env : Env} (hg : GP input s h) :
    (LP cfg input).Wp (parseArraySpec env) s h fun r _ _ =>
      (env = .array ∨ env = .dArray ∨ env = .subarray) → r.isSome = true := by
  unfold parseArraySpec
  split
  · refine Wp.bind (wp_parseStringLiteral hg) ?_
    rintro ⟨str, sp⟩ s1 h1 - hg1 ⟨-, hsp⟩
    simp only
    split
    · exact Wp.pure hg1 fun _ => rfl
    · exact wp_fail hsp
  · rename_i hne
    exact Wp.pure hg fun he => absurd he hne

theorem ArgOk.one {a : MacroArgument} (ha : ArgOk input h a) :
    (∀ t, a.intoOneOrNone = .ok (some t) → TokOk input h t) ∧ (∀ e, a.intoOneOrNone = .error e → ErrGood input e) := by
  unfold MacroArgument.intoOneOrNone
  split
  · exact ⟨(by intro t ht; cases ht; exact ha), (by intro e he; cases he)⟩
  · exact ⟨(by intro t ht; cases ht), (by intro e he; cases he)⟩
  · exact ⟨(by intro t ht; cases ht; exact ha.1 _ (by simp)), (by intro e he; cases he)⟩
  · exact ⟨(by intro t ht; cases ht), (by intro e he; cases he; exact ha.2.err _)⟩

theorem ArgOk.exactlyOne {a : MacroArgument} (ha : ArgOk input h a) :
    (∀ t, a.intoOne = .ok t → TokOk input h t) ∧ (∀ e, a.intoOne = .error e → ErrGood input e) := by
  unfold MacroArgument.intoOne
  split
  · exact ⟨(by intro t ht; cases ht; exact ha), (by intro e he; cases he)⟩
  · exact ⟨(by intro t ht; cases ht; exact ha.1 _ (by simp)), (by intro e he; cases he)⟩
  · exact ⟨(by intro t ht; cases ht), (by intro e he; cases he; exact ha.2.err _)⟩

theorem wp_genfracDelimiter (hg : GP input s h) : (LP cfg input).Wp genfracDelimiter s h fun _ _ _ => True := by
  refine Wp.bind (wp_liftQ hg (wp_readArgument hg.q)) fun a s1 h1 _ hg1 ha => ?_
  refine Wp.bind (P := fun r _ h' => ∀ t, r = some t → TokOk input h' t) (Wp.ofExcept hg1 ?_ ?_) fun r s2 h2 _ hg2 hr => ?_
  · intro r hr t ht; subst ht; exact ha.ok.one.1 t hr
  · exact ha.ok.one.2
  · split
    · refine Wp.bind (wp_extractDelimiter hg2 (hr _ rfl).span) fun d s3 h3 _ hg3 _ => ?_
      exact Wp.pure hg3 trivial
    · exact Wp.pure hg2 trivial

theorem wp_genfracStyle (hg : GP input s h) : (LP cfg input).Wp genfracStyle s h fun _ _ _ => True := by
  refine Wp.bind (wp_liftQ hg (wp_readArgument hg.q)) fun a s1 h1 _ hg1 ha => ?_
  refine Wp.bind (P := fun r _ h' => ∀ t, r = some t → TokOk input h' t) (Wp.ofExcept hg1 ?_ ?_) fun r s2 h2 _ hg2 hr => ?_
  · intro r hr t ht; subst ht; exact ha.ok.one.1 t hr
  · exact ha.ok.one.2
  · split
    · exact Wp.pure hg2 trivial
    · have := (hr _ rfl).span
      repeat' split
      all_goals first | exact wp_fail this | exact Wp.pure hg2 trivial

theorem wp_parseFenceDelimiter {loc} (hg : GP input s h) :
    (LP cfg input).Wp (parseFenceDelimiter loc) s h fun _ _ _ => True := by
  refine Wp.bind (wp_Pnext hg) fun t s1 h1 _ hg1 ht => ?_
  split
  · exact Wp.pure hg1 trivial
  · refine Wp.bind (wp_extractDelimiter hg1 ht.1.ok.span) fun d s3 h3 _ hg3 _ => ?_
    exact Wp.pure hg3 trivial

theorem wp_parseHline {b : Bool} (hg : GP input s h) : (LP cfg input).Wp (parseHline b) s h fun _ _ _ => True := by
  unfold parseHline
  split
  · refine Wp.peek_bind ?_
    split
    · refine Wp.bind (wp_Pnext hg) fun t s1 h1 _ hg1 ht => ?_
      exact Wp.pure hg1 trivial
    · exact Wp.pure hg trivial
  · exact Wp.pure hg trivial

end Verif

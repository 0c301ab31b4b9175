import Verif.Lemmas.GrammarScripts
import Verif.Lemmas.StackArms
import Verif.Lemmas.CallDoes
/-! The parser on formulas: it gives what the grammar says. -/
namespace Verif
open Model Spec Lexer' TokenQueue

variable {cfg : ParserConfig} {k : Ctx} {α β : Type} {m : Nat → P α} {f : Nat → α → P β}
  {ts ts' ts'' fol : List Tk} {l l' l'' : Loc} {a : α} {t : Tk} {c : Ctx}

/-! ### Ends and heads -/

/-- The token ends a sequence of this kind; `br` says that the sequence is in square brackets. -/
structure Ends (e : SequenceEnd) (br : Bool) (t : Tk) : Prop where
  matched : e.isMatch t.tok = true
  clean : clean t.tok = true
  cls : t.tok.cls.isSome = true
  any : br = false → SequenceEnd.anyEndToken.isMatch t.tok = true
  other : br = false → e ≠ .endToken .squareBracketClose
  number : continuesNumber t.tok = false
  loose : t.tight = false

/-- A token which does not end a sequence -/
def goesOn (br : Bool) (x : Token) : Bool := clean x && !closer x && !(br && x.isSquareClose)

/-- A token which starts something with a node -/
def headOk (br : Bool) (x : Token) : Bool := goesOn br x && quiet x.unwrapMath

theorem goesOn_noMatch {br : Bool} {x : Token} {e : SequenceEnd} (h : goesOn br x = true)
    (he : br = false → e ≠ .endToken .squareBracketClose) : e.isMatch x = false := by
  unfold goesOn at h
  simp only [Bool.and_eq_true, Bool.not_eq_true', Bool.and_eq_false_iff] at h
  obtain ⟨⟨-, h1⟩, h2⟩ := h
  cases e with
  | anyEndToken => cases x <;> first | rfl | (cases h1; done)
  | endToken e =>
    cases e <;> cases x <;> first
      | rfl
      | (cases h1; done)
      | (exfalso
         rcases h2 with h2 | h2
         · exact he h2 rfl
         · cases h2)

theorem attach_eq (n : Node) (b : Bounds) : Rec.attachScripts n b = withScripts n b := by
  obtain ⟨sub, sup⟩ := b
  cases sub <;> cases sup <;> (cases n <;> first | rfl | (rename_i z; cases z <;> rfl))

theorem withScripts_none (n : Node) : withScripts n {} = n := by
  cases n <;> first | rfl | (rename_i z; cases z <;> rfl)

theorem goesOn_iff {br : Bool} {x : Token} (h : goesOn br x = true) : clean x = true := by
  unfold goesOn at h
  simp only [Bool.and_eq_true] at h
  exact h.1.1

theorem headOk_iff {br : Bool} {x : Token} (h : headOk br x = true) : goesOn br x = true ∧ quiet x.unwrapMath = true := by
  unfold headOk at h
  simpa using h

theorem Ends.starts {e br} (h : Ends e br t) : Starts (t :: ts) := ⟨t, ts, rfl, h.clean⟩

theorem Ends.lead {e br} (h : Ends e br t) : HasLead (t :: ts) := ⟨t, List.mem_cons_self, h.cls⟩

theorem headNot_append {p : Token → Bool} (h : headNot p ts = true) (h' : headNot p ts' = true) :
    headNot p (ts ++ ts') = true := by
  cases ts with
  | nil => exact h'
  | cons t ts => exact h

theorem headNot_label (h : Starts ts) (o : Bool) : headNot (startsLabel o) ts = true := by
  obtain ⟨t, rest, rfl, hc⟩ := h
  obtain ⟨-, -, hs, -⟩ := clean_iff.1 hc
  show (!startsLabel o t.tok) = true
  generalize t.tok = y at hs
  cases y <;> first | rfl | (cases hs; done)

theorem headNot_primes (h : Starts ts) : headNot continuesPrimes ts = true := by
  obtain ⟨t, rest, rfl, hc⟩ := h
  obtain ⟨-, -, hs, -⟩ := clean_iff.1 hc
  show (!continuesPrimes t.tok) = true
  unfold continuesPrimes
  generalize t.tok.unwrapMath = y at hs
  cases y <;> first | rfl | (cases hs; done)

theorem base_ok_append {b : Base} {br : Bool} (h : b.ok br ts = true) (h' : headNot continuesNumber ts' = true)
    (hl : ∀ o, headNot (startsLabel o) ts' = true) : b.ok br (ts ++ ts') = true := by
  match b with
  | .number d more =>
    unfold Base.ok at h ⊢
    exact headNot_append h h'
  | .brace x o a =>
    unfold Base.ok at h ⊢
    simp only [Bool.and_eq_true] at h ⊢
    exact ⟨h.1, headNot_append h.2 (hl o)⟩
  | .mathClass kind b | .overlay o b =>
    unfold Base.ok at h ⊢
    exact base_ok_append h h' hl
  | .atom _ | .group _ | .frac _ _ _ _ | .sqrt _ | .root _ _ | .deco _ _ | .braceLabel _ _ _ _ | .prescript _ _ _
  | .leaf _ | .fence _ _ _ | .env _ _ _ _ | .genfrac _ _ _ | .stackTok _ _ _ | .stackGroup _ _ _ | .arrow _ _
  | .arrowUnder _ _ _ | .cramped _ _ => unfold Base.ok at h ⊢; exact h

theorem scripts_ok_append {s : Scripts} (h : s.ok ts = true) (h' : headNot continuesPrimes ts' = true) :
    s.ok (ts ++ ts') = true := by
  match s with
  | .nil => unfold Scripts.ok; rfl
  | .sub a s =>
    unfold Scripts.ok at h ⊢
    simp only [Bool.and_eq_true] at h ⊢
    exact ⟨h.1, scripts_ok_append h.2 h'⟩
  | .sup a s =>
    unfold Scripts.ok at h ⊢
    simp only [Bool.and_eq_true] at h ⊢
    exact ⟨h.1, scripts_ok_append h.2 h'⟩
  | .primes t xs s =>
    unfold Scripts.ok at h ⊢
    simp only [Bool.and_eq_true] at h ⊢
    refine ⟨⟨h.1.1, ?_⟩, scripts_ok_append h.2 h'⟩
    rw [← List.append_assoc]
    exact headNot_append h.1.2 h'
  | .primesSup t xs a s =>
    unfold Scripts.ok at h ⊢
    simp only [Bool.and_eq_true] at h ⊢
    exact ⟨h.1, scripts_ok_append h.2 h'⟩

theorem scripts_head {s : Scripts} (h : s.ok ts = true) (hs : Starts ts) :
    ∃ y rest, s.tokens ++ ts = y :: rest ∧ y.tok.isWs = false := by
  cases s with
  | nil =>
    obtain ⟨t, rest, rfl, hc⟩ := hs
    exact ⟨t, rest, by unfold Scripts.tokens; rfl, (clean_iff.1 hc).1⟩
  | sub a s => exact ⟨_, _, by unfold Scripts.tokens; rfl, rfl⟩
  | sup a s => exact ⟨_, _, by unfold Scripts.tokens; rfl, rfl⟩
  | primes t xs s =>
    unfold Scripts.ok at h
    simp only [Bool.and_eq_true, List.all_cons] at h
    obtain ⟨p, -, -, -, h4⟩ := primeOf_some h.1.1.1
    exact ⟨_, _, by unfold Scripts.tokens; rfl, (solid_iff.1 h4).1⟩
  | primesSup t xs a s =>
    unfold Scripts.ok at h
    simp only [Bool.and_eq_true, List.all_cons] at h
    obtain ⟨p, -, -, -, h4⟩ := primeOf_some h.1.1.1
    exact ⟨_, _, by unfold Scripts.tokens; rfl, (solid_iff.1 h4).1⟩

theorem isAtom_unwrap {x : Token} (h : isAtom x.unwrapMath = true) :
    clean x = true ∧ quiet x.unwrapMath = true ∧ closer x = false := by
  have h1 : ∀ y, isAtom y = true → Named y = true ∧ scripty y = false ∧ quiet y = true ∧ y.isWs = false ∧
      isHline y = false ∧ closer y = false := by
    intro y hy
    cases y <;> first | (cases hy; done) | exact ⟨rfl, rfl, rfl, rfl, rfl, rfl⟩
  obtain ⟨h2, h3, h4, h5, h6, h7⟩ := h1 _ h
  have h8 : x.isWs = false ∧ isHline x = false ∧ closer x = false := by
    cases x <;> first | exact ⟨rfl, rfl, rfl⟩ | (cases h; done)
  exact ⟨clean_iff.2 ⟨h8.1, h2, h3, h8.2.1⟩, h4, h8.2.2⟩

theorem base_head {b : Base} {br : Bool} (h : b.ok br ts = true) :
    ∃ t tail, b.tokens = t :: tail ∧ headOk br t.tok = true := by
  cases b with
  | atom x =>
    unfold Base.ok at h
    simp only [Bool.and_eq_true, Bool.not_eq_true'] at h
    obtain ⟨h1, h2, h3⟩ := isAtom_unwrap h.1
    refine ⟨_, _, by unfold Base.tokens; rfl, ?_⟩
    show headOk br x = true
    unfold headOk goesOn
    rw [h1, h2, h3]
    have h4 : (br && x.isSquareClose) = false := by
      rw [Bool.and_eq_false_iff]
      rcases Bool.and_eq_false_iff.1 h.2 with h5 | h5
      · exact Or.inl h5
      · right; cases x <;> first | rfl | (cases h5; done)
    rw [h4]; rfl
  | frac attr isBinom num den =>
    refine ⟨_, _, by unfold Base.tokens; rfl, ?_⟩
    cases br <;> cases isBinom <;> rfl
  | stackTok isOver symbol x =>
    refine ⟨_, _, by unfold Base.tokens; rfl, ?_⟩
    cases br <;> cases isOver <;> rfl
  | stackGroup isOver symbol f =>
    refine ⟨_, _, by unfold Base.tokens; rfl, ?_⟩
    cases br <;> cases isOver <;> rfl
  | deco d a =>
    refine ⟨_, _, by unfold Base.tokens; rfl, ?_⟩
    cases br <;> cases d <;> rfl
  | leaf x =>
    cases x <;> (refine ⟨_, _, by unfold Base.tokens Leaf.tokens; rfl, ?_⟩; cases br <;> rfl)
  | _ => refine ⟨_, _, by unfold Base.tokens; rfl, ?_⟩; cases br <;> rfl

theorem func_head (x : Func) (lim : Bool) (br : Bool) :
    ∃ y tail, x.tokens lim = ⟨y, false⟩ :: tail ∧ headOk br y = true ∧ y.unwrapMath = y := by
  obtain ⟨name, k⟩ := x
  cases name with
  | known name =>
    refine ⟨_, _, by unfold Func.tokens; rfl, ?_, ?_⟩
    · cases br <;> cases lim <;> rfl
    · cases lim <;> rfl
  | spelled text =>
    refine ⟨_, _, by unfold Func.tokens; rfl, ?_, rfl⟩
    cases br <;> rfl

theorem call_head {br : Bool} {t : Token} (h : isCall t = true) : headOk br t = true := by
  cases t with
  | mathOrTextMode t c => cases t <;> first | (cases h; done) | (cases br <;> rfl)
  | _ => first | (cases h; done) | (cases br <;> rfl)

theorem call_unwrap {t : Token} (h : isCall t = true) : t.unwrapMath.unwrapMath = t.unwrapMath := by
  cases t with
  | mathOrTextMode t c => cases t <;> first | (cases h; done) | rfl
  | _ => first | (cases h; done) | rfl

theorem call_macro {t : Token} (h : isCall t = true) (cfg : ParserConfig) (st : CmdStores) :
    macrosOf cfg st t.unwrapMath = macrosOf cfg st t := by
  cases t with
  | mathOrTextMode t c => cases t <;> first | (cases h; done) | rfl
  | _ => first | (cases h; done) | rfl

theorem form_starts {f : Form} {br : Bool} (h : f.ok br = true) (hs : Starts ts) : Starts (f.tokens ++ ts) := by
  cases f with
  | nil => unfold Form.tokens; exact hs
  | item b s rest =>
    unfold Form.ok at h
    simp only [Bool.and_eq_true] at h
    obtain ⟨t, tail, h1, h2⟩ := base_head h.1.1
    refine ⟨t, _, by unfold Form.tokens; rw [h1]; rfl, goesOn_iff (headOk_iff h2).1⟩
  | func x lim s rest =>
    obtain ⟨y, tail, h1, h2, -⟩ := func_head x lim br
    exact ⟨⟨y, false⟩, _, by unfold Form.tokens; rw [h1]; rfl, goesOn_iff (headOk_iff h2).1⟩
  | call t args n cont =>
    unfold Form.ok at h
    simp only [Bool.and_eq_true] at h
    exact ⟨_, _, by unfold Form.tokens; rfl, goesOn_iff (headOk_iff (call_head (br := br) h.1.1.1.1)).1⟩
  | emptyCall t args s rest =>
    unfold Form.ok at h
    simp only [Bool.and_eq_true] at h
    exact ⟨_, _, by unfold Form.tokens; rfl, goesOn_iff (headOk_iff (call_head (br := br) h.1.1.1)).1⟩
  | bigOp o s rest =>
    exact ⟨⟨o.token, false⟩, _, by unfold Form.tokens; rfl, by
      show clean o.token = true
      unfold BigOp.token; cases o.char <;> rfl⟩
  | _ => exact ⟨_, _, by unfold Form.tokens; rfl, rfl⟩

/-! ### Rounds of the loop -/

theorem does_end {e : SequenceEnd} {br : Bool} {prev : Class} {nodes : List Node} (h : Ends e br t) :
    Does cfg k (fun n => (parser n).seqLoop e prev nodes none) (t :: ts) l (t :: ts) (seqRes nodes (.ok ([], l))) := by
  refine Does.step (G := fun n => (parser n).seqLoopStep e prev nodes none) (fun n => rfl) ?_
  unfold Rec.seqLoopStep
  refine Does.peek_bind (clean_iff.1 h.clean).1 fun sp => ?_
  simp only [h.matched, if_true]
  unfold seqRes
  simp only [List.append_nil]
  exact Does.pure

theorem seqRes_bind {γ : Type} {nodes : List Node} {r : Except LatexErrKind γ}
    {g : γ → Except LatexErrKind (List Node × Loc)} : seqRes nodes (r >>= g) = r >>= fun x => seqRes nodes (g x) := by
  cases r <;> rfl

theorem does_round (hk : k.Plain) {e : SequenceEnd} {br : Bool} {prev : Class} {nodes : List Node} {fin : List Tk}
    {B : Except LatexErrKind ((Class × Node) × Loc)} {S : Loc → Except LatexErrKind (Bounds × Loc)}
    {R : Class → Loc → Except LatexErrKind (List Node × Loc)}
    (hh : headOk br t.tok = true) (he : br = false → e ≠ .endToken .squareBracketClose)
    (hB : ∀ sp, Does cfg k (fun n => (parser n).parseToken ⟨t.tok.unwrapMath, sp⟩ .sequence prev) ts l ts' B)
    (hS : ∀ l, Does cfg k (fun n => (parser n).getBounds none {}) ts' l ts'' (boundsRes none (S l)))
    (hR : ∀ cls node l, Does cfg k (fun n => (parser n).seqLoop e cls (nodes ++ [node]) none) ts'' l fin
      (seqRes (nodes ++ [node]) (R cls l))) :
    Does cfg k (fun n => (parser n).seqLoop e prev nodes none) (t :: ts) l fin
      (seqRes nodes (B >>= fun r => S r.2 >>= fun rs => R r.1.1 rs.2 >>= fun rr =>
        .ok (withScripts r.1.2 rs.1 :: rr.1, rr.2))) := by
  obtain ⟨hg, hq⟩ := headOk_iff hh
  obtain ⟨hw, hn, -, -⟩ := clean_iff.1 (goesOn_iff hg)
  refine Does.step (G := fun n => (parser n).seqLoopStep e prev nodes none) (fun n => rfl) ?_
  unfold Rec.seqLoopStep
  refine Does.peek_bind hw fun sp => ?_
  simp only [goesOn_noMatch hg he, Bool.false_eq_true, if_false]
  refine Does.after (Does.merge hk) ?_
  refine Does.next_bind hw hn fun sp => ?_
  rw [handle_quiet (x := ⟨t.tok.unwrapMath, sp⟩) hq]
  refine Does.after (m := fun _ => (Pure.pure none : P (Option (List Node × InfixFrac)))) Does.pure ?_
  rw [seqRes_bind]
  refine Does.bind (hB sp) fun x l1 _ => ?_
  unfold Rec.seqTarget
  rw [seqRes_bind]
  refine Does.seq (hS l1) (fun e he => ?_) (fun bl l2 he => ?_)
  · cases hs : S l1 with
    | ok p => rw [hs] at he; cases he
    | error e' => rw [hs] at he; cases he; rfl
  · cases hs : S l1 with
    | error e' => rw [hs] at he; cases he
    | ok p =>
      obtain ⟨b, l3⟩ := p
      rw [hs] at he
      cases he
      refine Does.after (m := fun _ => BoundsWithLimits.ensureNoExplicitLimits ⟨b, none⟩) (a := b) Does.pure ?_
      have hR' := hR x.1 (Rec.attachScripts x.2 b) l2
      show Does cfg k _ _ _ _ (seqRes nodes (R x.1 l2 >>= fun rr => .ok (withScripts x.2 b :: rr.1, rr.2)))
      have e : seqRes nodes (R x.1 l2 >>= fun rr => .ok (withScripts x.2 b :: rr.1, rr.2)) =
          seqRes (nodes ++ [Rec.attachScripts x.2 b]) (R x.1 l2) := by
        rw [attach_eq]
        cases R x.1 l2 with
        | error e => rfl
        | ok p =>
          show Except.ok ((nodes ++ (withScripts x.2 b :: p.1), none), p.2) =
            Except.ok ((nodes ++ [withScripts x.2 b] ++ p.1, none), p.2)
          simp
      rw [e]
      exact hR'

/-- A round which only changes the state -/
theorem does_silent (hk : k.Plain) {e : SequenceEnd} {br : Bool} {prev : Class} {nodes : List Node} {fin : List Tk}
    {H : Except LatexErrKind Loc} {R : Loc → Except LatexErrKind (List Node × Loc)}
    (hg : goesOn br t.tok = true) (he : br = false → e ≠ .endToken .squareBracketClose)
    (hH : ∀ sp, Does cfg k (fun _ => handleTokensWithoutOutput ⟨t.tok.unwrapMath, sp⟩ e nodes none) ts l ts'
      (H >>= fun l => .ok (some (nodes, none), l)))
    (hR : ∀ l, Does cfg k (fun n => (parser n).seqLoop e prev nodes none) ts' l fin (seqRes nodes (R l))) :
    Does cfg k (fun n => (parser n).seqLoop e prev nodes none) (t :: ts) l fin (seqRes nodes (H >>= R)) := by
  obtain ⟨hw, hn, -, -⟩ := clean_iff.1 (goesOn_iff hg)
  refine Does.step (G := fun n => (parser n).seqLoopStep e prev nodes none) (fun n => rfl) ?_
  unfold Rec.seqLoopStep
  refine Does.peek_bind hw fun sp => ?_
  simp only [goesOn_noMatch hg he, Bool.false_eq_true, if_false]
  refine Does.after (Does.merge hk) ?_
  refine Does.next_bind hw hn fun sp => ?_
  refine Does.seq (hH sp) (fun e he => ?_) (fun x l2 he => ?_)
  · cases H with
    | ok p => cases he
    | error e' => cases he; rfl
  · cases H with
    | error e' => cases he
    | ok p => cases he; exact hR _

/-- A line where there must be none -/
theorem does_misplaced (hk : k.Plain) {e : SequenceEnd} {prev : Class} {nodes : List Node} {x : LineType}
    {R : Except LatexErrKind (List Node × Loc)} {fin : List Tk} (hl : HasLead ts) (hR : R = .error (misplacedLine x)) :
    Does cfg k (fun n => (parser n).seqLoop e prev nodes none) (⟨.hline x, false⟩ :: ts) l fin (seqRes nodes R) := by
  subst hR
  refine Does.step (G := fun n => (parser n).seqLoopStep e prev nodes none) (fun n => rfl) ?_
  unfold Rec.seqLoopStep
  refine Does.peek_bind rfl fun sp => ?_
  have hm : e.isMatch (.hline x) = false := by
    cases e with
    | anyEndToken => rfl
    | endToken e => cases e <;> rfl
  simp only [hm, Bool.false_eq_true, if_false]
  refine Does.after (Does.merge hk) ?_
  refine Does.next_bind rfl rfl fun sp => ?_
  rw [handle_quiet (x := ⟨Token.unwrapMath (.hline x), sp⟩) rfl]
  refine Does.after (m := fun _ => (Pure.pure none : P (Option (List Node × InfixFrac)))) Does.pure ?_
  refine Does.bind (r := .error (misplacedLine x)) (ts' := ts) (g := fun _ => .error (misplacedLine x)) ?_
    (fun _ _ h => by cases h)
  refine Does.token hk hl rfl ?_
  unfold Rec.parseArm
  refine Does.get_bind fun s _ => ?_
  cases x <;> exact Does.fail

/-- What a round of the loop does: a token with what belongs to it, its scripts, and the rest -/
def Round (cfg : ParserConfig) (k : Ctx) (e : SequenceEnd) (br : Bool) (prev : Class) (nodes : List Node)
    (full : List Tk) (l : Loc) (fin : List Tk) (D : Except LatexErrKind (List Node × Loc)) : Prop :=
  ∃ (t : Tk) (ts ts' ts'' : List Tk) (B : Except LatexErrKind ((Class × Node) × Loc))
    (S : Loc → Except LatexErrKind (Bounds × Loc)) (R : Class → Loc → Except LatexErrKind (List Node × Loc)),
    full = t :: ts ∧ headOk br t.tok = true ∧
    (∀ sp, Does cfg k (fun n => (parser n).parseToken ⟨t.tok.unwrapMath, sp⟩ .sequence prev) ts l ts' B) ∧
    (∀ l, Does cfg k (fun n => (parser n).getBounds none {}) ts' l ts'' (boundsRes none (S l))) ∧
    (∀ cls node l, Does cfg k (fun n => (parser n).seqLoop e cls (nodes ++ [node]) none) ts'' l fin
      (seqRes (nodes ++ [node]) (R cls l))) ∧
    D = B >>= fun r => S r.2 >>= fun rs => R r.1.1 rs.2 >>= fun rr => .ok (withScripts r.1.2 rs.1 :: rr.1, rr.2)

theorem Round.both {p : Prop} (hk : k.Plain) {e : SequenceEnd} {br : Bool} {prev : Class} {nodes : List Node}
    {full fin : List Tk} {D : Except LatexErrKind (List Node × Loc)}
    (he : br = false → e ≠ .endToken .squareBracketClose) (h : Round cfg k e br prev nodes full l fin D) :
    Does cfg k (fun n => (parser n).seqLoop e prev nodes none) full l fin (seqRes nodes D) ∧
      (p → Round cfg k e br prev nodes full l fin D) := by
  refine ⟨?_, fun _ => h⟩
  obtain ⟨t, ts, ts', ts'', B, S, R, rfl, h2, h3, h4, h5, rfl⟩ := h
  exact does_round hk h2 he h3 h4 h5

theorem Round.scripts {e : SequenceEnd} {br : Bool} {prev : Class} {nodes : List Node} {fin : List Tk}
    {B : Except LatexErrKind ((Class × Node) × Loc)} {S : Loc → Except LatexErrKind (Bounds × Loc)}
    {R : Class → Loc → Except LatexErrKind (List Node × Loc)}
    (hh : headOk br t.tok = true)
    (hB : ∀ sp, Does cfg k (fun n => (parser n).parseToken ⟨t.tok.unwrapMath, sp⟩ .sequence prev) ts l ts' B)
    (hS : ∀ l, Does cfg k (fun n => (parser n).getBounds none {}) ts' l ts'' (boundsRes none (S l)))
    (hR : ∀ cls node l, Does cfg k (fun n => (parser n).seqLoop e cls (nodes ++ [node]) none) ts'' l fin
      (seqRes (nodes ++ [node]) (R cls l))) :
    Round cfg k e br prev nodes (t :: ts) l fin
      (B >>= fun r => S r.2 >>= fun rs => R r.1.1 rs.2 >>= fun rr => .ok (withScripts r.1.2 rs.1 :: rr.1, rr.2)) :=
  ⟨t, ts, ts', ts'', B, S, R, rfl, hh, hB, hS, hR, rfl⟩

theorem Round.plain {e : SequenceEnd} {br : Bool} {prev : Class} {nodes : List Node} {fin : List Tk}
    {B : Except LatexErrKind ((Class × Node) × Loc)}
    {R : Class → Loc → Except LatexErrKind (List Node × Loc)}
    (hh : headOk br t.tok = true)
    (hB : ∀ sp, Does cfg k (fun n => (parser n).parseToken ⟨t.tok.unwrapMath, sp⟩ .sequence prev) ts l ts' B)
    (hs : Starts ts')
    (hR : ∀ cls node l, Does cfg k (fun n => (parser n).seqLoop e cls (nodes ++ [node]) none) ts' l fin
      (seqRes (nodes ++ [node]) (R cls l))) :
    Round cfg k e br prev nodes (t :: ts) l fin
      (B >>= fun r => R r.1.1 r.2 >>= fun rr => .ok (r.1.2 :: rr.1, rr.2)) := by
  have h := Round.scripts (S := fun l => .ok ({}, l)) hh hB (fun l => does_noScripts hs) hR
  have e : (B >>= fun r => (Except.ok ({}, r.2) : Except LatexErrKind (Bounds × Loc)) >>= fun rs =>
      R r.1.1 rs.2 >>= fun rr => (.ok (withScripts r.1.2 rs.1 :: rr.1, rr.2) : Except LatexErrKind (List Node × Loc))) =
      B >>= fun r => R r.1.1 r.2 >>= fun rr => .ok (r.1.2 :: rr.1, rr.2) := by
    cases B with
    | error e => rfl
    | ok p =>
      show (R p.1.1 p.2 >>= fun rr => (Except.ok (withScripts p.1.2 {} :: rr.1, rr.2) : Except LatexErrKind (List Node × Loc))) = _
      rw [withScripts_none]; rfl
  rw [e] at h
  exact h

/-! ### The grammar -/

/-- What the parser returns for an argument -/
def argFull (a : Arg) (reset : Bool) (l : Loc) : Except LatexErrKind ((Class × Node) × Loc) :=
  match a with
  | .tok t =>
    match t.unwrapMath with
    | .digit c => .ok ((.default, .number [c]), l)
    | t => .ok (atomNode l.style false .default .default t, l)
  | .braces f => f.denote l .opening .ending >>= fun r =>
    .ok ((.default, nodeVecToNode r.1 reset), { r.2 with style := l.style })

theorem arg_denote (a : Arg) (reset : Bool) (l : Loc) :
    a.denote reset l = argFull a reset l >>= fun r => .ok (r.1.2, r.2) := by
  cases a with
  | tok t =>
    unfold Arg.denote argFull
    dsimp only
    cases t.unwrapMath <;> rfl
  | braces f =>
    unfold Arg.denote argFull
    dsimp only
    cases f.denote l .opening .ending <;> rfl

theorem argHead_iff {x : Token} (h : argHead x = true) :
    x.isWs = false ∧ Named x.unwrapMath = true ∧ x.unwrapMath.isSquareOpen = false := by
  unfold argHead at h
  simp only [Bool.and_eq_true, Bool.not_eq_true'] at h
  exact ⟨h.1.1.1, h.1.1.2, h.1.2⟩

theorem arg_tok_head {x : Token} (h : (Arg.tok x).ok = true) : argHead x = true := by
  unfold Arg.ok at h
  unfold argHead
  have h1 : x.isWs = false := by cases x <;> first | rfl | (cases h; done)
  rw [h1]
  generalize x.unwrapMath = y at h
  cases y <;> first | (cases h; done) | rfl

theorem alone_iff {x : Token} (h : isAlone x = true) : x.isWs = false ∧ Named x.unwrapMath = true ∧
    (match x.unwrapMath with | .digit _ => true | t => isAtom t) = true := by
  unfold isAlone at h
  have h1 : x.isWs = false := by cases x <;> first | rfl | (cases h; done)
  refine ⟨h1, ?_, h⟩
  generalize x.unwrapMath = y at h
  cases y <;> first | (cases h; done) | rfl

/-- There may be whitespace in front of a formula, and in front of scripts. -/
theorem form_loose {f : Form} {e : SequenceEnd} {br : Bool} (he : Ends e br t) : looseHead (f.tokens ++ t :: fol) = true := by
  have hb : ∀ b : Base, ∀ xs, looseHead (b.tokens ++ xs) = true := by
    intro b xs
    cases b with
    | leaf x => cases x <;> (unfold Base.tokens Leaf.tokens; rfl)
    | _ => unfold Base.tokens; rfl
  cases f with
  | nil => unfold Form.tokens; show (!t.tight) = true; rw [he.loose]; rfl
  | item b s rest =>
    unfold Form.tokens
    rw [List.append_assoc, List.append_assoc]
    exact hb b _
  | func x lim s rest =>
    obtain ⟨y, tail, h1, -, -⟩ := func_head x lim br
    unfold Form.tokens
    rw [h1]
    rfl
  | _ => unfold Form.tokens; rfl

theorem scripts_loose {s : Scripts} (h : looseHead ts = true) : looseHead (s.tokens ++ ts) = true := by
  cases s with
  | nil => unfold Scripts.tokens; exact h
  | _ => unfold Scripts.tokens; rfl

set_option maxHeartbeats 1000000 in
mutual
theorem form_does (cfg : ParserConfig) (k : Ctx) (hk : k.Plain) : (f : Form) → ∀ ⦃br : Bool⦄ ⦃e : SequenceEnd⦄ ⦃prev : Class⦄
    ⦃nodes : List Node⦄ ⦃l : Loc⦄ ⦃t : Tk⦄ ⦃fol : List Tk⦄, f.ok br = true →
    f.linked (macrosOf cfg k.stores) → Ends e br t →
    Does cfg k (fun n => (parser n).seqLoop e prev nodes none) (f.tokens ++ t :: fol) l (t :: fol)
      (seqRes nodes (f.denote l prev (leadClass (t :: fol)))) ∧
    (f.speaks = true →
      Round cfg k e br prev nodes (f.tokens ++ t :: fol) l (t :: fol) (f.denote l prev (leadClass (t :: fol))))
  | .nil => fun br e prev nodes l t fol hok hlk he => by
    unfold Form.linked at hlk
    unfold Form.tokens Form.denote
    exact ⟨does_end he, by intro h; cases h⟩
  | .item b s rest => fun br e prev nodes l t fol hok hlk he => by
    unfold Form.linked at hlk
    unfold Form.ok at hok
    simp only [Bool.and_eq_true] at hok
    obtain ⟨⟨hb, hs⟩, hr⟩ := hok
    have hst : Starts (rest.tokens ++ t :: fol) := form_starts hr he.starts
    have hs' : s.ok (rest.tokens ++ t :: fol) = true := scripts_ok_append hs (headNot_primes he.starts)
    have hb' : b.ok br ((s.tokens ++ rest.tokens) ++ t :: fol) = true :=
      base_ok_append hb (by show (!continuesNumber t.tok) = true; rw [he.number]; rfl) (headNot_label he.starts)
    rw [List.append_assoc] at hb'
    obtain ⟨t0, tail, h1, h2, h3⟩ := base_does cfg k hk b hb' hlk.1 (scripts_head hs' hst)
      (HasLead.append (HasLead.append he.lead))
    unfold Form.tokens Form.denote
    rw [h1]
    have e1 : (t0 :: tail ++ s.tokens ++ rest.tokens) ++ t :: fol =
        t0 :: (tail ++ (s.tokens ++ (rest.tokens ++ t :: fol))) := by simp
    rw [e1, ← lead_append]
    have e2 : (s.tokens ++ rest.tokens) ++ t :: fol = s.tokens ++ (rest.tokens ++ t :: fol) := by simp
    rw [e2]
    refine Round.both hk he.other ?_
    exact Round.scripts h2 (fun sp => h3 prev l sp)
      (S := fun l => s.denote l {}) (fun l => scripts_does cfg k hk s hs' hlk.2.1 hst l {} none)
      (R := fun cls l => rest.denote l cls (leadClass (t :: fol)))
      (fun cls node l => (form_does cfg k hk rest hr hlk.2.2 he).1)
  | .bigOp o s rest => fun br e prev nodes l t fol hok hlk he => by
    unfold Form.linked at hlk
    unfold Form.ok at hok
    simp only [Bool.and_eq_true] at hok
    obtain ⟨⟨hlim, hs⟩, hr⟩ := hok
    have hst : Starts (rest.tokens ++ t :: fol) := form_starts hr he.starts
    have hs' : s.ok (rest.tokens ++ t :: fol) = true := scripts_ok_append hs (headNot_primes he.starts)
    have hl : HasLead (rest.tokens ++ t :: fol) := HasLead.append he.lead
    unfold Form.tokens Form.denote
    refine Round.both hk he.other ?_
    have hun : (⟨o.token, false⟩ : Tk).tok.unwrapMath = .op o.op := by
      show o.token.unwrapMath = _
      unfold BigOp.token; cases o.char <;> rfl
    have hhead : headOk br o.token = true := by unfold BigOp.token; cases o.char <;> cases br <;> rfl
    have e1 : (⟨o.token, false⟩ :: limitsTokens o.lim ++ s.tokens ++ rest.tokens) ++ t :: fol =
        ⟨o.token, false⟩ :: (limitsTokens o.lim ++ (s.tokens ++ (rest.tokens ++ t :: fol))) := by simp
    rw [e1, ← lead_append, ← lead_append]
    have e2 : (s.tokens ++ rest.tokens) ++ t :: fol = s.tokens ++ (rest.tokens ++ t :: fol) := by simp
    rw [e2]
    by_cases hcat : o.op.cat = .C
    · rw [if_pos hcat]
      have hnone : o.lim = none := by
        unfold BigOp.ok at hlim
        rw [hcat] at hlim
        exact Option.isNone_iff_eq_none.1 hlim
      rw [hnone]
      have h := Round.scripts (t := ⟨o.token, false⟩) hhead (nodes := nodes) (prev := prev)
        (fun sp => by rw [hun]; exact Does.token hk (HasLead.append hl) rfl (arm_opC hk hcat (HasLead.append hl)))
        (S := fun l => s.denote l {}) (fun l => scripts_does cfg k hk s hs' hlk.1 hst l {} none)
        (R := fun cls l => rest.denote l cls (leadClass (t :: fol)))
        (fun cls node l => (form_does cfg k hk rest hr hlk.2 he).1) (l := l)
      exact h
    · rw [if_neg hcat]
      have h := Round.plain (t := ⟨o.token, false⟩) hhead (nodes := nodes) (prev := prev)
        (fun sp => by
          rw [hun]
          exact Does.token hk (HasLead.append (HasLead.append hl)) rfl
            (arm_op hk hcat hl (fun lim => scripts_does cfg k hk s hs' hlk.1 hst l {} lim)))
        hst
        (R := fun cls l => rest.denote l cls (leadClass (t :: fol)))
        (fun cls node l => (form_does cfg k hk rest hr hlk.2 he).1) (l := l)
      rw [bind_assoc] at h
      exact h
  | .func x lim s rest => fun br e prev nodes l t fol hok hlk he => by
    unfold Form.linked at hlk
    unfold Form.ok at hok
    simp only [Bool.and_eq_true] at hok
    obtain ⟨⟨hx, hs⟩, hr⟩ := hok
    obtain ⟨y, tail, hy, hhead, hun⟩ := func_head x lim br
    have hst : Starts (rest.tokens ++ t :: fol) := form_starts hr he.starts
    have hs' : s.ok (rest.tokens ++ t :: fol) = true := scripts_ok_append hs (headNot_primes he.starts)
    have hl : HasLead (rest.tokens ++ t :: fol) := HasLead.append he.lead
    unfold Form.tokens Form.denote
    refine Round.both hk he.other ?_
    have e1 : (x.tokens lim ++ s.tokens ++ rest.tokens) ++ t :: fol =
        ⟨y, false⟩ :: (tail ++ (s.tokens ++ (rest.tokens ++ t :: fol))) := by rw [hy]; simp
    rw [e1, ← lead_append]
    have h := Round.plain (t := ⟨y, false⟩) hhead (nodes := nodes) (prev := prev)
      (fun sp => by
        show Does cfg k (fun n => (parser n).parseToken ⟨y.unwrapMath, sp⟩ _ _) _ _ _ _
        rw [hun]
        exact Does.token hk (HasLead.append (HasLead.append hl)) rfl
          (arm_func hk hy hx hl (fun lim => scripts_does cfg k hk s hs' hlk.1 hst l {} lim)))
      hst
      (R := fun cls l => rest.denote l cls (leadClass (t :: fol)))
      (fun cls node l => (form_does cfg k hk rest hr hlk.2 he).1) (l := l)
    rw [bind_assoc] at h
    exact h
  | .amp rest => fun br e prev nodes l t fol hok hlk he => by
    unfold Form.linked at hlk
    unfold Form.ok at hok
    have hst : Starts (rest.tokens ++ t :: fol) := form_starts hok he.starts
    have hl : HasLead (rest.tokens ++ t :: fol) := HasLead.append he.lead
    unfold Form.tokens Form.denote
    refine Round.both hk he.other ?_
    have hhead : headOk br Token.newColumn = true := by cases br <;> rfl
    have h := Round.plain (t := ⟨.newColumn, false⟩) hhead (nodes := nodes) (prev := prev)
      (fun sp => Does.token hk hl rfl arm_amp) hst
      (R := fun cls l => rest.denote l cls (leadClass (t :: fol)))
      (fun cls node l => (form_does cfg k hk rest hok hlk he).1) (l := l)
    refine cast (congrArg _ ?_) h
    cases l.env.allowColumns <;> rfl
  | .newLine line rest => fun br e prev nodes l t fol hok hlk he => by
    unfold Form.linked at hlk
    unfold Form.ok at hok
    have hst : Starts (rest.tokens ++ t :: fol) := form_starts hok he.starts
    have hl : HasLead (rest.tokens ++ t :: fol) := HasLead.append he.lead
    unfold Form.tokens Form.denote nextRow
    have hhead : headOk br Token.newLine = true := by cases br <;> rfl
    refine Round.both hk he.other ?_
    have hgood (hline : line = none ∨ linesAllowed l.env = true) :=
      Round.plain (t := ⟨.newLine, false⟩) hhead (nodes := nodes) (prev := prev)
        (ts := lineTokens line ++ (rest.tokens ++ t :: fol))
        (fun sp => Does.token hk (HasLead.append hl) rfl (arm_newLine (line := line)
          (fun hm => by
            rcases hline with rfl | h
            · rfl
            · unfold linesAllowed at h; rw [hm] at h; cases h)
          (fun hm => by
            rcases hline with rfl | h
            · cases l.env.allowHlines with
              | true => exact does_line hst
              | false => exact Does.pure
            · unfold linesAllowed at h
              rw [hm, Bool.true_and] at h
              rw [h]
              exact does_line hst))) hst
        (R := fun cls l => rest.denote l cls (leadClass (t :: fol)))
        (fun cls node l => (form_does cfg k hk rest hok hlk he).1) (l := l)
    cases line with
    | none => exact hgood (Or.inl rfl)
    | some x =>
      dsimp only
      cases hal : linesAllowed l.env with
      | true =>
        have h := hgood (Or.inr hal)
        rw [← List.append_assoc] at h
        exact h
      | false =>
        have h := Round.scripts (cfg := cfg) (t := ⟨.newLine, false⟩) (e := e) (fin := t :: fol) hhead (nodes := nodes) (prev := prev)
          (fun sp => Does.token hk (HasLead.append (ts := [⟨.hline x, false⟩]) hl) rfl (arm_newLine (line := none)
            (fun hm => rfl)
            (fun hm => by
              unfold linesAllowed at hal
              rw [hm, Bool.true_and] at hal
              rw [hal]
              exact Does.pure)))
          (S := fun l => .ok ({}, l)) (fun l => does_noScripts_of rfl rfl)
          (R := fun cls l => .error (misplacedLine x)) (fun cls node l => does_misplaced hk hl rfl) (l := l)
        refine cast (congrArg _ ?_) h
        cases lineBreak none l <;> rfl
  | .noNumber rest => fun br e prev nodes l t fol hok hlk he => by
    unfold Form.linked at hlk
    unfold Form.ok at hok
    unfold Form.tokens Form.denote
    have hhead : goesOn br Token.noNumber = true := by cases br <;> rfl
    refine ⟨?_, by intro h; cases h⟩
    refine does_silent (t := ⟨.noNumber, false⟩) hk hhead he.other (H := .ok (suppressNumber l)) (fun sp => ?_)
      (R := fun l => rest.denote l prev (leadClass (t :: fol)))
      (fun l => (form_does cfg k hk rest hok hlk he).1)
    refine Does.modify_bind (l' := suppressNumber l) (fun s => rfl) (fun s hs => ?_) Does.pure
    rw [ctx_env hs]
    exact at_env hs
  | .tag paren text rest => fun br e prev nodes l t fol hok hlk he => by
    unfold Form.linked at hlk
    unfold Form.ok at hok
    simp only [Bool.and_eq_true] at hok
    obtain ⟨ht, hr⟩ := hok
    obtain ⟨str, hstr⟩ := Option.isSome_iff_exists.1 ht
    unfold Form.tokens Form.denote
    have hhead : goesOn br (Token.tag paren) = true := by cases br <;> rfl
    have e1 : (⟨.tag paren, false⟩ :: ⟨.groupBegin, false⟩ :: tight text ++ ⟨.groupEnd, true⟩ :: rest.tokens) ++ t :: fol =
      ⟨.tag paren, false⟩ :: (⟨.groupBegin, false⟩ :: tight text ++ ⟨.groupEnd, true⟩ :: (rest.tokens ++ t :: fol)) := by
      simp
    rw [e1, hstr]
    refine ⟨?_, by intro h; cases h⟩
    refine does_silent (t := ⟨.tag paren, false⟩) hk hhead he.other (fun sp => ?_)
      (R := fun l => rest.denote l prev (leadClass (t :: fol)))
      (fun l => (form_does cfg k hk rest hr hlk he).1)
    unfold putTag
    refine Does.seq (m := fun _ => setTag sp paren) (ts' := rest.tokens ++ t :: fol)
      (r := putTag paren str l >>= fun l => .ok ((), l)) ?_ (fun e he => ?_) (fun x l2 he => ?_)
    · unfold setTag putTag
      refine Does.stringLiteral_bind hstr fun sp' => ?_
      refine Does.get_bind fun s hs => ?_
      rw [ctx_env hs]
      cases hnum : l.env.numbered with
      | none => exact Does.fail
      | some n =>
        exact Does.modify (fun s => rfl) (fun s hs => by rw [ctx_env hs]; exact at_env hs)
    · unfold putTag at he
      cases hnum : l.env.numbered with
      | none => rw [hnum] at he; cases he; rfl
      | some n => rw [hnum] at he; cases he
    · unfold putTag at he
      cases hnum : l.env.numbered with
      | none => rw [hnum] at he; cases he
      | some n => rw [hnum] at he; cases he; exact Does.pure
  | .label text rest => fun br e prev nodes l t fol hok hlk he => by
    unfold Form.linked at hlk
    unfold Form.ok at hok
    simp only [Bool.and_eq_true] at hok
    obtain ⟨ht, hr⟩ := hok
    obtain ⟨str, hstr⟩ := Option.isSome_iff_exists.1 ht
    unfold Form.tokens Form.denote
    have hhead : goesOn br Token.label = true := by cases br <;> rfl
    have e1 : (⟨.label, false⟩ :: ⟨.groupBegin, false⟩ :: tight text ++ ⟨.groupEnd, true⟩ :: rest.tokens) ++ t :: fol =
      ⟨.label, false⟩ :: (⟨.groupBegin, false⟩ :: tight text ++ ⟨.groupEnd, true⟩ :: (rest.tokens ++ t :: fol)) := by
      simp
    rw [e1, hstr]
    refine ⟨?_, by intro h; cases h⟩
    refine does_silent (t := ⟨.label, false⟩) hk hhead he.other (fun sp => ?_)
      (R := fun l => rest.denote l prev (leadClass (t :: fol)))
      (fun l => (form_does cfg k hk rest hr hlk he).1)
    refine Does.seq (m := fun _ => setLabel sp) (ts' := rest.tokens ++ t :: fol)
      (r := putLabel str l >>= fun l => .ok ((), l)) ?_ (fun e he => ?_) (fun x l2 he => ?_)
    · unfold setLabel putLabel
      refine Does.stringLiteral_bind hstr fun sp' => ?_
      refine Does.get_bind fun s hs => ?_
      rw [ctx_env hs]
      cases hnum : l.env.numbered with
      | none => exact Does.fail
      | some n =>
        dsimp only
        cases n.label.isSome with
        | true => exact Does.fail
        | false => exact Does.modify (fun s => rfl) (fun s hs => by rw [ctx_env hs]; exact at_env hs)
    · dsimp only [Option.getD_some]
      cases hp : putLabel str l with
      | error e => rw [hp] at he; cases he; rfl
      | ok l => rw [hp] at he; cases he
    · dsimp only [Option.getD_some]
      cases hp : putLabel str l with
      | error e => rw [hp] at he; cases he
      | ok l => rw [hp] at he; cases he; exact Does.pure
  | .style st rest => fun br e prev nodes l t fol hok hlk he => by
    unfold Form.linked at hlk
    unfold Form.ok at hok
    simp only [Bool.and_eq_true, Bool.not_eq_true'] at hok
    obtain ⟨rfl, hr⟩ := hok
    have hl : HasLead (rest.tokens ++ t :: fol) := HasLead.append he.lead
    have he' : Ends .anyEndToken false t :=
      ⟨he.any rfl, he.clean, he.cls, he.any, (by intro _ h; cases h), he.number, he.loose⟩
    unfold Form.tokens Form.denote
    refine Round.both hk he.other ?_
    obtain ⟨hw, hn, -, -⟩ := clean_iff.1 he.clean
    have h := Round.plain (t := ⟨.style st, false⟩) (br := false) rfl (nodes := nodes) (prev := prev)
      (fun sp => Does.token hk hl rfl (arm_style hw hn (form_does cfg k hk rest hr hlk he').1)) he.starts
      (R := fun cls l => .ok ([], l))
      (fun cls node l => does_end he) (l := l)
    rw [bind_assoc] at h
    exact h
  | .color name rest => fun br e prev nodes l t fol hok hlk he => by
    unfold Form.linked at hlk
    unfold Form.ok at hok
    simp only [Bool.and_eq_true, Bool.not_eq_true'] at hok
    obtain ⟨⟨rfl, hname⟩, hr⟩ := hok
    have hl : HasLead (rest.tokens ++ t :: fol) := HasLead.append he.lead
    have he' : Ends .anyEndToken false t :=
      ⟨he.any rfl, he.clean, he.cls, he.any, (by intro _ h; cases h), he.number, he.loose⟩
    unfold Form.tokens Form.denote
    refine Round.both hk he.other ?_
    obtain ⟨hw, hn, -, -⟩ := clean_iff.1 he.clean
    have e1 : (⟨.color, false⟩ :: (name.tokens ++ rest.tokens)) ++ t :: fol =
        (⟨.color, false⟩ : Tk) :: (name.tokens ++ (rest.tokens ++ t :: fol)) := by
      simp
    rw [e1]
    have h := Round.plain (t := ⟨.color, false⟩) (br := false) rfl (nodes := nodes) (prev := prev)
      (fun sp => Does.token hk (HasLead.append hl) rfl
        (arm_color hw hn hname (form_does cfg k hk rest hr hlk he').1)) he.starts
      (R := fun cls l => .ok ([], l))
      (fun cls node l => does_end (ts := fol) he) (l := l)
    rw [bind_assoc] at h
    refine cast (congrArg _ ?_) h
    cases name.value with
    | error e => rfl
    | ok c =>
      cases Form.denote rest l prev (leadClass (t :: fol)) <;> rfl
  | .call x args n cont => fun br e prev nodes l t fol hok hlk he => by
    unfold Form.linked at hlk
    unfold Form.ok at hok
    simp only [Bool.and_eq_true, List.all_eq_true] at hok
    obtain ⟨⟨⟨⟨hx, ha⟩, hsp⟩, hloose⟩, hc⟩ := hok
    obtain ⟨⟨body, hM, hb, hn, hp, hL⟩, hlk⟩ := hlk
    unfold Form.tokens Form.denote
    refine Round.both hk he.other ?_
    have hloose' : looseHead (cont.tokens.drop n ++ t :: fol) = true :=
      looseHead_append hloose (by show (!t.tight) = true; rw [he.loose]; rfl)
    have hL' : Loosens (cont.tokens.take n) (called args body) := by
      cases body with
      | nil => exact absurd rfl hb
      | cons p body => exact hL
    have e1 : (⟨x, false⟩ :: args.flatMap CallArg.tokens ++ cont.tokens.drop n) ++ t :: fol =
        (⟨x, false⟩ : Tk) :: (args.flatMap CallArg.tokens ++ (cont.tokens.drop n ++ t :: fol)) := by simp
    rw [e1]
    have hround := fun l' => (form_does cfg k hk cont (prev := prev) (nodes := nodes) (l := l') (t := t) (fol := fol)
      hc hlk he).2 hsp
    have e2 : cont.tokens ++ t :: fol = cont.tokens.take n ++ (cont.tokens.drop n ++ t :: fol) := by
      rw [← List.append_assoc, List.take_append_drop]
    cases hl : expandOne l with
    | error err =>
      obtain ⟨t1, tl, ts', ts'', B, S, R, h1, h2, h3, h4, h5, -⟩ := hround l
      obtain ⟨hw, hnm, -, -⟩ := clean_iff.1 (goesOn_iff (headOk_iff h2).1)
      refine ⟨_, _, ts', ts'', .error err, S, R, rfl, call_head hx, fun sp => ?_, h4, h5, rfl⟩
      have h := does_call (cfg := cfg) (l := l) (sp := sp) (prev := prev) (fin := ts') (R := fun _ => .error err) hk (call_unwrap hx) ((call_macro hx _ _).trans hM) hn hp ha hloose'
        (HasLead.append he.lead) hL' (e2.symm.trans h1) hw hnm (by intro l' hl'; rw [hl] at hl'; cases hl')
      rw [hl] at h
      exact h
    | ok l' =>
      obtain ⟨t1, tl, ts', ts'', B, S, R, h1, h2, h3, h4, h5, h6⟩ := hround l'
      obtain ⟨hw, hnm, -, -⟩ := clean_iff.1 (goesOn_iff (headOk_iff h2).1)
      refine ⟨_, _, ts', ts'', B, S, R, rfl, call_head hx, fun sp => ?_, h4, h5, h6⟩
      have h := does_call (cfg := cfg) (l := l) (sp := sp) (prev := prev) (fin := ts') (R := fun _ => B) hk (call_unwrap hx) ((call_macro hx _ _).trans hM) hn hp ha hloose'
        (HasLead.append he.lead) hL' (e2.symm.trans h1) hw hnm (by intro l2 hl'; rw [hl] at hl'; cases hl'; exact h3)
      rw [hl] at h
      exact h
  | .emptyCall x args s rest => fun br e prev nodes l t fol hok hlk he => by
    unfold Form.linked at hlk
    unfold Form.ok at hok
    simp only [Bool.and_eq_true, List.all_eq_true] at hok
    obtain ⟨⟨⟨hx, ha⟩, hs⟩, hr⟩ := hok
    obtain ⟨⟨hM, hn⟩, hlk⟩ := hlk
    have hst : Starts (rest.tokens ++ t :: fol) := form_starts hr he.starts
    have hs' : s.ok (rest.tokens ++ t :: fol) = true := scripts_ok_append hs (headNot_primes he.starts)
    have hl : HasLead (s.tokens ++ (rest.tokens ++ t :: fol)) := HasLead.append (HasLead.append he.lead)
    unfold Form.tokens Form.denote
    refine Round.both hk he.other ?_
    have e1 : (⟨x, false⟩ :: args.flatMap CallArg.tokens ++ s.tokens ++ rest.tokens) ++ t :: fol =
        (⟨x, false⟩ : Tk) :: (args.flatMap CallArg.tokens ++ (s.tokens ++ (rest.tokens ++ t :: fol))) := by simp
    rw [e1]
    have h := Round.scripts (t := ⟨x, false⟩) (call_head (br := br) hx) (nodes := nodes) (prev := prev)
      (B := expandOne l >>= fun l => .ok ((.default, .emptyRow), l))
      (fun sp => by
        exact does_call hk (call_unwrap hx) ((call_macro hx _ _).trans hM) hn (by simp) ha (scripts_loose (form_loose he)) hl
          (xs := [⟨.relax, false⟩]) (.cons id .nil) rfl rfl rfl
          (fun l' _ sp => Does.token hk hl rfl Does.pure))
      (S := fun l => s.denote l {}) (fun l => scripts_does cfg k hk s hs' hlk.1 hst l {} none)
      (R := fun cls l => rest.denote l cls (leadClass (t :: fol)))
      (fun cls node l => (form_does cfg k hk rest hr hlk.2 he).1) (l := l)
    rw [bind_assoc] at h
    exact h
theorem base_does (cfg : ParserConfig) (k : Ctx) (hk : k.Plain) : (b : Base) → ∀ ⦃br : Bool⦄ ⦃fol : List Tk⦄,
    b.ok br fol = true → b.linked (macrosOf cfg k.stores) → (∃ t rest, fol = t :: rest ∧ t.tok.isWs = false) → HasLead fol →
    ∃ t tail, b.tokens = t :: tail ∧ headOk br t.tok = true ∧ ∀ prev l sp,
      Does cfg k (fun n => (parser n).parseToken ⟨t.tok.unwrapMath, sp⟩ .sequence prev) (tail ++ fol) l fol
        (b.denote l prev (leadClass fol))
  | .atom x => fun br fol hok hlk hs hl => by
    unfold Base.linked at hlk
    obtain ⟨t, tail, h1, h2⟩ := base_head hok
    refine ⟨t, tail, h1, h2, fun prev l sp => ?_⟩
    unfold Base.tokens at h1
    cases h1
    unfold Base.ok at hok
    simp only [Bool.and_eq_true] at hok
    unfold Base.denote
    exact Does.token hk hl rfl (arm_atom hk (pa := .sequence) hok.1)
  | .number d more => fun br fol hok hlk hs hl => by
    unfold Base.linked at hlk
    obtain ⟨t, tail, h1, h2⟩ := base_head hok
    refine ⟨t, tail, h1, h2, fun prev l sp => ?_⟩
    unfold Base.tokens at h1
    cases h1
    unfold Base.ok at hok
    unfold Base.denote
    exact Does.token hk (HasLead.append hl) rfl (arm_number hk hs hok)
  | .group f => fun br fol hok hlk hs hl => by
    unfold Base.linked at hlk
    obtain ⟨t, tail, h1, h2⟩ := base_head hok
    refine ⟨t, tail, h1, h2, fun prev l sp => ?_⟩
    unfold Base.tokens at h1
    cases h1
    simp only [List.append_eq]
    unfold Base.ok at hok
    unfold Base.denote
    rw [List.append_assoc]
    refine Does.token hk (HasLead.append (HasLead.append hl)) rfl ?_
    exact arm_group (by simp) (form_does cfg k hk f hok hlk ⟨rfl, rfl, rfl, fun _ => rfl, (by intro _ h; cases h), rfl, rfl⟩).1
  | .frac attr isBinom num den => fun br fol hok hlk hs hl => by
    unfold Base.linked at hlk
    obtain ⟨t, tail, h1, h2⟩ := base_head hok
    refine ⟨t, tail, h1, h2, fun prev l sp => ?_⟩
    unfold Base.tokens at h1
    cases h1
    simp only [List.append_eq]
    unfold Base.ok at hok
    simp only [Bool.and_eq_true] at hok
    unfold Base.denote
    rw [List.append_assoc]
    have hun : (if isBinom then Token.binom attr else .frac attr).unwrapMath =
        if isBinom then Token.binom attr else .frac attr := by cases isBinom <;> rfl
    show Does cfg k (fun n => (parser n).parseToken ⟨Token.unwrapMath (if isBinom then _ else _), sp⟩ _ _) _ _ _ _
    rw [hun]
    refine Does.token hk (HasLead.append (HasLead.append hl)) rfl ?_
    exact arm_frac (arg_next cfg k hk num hok.1 hlk.1 (Or.inl ⟨rfl, rfl⟩))
      (fun l' => arg_next cfg k hk den hok.2 hlk.2 (Or.inl ⟨rfl, rfl⟩))
  | .sqrt a => fun br fol hok hlk hs hl => by
    unfold Base.linked at hlk
    obtain ⟨t, tail, h1, h2⟩ := base_head hok
    refine ⟨t, tail, h1, h2, fun prev l sp => ?_⟩
    unfold Base.tokens at h1
    cases h1
    unfold Base.ok at hok
    unfold Base.denote
    refine Does.token hk (HasLead.append hl) rfl ?_
    obtain ⟨t1, tail1, g1, g2, g3⟩ := arg_does cfg k hk a hok hlk
    obtain ⟨g4, g5, g6⟩ := argHead_iff g2
    rw [g1, arg_denote, bind_assoc]
    exact arm_sqrt g4 g5 g6 (fun sp => g3 .arg true (Or.inl ⟨rfl, rfl⟩) l sp fol)
  | .root degree a => fun br fol hok hlk hs hl => by
    unfold Base.linked at hlk
    obtain ⟨t, tail, h1, h2⟩ := base_head hok
    refine ⟨t, tail, h1, h2, fun prev l sp => ?_⟩
    unfold Base.tokens at h1
    cases h1
    simp only [List.append_eq]
    unfold Base.ok at hok
    simp only [Bool.and_eq_true] at hok
    unfold Base.denote
    refine Does.token hk (HasLead.append hl) rfl ?_
    have e1 : (⟨.squareBracketOpen, false⟩ :: degree.tokens ++ ⟨.squareBracketClose, false⟩ :: a.tokens) ++ fol =
        (⟨.squareBracketOpen, false⟩ : Tk) :: (degree.tokens ++ ⟨.squareBracketClose, false⟩ :: (a.tokens ++ fol)) := by
      simp
    rw [e1]
    exact arm_root (form_does cfg k hk degree hok.1 hlk.1
        ⟨rfl, rfl, rfl, (by intro h; cases h), (by intro h; cases h), rfl, rfl⟩).1
      (fun l' => arg_next cfg k hk a hok.2 hlk.2 (Or.inl ⟨rfl, rfl⟩))
  | .deco d a => fun br fol hok hlk hs hl => by
    unfold Base.linked at hlk
    obtain ⟨t, tail, h1, h2⟩ := base_head hok
    refine ⟨t, tail, h1, h2, fun prev l sp => ?_⟩
    unfold Base.tokens at h1
    cases h1
    unfold Base.ok at hok
    unfold Base.denote
    have hun : d.token.unwrapMath = d.token := by cases d <;> rfl
    dsimp only
    rw [hun]
    refine Does.token hk (HasLead.append hl) rfl ?_
    refine arm_deco rfl (arg_next cfg k hk a hok hlk ?_)
    cases d.reset
    · exact Or.inr ⟨rfl, rfl⟩
    · exact Or.inl ⟨rfl, rfl⟩
  | .brace x isOver a => fun br fol hok hlk hs hl => by
    unfold Base.linked at hlk
    obtain ⟨t, tail, h1, h2⟩ := base_head hok
    refine ⟨t, tail, h1, h2, fun prev l sp => ?_⟩
    unfold Base.tokens at h1
    cases h1
    unfold Base.ok at hok
    simp only [Bool.and_eq_true] at hok
    unfold Base.denote
    refine Does.token hk (HasLead.append hl) rfl ?_
    obtain ⟨y, rest, rfl, hw⟩ := hs
    refine arm_brace (arg_next cfg k hk a hok.1 hlk (Or.inr ⟨rfl, rfl⟩)) hw ?_
    simpa [headNot] using hok.2
  | .braceLabel x isOver a label => fun br fol hok hlk hs hl => by
    unfold Base.linked at hlk
    obtain ⟨t, tail, h1, h2⟩ := base_head hok
    refine ⟨t, tail, h1, h2, fun prev l sp => ?_⟩
    unfold Base.tokens at h1
    cases h1
    simp only [List.append_eq]
    unfold Base.ok at hok
    simp only [Bool.and_eq_true] at hok
    unfold Base.denote
    rw [List.append_assoc, List.cons_append]
    refine Does.token hk (HasLead.append (HasLead.append (ts := ⟨_, _⟩ :: label.tokens) hl)) rfl ?_
    exact arm_braceLabel (A := a.denote false l) (B := fun l' => label.denote true l') (ts' := label.tokens ++ fol)
      (arg_next cfg k hk a hok.1 hlk.1 (Or.inr ⟨rfl, rfl⟩))
      (fun l' => arg_next cfg k hk label hok.2 hlk.2 (Or.inl ⟨rfl, rfl⟩))
  | .prescript sup sub a => fun br fol hok hlk hs hl => by
    unfold Base.linked at hlk
    obtain ⟨t, tail, h1, h2⟩ := base_head hok
    refine ⟨t, tail, h1, h2, fun prev l sp => ?_⟩
    unfold Base.tokens at h1
    cases h1
    simp only [List.append_eq]
    unfold Base.ok at hok
    simp only [Bool.and_eq_true] at hok
    unfold Base.denote
    rw [List.append_assoc, List.append_assoc]
    refine Does.token hk (HasLead.append (HasLead.append (HasLead.append hl))) rfl ?_
    exact arm_prescript (arg_next cfg k hk sup hok.1.1 hlk.1 (Or.inl ⟨rfl, rfl⟩))
      (fun l' => arg_next cfg k hk sub hok.1.2 hlk.2.1 (Or.inl ⟨rfl, rfl⟩))
      (fun l' => arg_next cfg k hk a hok.2 hlk.2.2 (Or.inl ⟨rfl, rfl⟩))
  | .leaf x => fun br fol hok hlk hs hl => by
    obtain ⟨t, tail, h1, h2⟩ := base_head hok
    refine ⟨t, tail, h1, h2, fun prev l sp => ?_⟩
    unfold Base.tokens at h1
    unfold Base.ok at hok
    unfold Base.denote
    have hun : t.tok.unwrapMath = t.tok ∧ t.tight = false := by
      cases x <;> (unfold Leaf.tokens at h1; cases h1; exact ⟨rfl, rfl⟩)
    obtain ⟨tok, tight⟩ := t
    dsimp only at hun ⊢
    obtain ⟨hun, rfl⟩ := hun
    rw [hun]
    refine Does.token hk (HasLead.append hl) rfl ?_
    exact arm_leaf hk h1 hok hl
  | .mathClass kind b => fun br fol hok hlk hs hl => by
    unfold Base.linked at hlk
    obtain ⟨t, tail, h1, h2⟩ := base_head hok
    refine ⟨t, tail, h1, h2, fun prev l sp => ?_⟩
    unfold Base.tokens at h1
    cases h1
    unfold Base.ok at hok
    unfold Base.denote
    refine Does.token hk (HasLead.append hl) rfl ?_
    obtain ⟨t1, tail1, g1, g2, g3⟩ := base_does cfg k hk b hok hlk hs hl
    obtain ⟨hw, hn, -, -⟩ := clean_iff.1 (goesOn_iff (headOk_iff g2).1)
    rw [g1]
    exact arm_mathClass hk hw hn hl (fun sp => g3 prev l sp)
  | .overlay o b => fun br fol hok hlk hs hl => by
    unfold Base.linked at hlk
    obtain ⟨t, tail, h1, h2⟩ := base_head hok
    refine ⟨t, tail, h1, h2, fun prev l sp => ?_⟩
    unfold Base.tokens at h1
    cases h1
    unfold Base.ok at hok
    unfold Base.denote
    refine Does.token hk (HasLead.append hl) rfl ?_
    obtain ⟨t1, tail1, g1, g2, g3⟩ := base_does cfg k hk b hok hlk hs hl
    obtain ⟨hw, hn, -, -⟩ := clean_iff.1 (goesOn_iff (headOk_iff g2).1)
    rw [g1]
    exact arm_overlay hw hn (fun sp => g3 prev l sp)
  | .genfrac x num den => fun br fol hok hlk hs hl => by
    unfold Base.linked at hlk
    obtain ⟨t, tail, h1, h2⟩ := base_head hok
    refine ⟨t, tail, h1, h2, fun prev l sp => ?_⟩
    unfold Base.tokens at h1
    cases h1
    simp only [List.append_eq]
    unfold Base.ok at hok
    simp only [Bool.and_eq_true] at hok
    unfold Base.denote
    rw [List.append_assoc, List.append_assoc]
    refine Does.token hk (HasLead.append (HasLead.append (HasLead.append hl))) rfl ?_
    exact arm_genfrac hok.1.1 (arg_next cfg k hk num hok.1.2 hlk.1 (Or.inl ⟨rfl, rfl⟩))
      (fun l' => arg_next cfg k hk den hok.2 hlk.2 (Or.inl ⟨rfl, rfl⟩))
  | .stackTok isOver symbol x => fun br fol hok hlk hs hl => by
    unfold Base.linked at hlk
    obtain ⟨t, tail, h1, h2⟩ := base_head hok
    refine ⟨t, tail, h1, h2, fun prev l sp => ?_⟩
    unfold Base.tokens at h1
    cases h1
    simp only [List.append_eq]
    unfold Base.ok at hok
    simp only [Bool.and_eq_true] at hok
    unfold Base.denote
    rw [List.append_assoc]
    have hun : (if isOver then Token.overset else .underset).unwrapMath =
        if isOver then Token.overset else .underset := by cases isOver <;> rfl
    show Does cfg k (fun n => (parser n).parseToken ⟨Token.unwrapMath (if isOver then _ else _), sp⟩ _ _) _ _ _ _
    rw [hun]
    refine Does.token hk (HasLead.append (HasLead.append hl)) rfl ?_
    have hx := alone_iff hok.2
    have h := arm_stack (cfg := cfg) (k := k) (t := ⟨x, false⟩) (isOver := isOver) (sp := sp)
      (nx := l.seen (leadClass (symbol.tokens ++ ([⟨x, false⟩] ++ fol)))) (prev := prev) (pa := .sequence) (l := l)
      (B := fun l' => .ok (aloneNode l'.style prev (l'.seen (leadClass fol)) x.unwrapMath, l'))
      (arg_next cfg k hk symbol hok.1 hlk (Or.inl ⟨rfl, rfl⟩)) hx.1 hx.2.1
      (fun l' sp => Does.token hk hl rfl (arm_alone hk hx.2.2))
    refine cast (congrArg _ ?_) h
    cases symbol.denote true { l with style := .script } with
    | error e => rfl
    | ok p =>
      have e2 : Loc.seen { p.2 with style := l.style, stacked := true } (leadClass fol) =
          if leadClass fol = .ending then .default else leadClass fol := by
        unfold Loc.seen
        simp
      show asParsed (.ok ((_, _), _)) = asParsed (.ok ((_, _), _))
      dsimp only
      rw [e2]
  | .stackGroup isOver symbol f => fun br fol hok hlk hs hl => by
    unfold Base.linked at hlk
    obtain ⟨t, tail, h1, h2⟩ := base_head hok
    refine ⟨t, tail, h1, h2, fun prev l sp => ?_⟩
    unfold Base.tokens at h1
    cases h1
    simp only [List.append_eq]
    unfold Base.ok at hok
    simp only [Bool.and_eq_true] at hok
    unfold Base.denote
    have hun : (if isOver then Token.overset else .underset).unwrapMath =
        if isOver then Token.overset else .underset := by cases isOver <;> rfl
    show Does cfg k (fun n => (parser n).parseToken ⟨Token.unwrapMath (if isOver then _ else _), sp⟩ _ _) _ _ _ _
    rw [hun]
    refine Does.token hk (HasLead.append hl) rfl ?_
    have e1 : (symbol.tokens ++ ⟨.groupBegin, false⟩ :: f.tokens ++ [⟨.groupEnd, false⟩]) ++ fol =
        symbol.tokens ++ (⟨.groupBegin, false⟩ : Tk) :: (f.tokens ++ ⟨.groupEnd, false⟩ :: fol) := by
      simp
    rw [e1]
    have h := arm_stack (cfg := cfg) (k := k) (t := ⟨.groupBegin, false⟩) (isOver := isOver) (sp := sp)
      (nx := l.seen (leadClass (symbol.tokens ++ (⟨.groupBegin, false⟩ : Tk) :: (f.tokens ++ ⟨.groupEnd, false⟩ :: fol))))
      (prev := prev) (pa := .sequence) (l := l)
      (arg_next cfg k hk symbol hok.1 hlk.1 (Or.inl ⟨rfl, rfl⟩)) rfl rfl
      (fun l' sp => Does.token hk (HasLead.append (HasLead.cons hl)) rfl (arm_group_on
        (form_does cfg k hk f hok.2 hlk.2 ⟨rfl, rfl, rfl, fun _ => rfl, (by intro _ h; cases h), rfl, rfl⟩).1))
    refine cast (congrArg _ ?_) h
    cases hs : symbol.denote true { l with style := .script } with
    | error e => rfl
    | ok p =>
      show asParsed ((Form.denote f { p.2 with style := l.style, stacked := true } prev .ending >>= _) >>= _) =
        asParsed (Form.denote f { p.2 with style := l.style, stacked := true } prev .ending >>= _)
      cases Form.denote f { p.2 with style := l.style, stacked := true } prev .ending <;> rfl
  | .arrow rel a => fun br fol hok hlk hs hl => by
    unfold Base.linked at hlk
    obtain ⟨t, tail, h1, h2⟩ := base_head hok
    refine ⟨t, tail, h1, h2, fun prev l sp => ?_⟩
    unfold Base.tokens at h1
    cases h1
    unfold Base.ok at hok
    unfold Base.denote
    refine Does.token hk (HasLead.append hl) rfl ?_
    obtain ⟨t1, tail1, g1, g2, g3⟩ := arg_does cfg k hk a hok hlk
    obtain ⟨g4, g5, g6⟩ := argHead_iff g2
    rw [g1, arg_denote, bind_assoc]
    exact arm_arrow hk hl g4 g5 g6 (fun sp => g3 .arg true (Or.inl ⟨rfl, rfl⟩) _ sp fol)
  | .arrowUnder rel under a => fun br fol hok hlk hs hl => by
    unfold Base.linked at hlk
    obtain ⟨t, tail, h1, h2⟩ := base_head hok
    refine ⟨t, tail, h1, h2, fun prev l sp => ?_⟩
    unfold Base.tokens at h1
    cases h1
    simp only [List.append_eq]
    unfold Base.ok at hok
    simp only [Bool.and_eq_true] at hok
    unfold Base.denote
    refine Does.token hk (HasLead.append hl) rfl ?_
    have e1 : (⟨.squareBracketOpen, false⟩ :: under.tokens ++ ⟨.squareBracketClose, false⟩ :: a.tokens) ++ fol =
        (⟨.squareBracketOpen, false⟩ : Tk) :: (under.tokens ++ ⟨.squareBracketClose, false⟩ :: (a.tokens ++ fol)) := by
      simp
    rw [e1]
    exact arm_arrowUnder hk hl (form_does cfg k hk under hok.1 hlk.1
        ⟨rfl, rfl, rfl, (by intro h; cases h), (by intro h; cases h), rfl, rfl⟩).1
      (fun l' => arg_next cfg k hk a hok.2 hlk.2 (Or.inl ⟨rfl, rfl⟩))
  | .cramped st f => fun br fol hok hlk hs hl => by
    unfold Base.linked at hlk
    obtain ⟨t, tail, h1, h2⟩ := base_head hok
    refine ⟨t, tail, h1, h2, fun prev l sp => ?_⟩
    unfold Base.tokens at h1
    cases h1
    simp only [List.append_eq]
    unfold Base.ok at hok
    unfold Base.denote
    refine Does.token hk (HasLead.append hl) rfl ?_
    have e1 : (crampedTokens st ++ ⟨.groupBegin, false⟩ :: f.tokens ++ [⟨.groupEnd, false⟩]) ++ fol =
        crampedTokens st ++ (⟨.groupBegin, false⟩ : Tk) :: (f.tokens ++ ⟨.groupEnd, false⟩ :: fol) := by
      simp
    rw [e1]
    exact arm_cramped (form_does cfg k hk f hok hlk ⟨rfl, rfl, rfl, fun _ => rfl, (by intro _ h; cases h), rfl, rfl⟩).1
  | .fence lt rt f => fun br fol hok hlk hs hl => by
    unfold Base.linked at hlk
    obtain ⟨t, tail, h1, h2⟩ := base_head hok
    refine ⟨t, tail, h1, h2, fun prev l sp => ?_⟩
    unfold Base.tokens at h1
    cases h1
    simp only [List.append_eq]
    unfold Base.ok at hok
    simp only [Bool.and_eq_true, Bool.not_eq_true'] at hok
    obtain ⟨⟨⟨⟨g1, g2⟩, g3⟩, g4⟩, g5⟩ := hok
    unfold Base.denote
    refine Does.token hk (HasLead.append hl) rfl ?_
    have e1 : (⟨lt, false⟩ :: f.tokens ++ [⟨.right, false⟩, ⟨rt, false⟩]) ++ fol =
        (⟨lt, false⟩ : Tk) :: (f.tokens ++ ⟨.right, false⟩ :: ⟨rt, false⟩ :: fol) := by
      simp
    rw [e1]
    exact arm_fence (lt := ⟨lt, false⟩) (rt := ⟨rt, false⟩) g2 g1 g4 g3 (form_does cfg k hk f g5 hlk
        ⟨rfl, rfl, rfl, fun _ => rfl, (by intro _ h; cases h), rfl, rfl⟩).1
  | .env e e' o f => fun br fol hok hlk hs hl => by
    unfold Base.linked at hlk
    obtain ⟨t, tail, h1, h2⟩ := base_head hok
    refine ⟨t, tail, h1, h2, fun prev l sp => ?_⟩
    unfold Base.tokens at h1
    cases h1
    simp only [List.append_eq]
    unfold Base.ok at hok
    simp only [Bool.and_eq_true] at hok
    unfold Base.denote
    rw [List.append_assoc, List.append_assoc]
    refine Does.token hk (HasLead.append (HasLead.append (HasLead.append hl))) rfl ?_
    have hends : Ends (.endToken .endEnv) false ⟨.endEnv e', false⟩ :=
      ⟨rfl, rfl, rfl, fun _ => rfl, (by intro _ h; cases h), rfl, rfl⟩
    exact arm_env hok.1 (form_starts hok.2 hends.starts) (form_does cfg k hk f hok.2 hlk hends).1
theorem arg_does (cfg : ParserConfig) (k : Ctx) (hk : k.Plain) : (a : Arg) → a.ok = true → a.linked (macrosOf cfg k.stores) →
    ∃ t tail, a.tokens = t :: tail ∧ argHead t.tok = true ∧ ∀ pa reset,
      (pa = .arg ∧ reset = true ∨ pa = .argWithSpace ∧ reset = false) → ∀ l sp fol,
      Does cfg k (fun n => (parser n).parseToken ⟨t.tok.unwrapMath, sp⟩ pa .default) (tail ++ fol) l fol
        (argFull a reset l)
  | .tok x => fun hok hlk => by
    refine ⟨_, _, by unfold Arg.tokens; rfl, arg_tok_head hok, fun pa reset hpa l sp fol => ?_⟩
    have hp : pa.inSequence = false := by rcases hpa with ⟨rfl, -⟩ | ⟨rfl, -⟩ <;> rfl
    refine Does.token_arg hp ?_
    unfold Arg.ok at hok
    unfold argFull
    dsimp only
    show Does cfg k (fun n => (parser n).parseArm ⟨x.unwrapMath, sp⟩ pa .default .default) fol l fol _
    generalize x.unwrapMath = y at hok
    cases y <;> first
      | exact arm_digit_arg hk hp
      | (cases hok; done)
      | (have h := arm_atom (cfg := cfg) (ts := fol) (l := l) (sp := sp) (prev := .default) (nx := .default) hk
            (pa := pa) hok
         rw [hp] at h
         exact h)
  | .braces f => fun hok hlk => by
    unfold Arg.linked at hlk
    refine ⟨_, _, by unfold Arg.tokens; rfl, rfl, fun pa reset hpa l sp fol => ?_⟩
    have hp : pa.inSequence = false := by rcases hpa with ⟨rfl, -⟩ | ⟨rfl, -⟩ <;> rfl
    have hp2 : pa ≠ .continueSequence := by rcases hpa with ⟨rfl, -⟩ | ⟨rfl, -⟩ <;> simp
    have hp3 : reset = decide (pa = .arg) := by rcases hpa with ⟨rfl, rfl⟩ | ⟨rfl, rfl⟩ <;> rfl
    refine Does.token_arg hp ?_
    unfold Arg.ok at hok
    unfold argFull
    dsimp only
    rw [List.append_eq, List.append_assoc, hp3]
    exact arm_group hp2 (form_does cfg k hk f hok hlk ⟨rfl, rfl, rfl, fun _ => rfl, (by intro _ h; cases h), rfl, rfl⟩).1
theorem arg_next (cfg : ParserConfig) (k : Ctx) (hk : k.Plain) : (a : Arg) → ∀ ⦃pa reset l fol⦄, a.ok = true → a.linked (macrosOf cfg k.stores) →
    (pa = .arg ∧ reset = true ∨ pa = .argWithSpace ∧ reset = false) →
    Does cfg k (fun n => (parser n).parseNext pa) (a.tokens ++ fol) l fol (a.denote reset l) := 
  fun a => fun pa reset l fol hok hlk hpa => by
    obtain ⟨t1, tail1, g1, g2, g3⟩ := arg_does cfg k hk a hok hlk
    obtain ⟨g4, g5, g6⟩ := argHead_iff g2
    rw [g1, arg_denote]
    exact does_next g4 g5 (fun sp => g3 pa reset hpa l sp fol)
theorem scripts_does (cfg : ParserConfig) (k : Ctx) (hk : k.Plain) : (s : Scripts) → ∀ ⦃fol : List Tk⦄,
    s.ok fol = true → s.linked (macrosOf cfg k.stores) → Starts fol → ∀ l b lim,
    Does cfg k (fun n => (parser n).getBounds none ⟨b, lim⟩) (s.tokens ++ fol) l fol (boundsRes lim (s.denote l b))
  | .nil => fun fol hok hlk hs l b lim => by
    unfold Scripts.linked at hlk
    unfold Scripts.tokens Scripts.denote
    exact does_noScripts hs
  | .sub a s => fun fol hok hlk hs l b lim => by
    unfold Scripts.linked at hlk
    unfold Scripts.ok at hok
    simp only [Bool.and_eq_true] at hok
    obtain ⟨t1, tail1, g1, g2, g3⟩ := arg_does cfg k hk a hok.1 hlk.1
    unfold Scripts.tokens Scripts.denote
    rw [g1, arg_denote]
    have e1 : (⟨.underscore, false⟩ :: (t1 :: tail1) ++ s.tokens) ++ fol =
        (⟨.underscore, false⟩ : Tk) :: (t1 :: (tail1 ++ (s.tokens ++ fol))) := by simp
    rw [e1, bind_assoc]
    have h := does_sub (b := b) (does_script g2 (fun sp => g3 .arg true (Or.inl ⟨rfl, rfl⟩) _ sp (s.tokens ++ fol)))
      (fun l b => scripts_does cfg k hk s hok.2 hlk.2 hs l b lim) (l := l)
    rw [bind_assoc] at h
    exact h
  | .sup a s => fun fol hok hlk hs l b lim => by
    unfold Scripts.linked at hlk
    unfold Scripts.ok at hok
    simp only [Bool.and_eq_true] at hok
    obtain ⟨t1, tail1, g1, g2, g3⟩ := arg_does cfg k hk a hok.1 hlk.1
    unfold Scripts.tokens Scripts.denote
    rw [g1, arg_denote]
    have e1 : (⟨.circumflex, false⟩ :: (t1 :: tail1) ++ s.tokens) ++ fol =
        (⟨.circumflex, false⟩ : Tk) :: (t1 :: (tail1 ++ (s.tokens ++ fol))) := by simp
    rw [e1, bind_assoc]
    have h := does_sup (b := b) (Or.inl ⟨rfl, rfl⟩)
      (does_script g2 (fun sp => g3 .arg true (Or.inl ⟨rfl, rfl⟩) _ sp (s.tokens ++ fol)))
      (fun l b => scripts_does cfg k hk s hok.2 hlk.2 hs l b lim) (l := l)
    rw [bind_assoc] at h
    exact h
  | .primes x xs s => fun fol hok hlk hs l b lim => by
    unfold Scripts.linked at hlk
    unfold Scripts.ok at hok
    simp only [Bool.and_eq_true, List.all_eq_true] at hok
    obtain ⟨⟨g1, g2⟩, g3⟩ := hok
    obtain ⟨p, h1, h2, h3, h4⟩ := primeOf_some (g1 x List.mem_cons_self)
    obtain ⟨y, rest, h5, h6⟩ := scripts_head g3 hs
    unfold Scripts.tokens Scripts.denote
    have e1 : (⟨x, false⟩ :: tight xs ++ s.tokens) ++ fol = (⟨x, false⟩ : Tk) :: (tight xs ++ (s.tokens ++ fol)) := by simp
    rw [e1]
    have hc : continuesPrimes y.tok = false := by
      rw [h5] at g2
      have g2 : (!continuesPrimes y.tok) = true := g2
      simpa using g2
    have hrec := fun l b => scripts_does cfg k hk s g3 hlk hs l b lim
    rw [h5] at hrec ⊢
    exact does_sup (x := ⟨x, false⟩) (b := b) (Or.inr ⟨h4, p, h2, rfl⟩) (does_primesOnly g1 h2 h6 hc) hrec (l := l)
  | .primesSup x xs a s => fun fol hok hlk hs l b lim => by
    unfold Scripts.linked at hlk
    unfold Scripts.ok at hok
    simp only [Bool.and_eq_true, List.all_eq_true] at hok
    obtain ⟨⟨g1, g2⟩, g3⟩ := hok
    obtain ⟨p, h1, h2, h3, h4⟩ := primeOf_some (g1 x List.mem_cons_self)
    obtain ⟨t1, tail1, k1, k2, k3⟩ := arg_does cfg k hk a g2 hlk.1
    unfold Scripts.tokens Scripts.denote
    rw [k1, arg_denote]
    have e1 : (⟨x, false⟩ :: tight xs ++ ⟨.circumflex, true⟩ :: (t1 :: tail1) ++ s.tokens) ++ fol =
        (⟨x, false⟩ : Tk) :: (tight xs ++ ⟨.circumflex, true⟩ :: (t1 :: (tail1 ++ (s.tokens ++ fol)))) := by simp
    rw [e1, bind_assoc]
    have h := does_sup (x := ⟨x, false⟩) (b := b) (Or.inr ⟨h4, p, h2, rfl⟩)
      (does_primesSup g1 h2 (does_script k2 (fun sp => k3 .arg true (Or.inl ⟨rfl, rfl⟩) _ sp (s.tokens ++ fol))))
      (fun l b => scripts_does cfg k hk s g3 hlk.2 hs l b lim) (l := l)
    rw [bind_assoc, bind_assoc] at h
    exact h
end

end Verif

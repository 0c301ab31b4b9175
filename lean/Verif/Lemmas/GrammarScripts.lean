import Verif.Lemmas.GrammarArms
/-! The parser on scripts and on operators, given what it does with the arguments. -/
namespace Verif
open Model Spec Lexer' TokenQueue

variable {cfg : ParserConfig} {k : Ctx} {α β : Type} {m : Nat → P α} {f : Nat → α → P β}
  {ts ts' ts'' fol : List Tk} {l l' l'' : Loc} {a : α} {t : Tk} {c : Ctx}

/-! ### Primes -/

theorem primeOf_some {x : Token} (h : (primeOf x).isSome = true) :
    ∃ p, primeOf x = some p ∧ x.unwrapMath = .prime p ∧ Named x = true ∧ solid x = true := by
  have h1 : ∃ p, x.unwrapMath = .prime p := by
    unfold primeOf at h
    generalize x.unwrapMath = y at h
    cases y <;> first | (cases h; done) | exact ⟨_, rfl⟩
  obtain ⟨p, hp⟩ := h1
  refine ⟨p, by unfold primeOf; rw [hp], hp, ?_, ?_⟩
  · cases x <;> first | rfl | (cases hp; done)
  · unfold solid
    rw [hp]
    cases x <;> first | rfl | (cases hp; done)

theorem does_primes {fuel : Nat} {xs : List Token} {acc : List (PrimeDirection × Nat)} {x : Tk} {fl : Bool}
    (hx : ∀ y ∈ xs, (primeOf y).isSome = true) (hf : xs.length < fuel)
    (hw : x.tok.isWs = false)
    (hfol : (fl = false ∧ continuesPrimes x.tok = false) ∨ (fl = true ∧ x = ⟨.circumflex, true⟩)) :
    Does cfg k (fun _ => primesLoop fuel acc) (tight xs ++ x :: ts) l (x :: ts)
      (.ok (((xs.filterMap primeOf).foldl addPrime acc, fl), l)) := by
  induction xs generalizing fuel acc with
  | nil =>
    obtain ⟨fuel, rfl⟩ : ∃ j, fuel = j + 1 := ⟨fuel - 1, by have : 0 < fuel := hf; omega⟩
    refine Does.peekAny_bind hw fun tok sp htok => ?_
    rcases hfol with ⟨rfl, hc⟩ | ⟨rfl, rfl⟩
    · have hc' : continuesPrimes tok = false := by
        rcases htok with rfl | ⟨-, rfl⟩
        · exact hc
        · rfl
      unfold continuesPrimes at hc'
      dsimp only
      generalize tok.unwrapMath = y at hc'
      cases y <;> first | (cases hc'; done) | exact Does.pure
    · rcases htok with rfl | ⟨h, -⟩
      · exact Does.pure
      · cases h
  | cons y xs ih =>
    obtain ⟨fuel, rfl⟩ : ∃ j, fuel = j + 1 := ⟨fuel - 1, by have : _ < fuel := hf; omega⟩
    obtain ⟨p, h1, h2, h3, h4⟩ := primeOf_some (hx y List.mem_cons_self)
    obtain ⟨h5, -, -⟩ := solid_iff.1 h4
    show Does cfg k _ (⟨y, true⟩ :: (tight xs ++ x :: ts)) _ _ _
    refine Does.peekAny_bind h5 fun tok sp htok => ?_
    have htok : tok = y := by
      rcases htok with rfl | ⟨h, -⟩
      · rfl
      · cases h
    subst htok
    simp only [h2]
    refine Does.nextAny_bind rfl h5 h3 fun sp' => ?_
    have e : (List.filterMap primeOf (tok :: xs)).foldl addPrime acc =
        (List.filterMap primeOf xs).foldl addPrime (addPrime acc p) := by
      rw [List.filterMap_cons, h1]; rfl
    rw [e]
    exact ih (fun z hz => hx z (List.mem_cons_of_mem _ hz)) (by rw [List.length_cons] at hf; omega)

/-! ### One script -/

/-- The first token of an argument -/
def argHead (x : Token) : Bool := !x.isWs && Named x.unwrapMath && !x.unwrapMath.isSquareOpen &&
  (match x.unwrapMath with
    | .underscore | .circumflex | .prime _ | .eoi => false
    | _ => true)

theorem scriptStyle_eq (st : Style) : scriptStyle st = st.scriptify := by cases st <;> rfl

theorem does_script {N : Except LatexErrKind ((Class × Node) × Loc)} (hh : argHead t.tok = true)
    (h : ∀ sp, Does cfg k (fun n => (parser n).parseToken ⟨t.tok.unwrapMath, sp⟩ .arg .default) ts
      { l with style := scriptStyle l.style } fol N) :
    Does cfg k (fun n => (parser n).parseScript) (t :: ts) l fol
      (N >>= fun r => .ok (r.1.2, { r.2 with style := l.style })) := by
  rw [scriptStyle_eq] at h
  unfold argHead at hh
  simp only [Bool.and_eq_true, Bool.not_eq_true'] at hh
  obtain ⟨⟨⟨hw, hn⟩, -⟩, hm⟩ := hh
  have key : ∀ sp, Does cfg k (fun n => do
      let old ← (St.get : P PState)
      St.modify fun s => { s with style := s.style.scriptify }
      let (_, node) ← (parser n).parseToken ⟨t.tok.unwrapMath, sp⟩ .arg .default
      St.modify fun s => { s with style := old.style }
      return node) ts l fol (N >>= fun r => .ok (r.1.2, { r.2 with style := l.style })) := by
    intro sp
    refine Does.get_bind fun s0 hs0 => ?_
    refine Does.modify_bind (fun s => rfl) (l' := { l with style := l.style.scriptify })
      (fun s hs => by rw [ctx_style hs]; exact at_style hs) ?_
    refine Does.bind (h sp) fun x l1 _ => ?_
    exact Does.modify_bind (fun s => rfl) (fun s hs => by rw [ctx_style hs0]; exact at_style hs) Does.pure
  unfold Rec.parseScript
  refine Does.next_bind hw hn fun sp => ?_
  have key := key sp
  dsimp only
  generalize t.tok.unwrapMath = y at hm key
  cases y <;> first | (cases hm; done) | exact key

theorem does_primesOnly {x : Token} {xs : List Token} {y : Tk} {p : PrimeKind}
    (hx : ∀ z ∈ x :: xs, (primeOf z).isSome = true) (hp : x.unwrapMath = .prime p) (hw : y.tok.isWs = false)
    (hc : continuesPrimes y.tok = false) :
    Does cfg k (fun n => (parser n).getSubOrSup (.prime p)) (tight xs ++ y :: ts) l (y :: ts)
      (.ok (Rec.rowUnlessSingle (primesNodes (x :: xs)), l)) := by
  unfold Rec.getSubOrSup
  have hs : ∀ t ∈ tight xs, solid t.tok = true := by
    intro t ht
    unfold tight at ht
    obtain ⟨z, hz, rfl⟩ := List.mem_map.1 ht
    obtain ⟨p, -, -, -, h⟩ := primeOf_some (hx z (List.mem_cons_of_mem _ hz))
    exact h
  refine Does.loopFuel_bind hs fun F hF => ?_
  refine Does.after (m := fun _ => primesLoop F [(p.direction, p.count)])
    (does_primes (fl := false) (fun z hz => hx z (List.mem_cons_of_mem _ hz))
      (by unfold tight at hF; rw [List.length_map] at hF; omega) hw (Or.inl ⟨rfl, hc⟩)) ?_
  have e : primeOf x = some p := by unfold primeOf; rw [hp]
  unfold primesNodes primeRuns
  rw [List.filterMap_cons, e]
  exact Does.pure

theorem does_primesSup {x : Token} {xs : List Token} {p : PrimeKind} {A : Except LatexErrKind (Node × Loc)}
    (hx : ∀ z ∈ x :: xs, (primeOf z).isSome = true) (hp : x.unwrapMath = .prime p)
    (h : Does cfg k (fun n => (parser n).parseScript) ts l fol A) :
    Does cfg k (fun n => (parser n).getSubOrSup (.prime p)) (tight xs ++ ⟨.circumflex, true⟩ :: ts) l fol
      (A >>= fun r => .ok (Rec.rowUnlessSingle (primesNodes (x :: xs) ++ [r.1]), r.2)) := by
  unfold Rec.getSubOrSup
  have hs : ∀ t ∈ tight xs, solid t.tok = true := by
    intro t ht
    unfold tight at ht
    obtain ⟨z, hz, rfl⟩ := List.mem_map.1 ht
    obtain ⟨p, -, -, -, h⟩ := primeOf_some (hx z (List.mem_cons_of_mem _ hz))
    exact h
  refine Does.loopFuel_bind hs fun F hF => ?_
  refine Does.after (m := fun _ => primesLoop F [(p.direction, p.count)])
    (does_primes (fl := true) (fun z hz => hx z (List.mem_cons_of_mem _ hz))
      (by unfold tight at hF; rw [List.length_map] at hF; omega) rfl (Or.inr ⟨rfl, rfl⟩)) ?_
  have e : primeOf x = some p := by unfold primeOf; rw [hp]
  unfold primesNodes primeRuns
  rw [List.filterMap_cons, e]
  dsimp only
  simp only [if_true]
  refine Does.nextAny_bind rfl rfl rfl fun sp => ?_
  refine Does.bind h fun n l1 _ => ?_
  exact Does.pure

/-! ### All scripts -/

variable {lim : Option (LimitsKind × Span)}

/-- The result of reading scripts -/
def boundsRes (lim : Option (LimitsKind × Span)) (r : Except LatexErrKind (Bounds × Loc)) : Except LatexErrKind (BoundsWithLimits × Loc) :=
  match r with
  | .ok (b, l) => .ok (⟨b, lim⟩, l)
  | .error e => .error e

theorem boundsRes_bind {γ : Type} {r : Except LatexErrKind γ} {g : γ → Except LatexErrKind (Bounds × Loc)} :
    boundsRes lim (r >>= g) = r >>= fun x => boundsRes lim (g x) := by cases r <;> rfl

theorem does_noScripts_of {b : Bounds} {rest : List Tk} (hw : t.tok.isWs = false) (hsc : scripty t.tok.unwrapMath = false) :
    Does cfg k (fun n => (parser n).getBounds none ⟨b, lim⟩) (t :: rest) l (t :: rest) (boundsRes lim (.ok (b, l))) := by
  refine Does.step (G := fun n => (parser n).getBoundsStep none ⟨b, lim⟩) (fun n => rfl) ?_
  unfold Rec.getBoundsStep
  refine Does.peek_bind hw fun sp => ?_
  simp only [Option.getD_none]
  generalize t :: rest = ts0
  generalize t.tok.unwrapMath = y at hsc
  cases y <;> first | (cases hsc; done) | exact Does.pure

theorem does_noScripts {b : Bounds} (hs : Starts ts) :
    Does cfg k (fun n => (parser n).getBounds none ⟨b, lim⟩) ts l ts (boundsRes lim (.ok (b, l))) := by
  obtain ⟨t, rest, rfl, hc⟩ := hs
  obtain ⟨hw, hn, hsc, -⟩ := clean_iff.1 hc
  exact does_noScripts_of hw hsc

theorem does_sub {b : Bounds} {N : Except LatexErrKind (Node × Loc)} {S : Loc → Bounds → Except LatexErrKind (Bounds × Loc)}
    (h : Does cfg k (fun n => (parser n).parseScript) ts l ts' N)
    (h2 : ∀ l b, Does cfg k (fun n => (parser n).getBounds none ⟨b, lim⟩) ts' l fol (boundsRes lim (S l b))) :
    Does cfg k (fun n => (parser n).getBounds none ⟨b, lim⟩) (⟨.underscore, false⟩ :: ts) l fol
      (boundsRes lim (N >>= fun r => addSub r.1 b >>= fun b => S r.2 b)) := by
  refine Does.step (G := fun n => (parser n).getBoundsStep none ⟨b, lim⟩) (fun n => rfl) ?_
  unfold Rec.getBoundsStep
  refine Does.peek_bind rfl fun sp => ?_
  show Does cfg k (fun n => (parser n).addBound false sp .underscore ⟨b, lim⟩) _ _ _ _
  unfold Rec.addBound
  refine Does.after (m := fun _ => P.skipIf (!false)) (Does.skipIf rfl rfl) ?_
  rw [boundsRes_bind]
  refine Does.bind (m := fun n => (parser n).getSubOrSup .underscore) h fun n l1 _ => ?_
  unfold addSub
  dsimp only
  cases hb : b.sub.isSome with
  | true => simp only [if_true]; exact Does.fail
  | false => simp only [Bool.false_eq_true, if_false]; exact h2 _ _

theorem does_sup {b : Bounds} {x : Tk} {kind : BoundStarterKind} {N : Except LatexErrKind (Node × Loc)}
    {S : Loc → Bounds → Except LatexErrKind (Bounds × Loc)}
    (hx : (x = ⟨.circumflex, false⟩ ∧ kind = .circumflex) ∨ (solid x.tok = true ∧ ∃ p, x.tok.unwrapMath = .prime p ∧ kind = .prime p))
    (h : Does cfg k (fun n => (parser n).getSubOrSup kind) ts l ts' N)
    (h2 : ∀ l b, Does cfg k (fun n => (parser n).getBounds none ⟨b, lim⟩) ts' l fol (boundsRes lim (S l b))) :
    Does cfg k (fun n => (parser n).getBounds none ⟨b, lim⟩) (x :: ts) l fol
      (boundsRes lim (N >>= fun r => addSup r.1 b >>= fun b => S r.2 b)) := by
  have key : ∀ sp (hw : x.tok.isWs = false) (hn : Named x.tok.unwrapMath = true) (hkind : kind ≠ .underscore),
      Does cfg k (fun n => (parser n).addBound false sp kind ⟨b, lim⟩) (x :: ts) l fol
      (boundsRes lim (N >>= fun r => addSup r.1 b >>= fun b => S r.2 b)) := by
    intro sp hw hn hkind
    unfold Rec.addBound
    refine Does.after (m := fun _ => P.skipIf (!false)) (Does.skipIf hw hn) ?_
    rw [boundsRes_bind]
    refine Does.bind (m := fun n => (parser n).getSubOrSup kind) h fun n l1 _ => ?_
    unfold addSup
    cases kind with
    | underscore => exact absurd rfl hkind
    | _ =>
      dsimp only
      cases hb : b.sup.isSome with
      | true => simp only [if_true]; exact Does.fail
      | false => simp only [Bool.false_eq_true, if_false]; exact h2 _ _
  refine Does.step (G := fun n => (parser n).getBoundsStep none ⟨b, lim⟩) (fun n => rfl) ?_
  unfold Rec.getBoundsStep
  rcases hx with ⟨rfl, rfl⟩ | ⟨hs, p, hp, rfl⟩
  · refine Does.peek_bind rfl fun sp => ?_
    exact key sp rfl rfl (by simp)
  · obtain ⟨hw, -, hn⟩ := solid_iff.1 hs
    refine Does.peek_bind hw fun sp => ?_
    simp only [Option.getD_none, hp]
    exact key sp hw hn (by simp)

/-! ### Operators -/

theorem does_opSpacing (hk : k.Plain) {prev : Class} {explicit : Bool} (hl : HasLead ts) :
    Does cfg k (fun _ => mathopSpacing .sequence prev explicit) ts l ts
      (.ok (opSpacing l.style prev (leadClass ts) explicit, l)) := by
  unfold mathopSpacing
  refine Does.peekClass_bind hl hk ?_
  refine Does.get_bind fun s hs => ?_
  rw [ctx_style hs]
  exact Does.pure

theorem trivial_wrap {b : Bounds} {u : Bool} {n : Node} (h : b.isTrivial = true) : b.wrap u n = n := by
  obtain ⟨sub, sup⟩ := b
  cases sub <;> cases sup <;> first | (cases h; done) | (cases u <;> rfl)

theorem wrap_eq {b : Bounds} {n : Node} (u : Bool) (hn : ∀ x y z, n ≠ .multiscripts x y z) :
    b.wrap u n = opNode u n b := by
  obtain ⟨sub, sup⟩ := b
  cases u <;> cases sub <;> cases sup <;> first
    | rfl
    | (cases n <;> first | rfl | exact absurd rfl (hn _ _ _))

/-- Scripts, after `\limits` and so on -/
theorem does_bounds_bind {o : Option LimitsKind} {B : Except LatexErrKind (Bounds × Loc)} {f : BoundsWithLimits → P β}
    {r : Except LatexErrKind (β × Loc)}
    (h : ∀ lim, Does cfg k (fun n => (parser n).getBounds none ⟨{}, lim⟩) ts l fol (boundsRes lim B))
    (herr : ∀ e, B = .error e → r = .error e)
    (hok : ∀ b l' lim, B = .ok (b, l') → lim.map (·.1) = o → Does cfg k (fun _ => f ⟨b, lim⟩) fol l' ts' r) :
    Does cfg k (fun n => (parser n).getBounds none {} >>= f) (limitsTokens o ++ ts) l ts' r := by
  have key : ∀ lim, lim.map (·.1) = o →
      Does cfg k (fun n => (parser n).getBounds none ⟨{}, lim⟩ >>= f) ts l ts' r := by
    intro lim hlim
    refine Does.seq (h lim) (fun e he => ?_) (fun bl l1 he => ?_)
    · cases B with
      | ok p => cases he
      | error e' => cases he; exact herr _ rfl
    · cases B with
      | error e' => cases he
      | ok q =>
        obtain ⟨b, l2⟩ := q
        cases he
        exact hok _ _ _ rfl hlim
  cases o with
  | none => exact key none rfl
  | some x =>
    refine Does.step (G := fun n => P.peek >>= fun t => (match t.tok.unwrapMath with
        | .underscore => (parser n).addBound false t.span .underscore {}
        | .circumflex => (parser n).addBound false t.span .circumflex {}
        | .prime k => (parser n).addBound false t.span (.prime k) {}
        | .limits k => P.skipIf true >>= fun _ => (parser n).getBounds none { limitsSpan := some (k, t.span) }
        | _ => (Pure.pure {} : P BoundsWithLimits)) >>= f) (fun n => St.bind_assoc' _ _ _) ?_
    show Does cfg k _ (⟨.limits x, false⟩ :: ts) l ts' r
    refine Does.peek_bind rfl fun sp => ?_
    show Does cfg k (fun n => (P.skipIf true >>= fun _ => (parser n).getBounds none { limitsSpan := some (x, sp) }) >>= f) _ _ _ _
    refine Does.congr (funext fun n => St.bind_assoc' _ _ _) ?_
    refine Does.after (m := fun _ => P.skipIf true) (Does.skipIf rfl rfl) ?_
    exact key (some (x, sp)) rfl

theorem arm_op (hk : k.Plain) {sp : Span} {o : BigOp} {prev nx : Class} {B : Except LatexErrKind (Bounds × Loc)}
    (hcat : o.op.cat ≠ .C) (hl : HasLead fol)
    (h : ∀ lim, Does cfg k (fun n => (parser n).getBounds none ⟨{}, lim⟩) ts l fol (boundsRes lim B)) :
    Does cfg k (fun n => (parser n).parseArm ⟨.op o.op, sp⟩ .sequence prev nx) (limitsTokens o.lim ++ ts) l fol
      (asParsed (B >>= fun rs =>
        let sp := opSpacing rs.2.style prev (leadClass fol) false
        let attrs := limitsAttrs (o.op.cat = .J) o.lim rs.1
        .ok ((.operator, opNode (limitsSet o.lim (o.op.cat = .J)) (.operator o.op.asOp attrs none sp.1 sp.2) rs.1), rs.2))) := by
  unfold Rec.parseArm
  refine Does.get_bind fun s _ => ?_
  show Does cfg k (fun n => (parser n).parseOp o.op .sequence prev) _ _ _ _
  unfold Rec.parseOp Rec.opBounds
  simp only [hcat, if_false]
  rw [asParsed_bind]
  refine does_bounds_bind h (fun e he => by rw [he]; rfl) (fun b l1 lim he hlim => ?_)
  rw [he]
  refine Does.after (m := fun _ => mathopSpacing .sequence prev false) (does_opSpacing hk hl) ?_
  show Does cfg k (fun _ => Pure.pure (Parsed.node .operator (b.wrap (opLimits ⟨b, lim⟩ (o.op.cat = .J)).1
      (.operator o.op.asOp (opLimits ⟨b, lim⟩ (o.op.cat = .J)).2 none (opSpacing l1.style prev (leadClass fol) false).1
        (opSpacing l1.style prev (leadClass fol) false).2)))) _ _ _
    (.ok (Parsed.node .operator (opNode (limitsSet o.lim (o.op.cat = .J)) (.operator o.op.asOp
      (limitsAttrs (o.op.cat = .J) o.lim b) none
      (opSpacing l1.style prev (leadClass fol) false).1 (opSpacing l1.style prev (leadClass fol) false).2) b), l1))
  generalize opSpacing l1.style prev (leadClass fol) false = s2
  have e : b.wrap (opLimits ⟨b, lim⟩ (o.op.cat = .J)).1
      (.operator o.op.asOp (opLimits ⟨b, lim⟩ (o.op.cat = .J)).2 none s2.1 s2.2) =
      opNode (limitsSet o.lim (o.op.cat = .J)) (.operator o.op.asOp (limitsAttrs (o.op.cat = .J) o.lim b) none s2.1 s2.2) b := by
    rw [← wrap_eq _ (by intro _ _ _ h; cases h)]
    have hlim' : (⟨b, lim⟩ : BoundsWithLimits).limits = o.lim := hlim
    unfold opLimits limitsAttrs
    rw [hlim']
    dsimp only
    cases ht : b.isTrivial with
    | true => simp only [if_true]; rw [trivial_wrap ht, trivial_wrap ht]
    | false =>
      simp only [Bool.false_eq_true, if_false]
      generalize (decide (o.op.cat = .J)) = j
      cases o.lim with
      | none => cases j <;> rfl
      | some x => cases x <;> cases j <;> rfl
  rw [e]
  exact Does.pure

theorem arm_opC (hk : k.Plain) {sp : Span} {o : Op} {prev nx : Class} (hcat : o.cat = .C) (hl : HasLead ts) :
    Does cfg k (fun n => (parser n).parseArm ⟨.op o, sp⟩ .sequence prev nx) ts l ts
      (asParsed (.ok ((.operator, .operator o.asOp .empty none (opSpacing l.style prev (leadClass ts) false).1
        (opSpacing l.style prev (leadClass ts) false).2), l))) := by
  unfold Rec.parseArm
  refine Does.get_bind fun s _ => ?_
  show Does cfg k (fun n => (parser n).parseOp o .sequence prev) _ _ _ _
  unfold Rec.parseOp Rec.opBounds
  simp only [hcat, if_true]
  refine Does.after (m := fun _ => (Pure.pure {} : P BoundsWithLimits)) Does.pure ?_
  refine Does.after (m := fun _ => mathopSpacing .sequence prev false) (does_opSpacing hk hl) ?_
  exact Does.pure

theorem pseudoOp_does (hk : k.Plain) {name : Str} {limits : Bool} {lim : Option LimitsKind} {prev : Class}
    {B : Except LatexErrKind (Bounds × Loc)} (hl : HasLead fol)
    (h : ∀ lim, Does cfg k (fun n => (parser n).getBounds none ⟨{}, lim⟩) ts l fol (boundsRes lim B)) :
    Does cfg k (fun n => (parser n).parsePseudoOp name limits .sequence prev) (limitsTokens lim ++ ts) l fol
      (asParsed (B >>= fun rs =>
        let sp := opSpacing rs.2.style prev (leadClass fol) true
        let attrs := funcAttrs limits lim rs.1
        .ok ((.operator, opNode (limitsSet lim limits) (.pseudoOp attrs sp.1 sp.2 name) rs.1), rs.2))) := by
  unfold Rec.parsePseudoOp
  rw [asParsed_bind]
  refine does_bounds_bind h (fun e he => by rw [he]; rfl) (fun b l1 lm he hlim => ?_)
  rw [he]
  refine Does.after (m := fun _ => mathopSpacing .sequence prev true) (does_opSpacing hk hl) ?_
  show Does cfg k (fun _ => Pure.pure (Parsed.node .operator (b.wrap (pseudoOpLimits ⟨b, lm⟩ limits).1
      (.pseudoOp (pseudoOpLimits ⟨b, lm⟩ limits).2 (opSpacing l1.style prev (leadClass fol) true).1
        (opSpacing l1.style prev (leadClass fol) true).2 name)))) _ _ _
    (.ok (Parsed.node .operator (opNode (limitsSet lim limits) (.pseudoOp (funcAttrs limits lim b)
      (opSpacing l1.style prev (leadClass fol) true).1 (opSpacing l1.style prev (leadClass fol) true).2 name) b), l1))
  generalize opSpacing l1.style prev (leadClass fol) true = s2
  have e : b.wrap (pseudoOpLimits ⟨b, lm⟩ limits).1
      (.pseudoOp (pseudoOpLimits ⟨b, lm⟩ limits).2 s2.1 s2.2 name) =
      opNode (limitsSet lim limits) (.pseudoOp (funcAttrs limits lim b) s2.1 s2.2 name) b := by
    rw [← wrap_eq _ (by intro _ _ _ h; cases h)]
    have hlim' : (⟨b, lm⟩ : BoundsWithLimits).limits = lim := hlim
    unfold pseudoOpLimits funcAttrs
    rw [hlim']
    dsimp only
    cases ht : b.isTrivial with
    | true =>
      simp only [if_true, Bool.not_true, Bool.and_false, Bool.false_and, Bool.false_eq_true, if_false]
      rw [trivial_wrap ht, trivial_wrap ht]
    | false =>
      simp only [Bool.false_eq_true, if_false]
      cases lim with
      | none => cases limits <;> rfl
      | some x => cases x <;> cases limits <;> rfl
  rw [e]
  exact Does.pure

theorem arm_func (hk : k.Plain) {x : Func} {y : Token} {tail : List Tk} {sp : Span} {limits : Bool} {prev nx : Class}
    {B : Except LatexErrKind (Bounds × Loc)} (hx : x.tokens limits = ⟨y, false⟩ :: tail) (hok : x.ok = true)
    (hl : HasLead fol)
    (h : ∀ lim, Does cfg k (fun n => (parser n).getBounds none ⟨{}, lim⟩) ts l fol (boundsRes lim B)) :
    Does cfg k (fun n => (parser n).parseArm ⟨y, sp⟩ .sequence prev nx) (tail ++ ts) l fol
      (asParsed (B >>= fun rs =>
        let sp := opSpacing rs.2.style prev (leadClass fol) true
        let attrs := funcAttrs limits x.lim rs.1
        .ok ((.operator, opNode (limitsSet x.lim limits) (.pseudoOp attrs sp.1 sp.2 x.name.shown) rs.1), rs.2))) := by
  obtain ⟨name, lim⟩ := x
  unfold Rec.parseArm
  refine Does.get_bind fun s _ => ?_
  cases name with
  | known name =>
    have hx : (⟨if limits then .pseudoOperatorLimits name else .pseudoOperator name, false⟩ : Tk) :: limitsTokens lim =
      ⟨y, false⟩ :: tail := hx
    have key := pseudoOp_does (name := name) (limits := limits) (lim := lim) (prev := prev) hk hl h
    cases hx
    cases limits <;> exact key
  | spelled text =>
    have hx : (⟨.operatorName limits, false⟩ : Tk) :: (((⟨.groupBegin, false⟩ : Tk) ::
        text.map (fun t => (⟨t, false⟩ : Tk)) ++ [⟨.groupEnd, false⟩]) ++ limitsTokens lim) = ⟨y, false⟩ :: tail := hx
    cases hx
    unfold Func.ok at hok
    obtain ⟨str, hstr⟩ := Option.isSome_iff_exists.1 hok
    show Does cfg k (fun n => (parser n).parseOperatorName limits .sequence prev) _ _ _ _
    unfold Rec.parseOperatorName
    have e1 : (((⟨.groupBegin, false⟩ : Tk) ::
        text.map (fun t => (⟨t, false⟩ : Tk)) ++ [⟨.groupEnd, false⟩]) ++ limitsTokens lim) ++ ts =
        (⟨.groupBegin, false⟩ : Tk) :: text.map (fun t => (⟨t, false⟩ : Tk)) ++ ⟨.groupEnd, false⟩ ::
          (limitsTokens lim ++ ts) := by simp
    rw [e1]
    refine Does.after (does_name hstr) ?_
    have e2 : (collected none str).flatMap TextSnippet.text = str := by
      unfold collected
      cases str with
      | nil => rfl
      | cons c str => simp [TextSnippet.text]
    have e3 : FuncName.shown (.spelled text) = str := by
      show (textBy (fun t => nameChar t.unwrapMath) text).getD [] = str
      rw [hstr]; rfl
    dsimp only
    rw [e2, e3]
    exact pseudoOp_does hk hl h

theorem arm_style {sp : Span} {st : Style} {prev nx : Class} {F : Except LatexErrKind (List Node × Loc)}
    (hw : t.tok.isWs = false) (hn : Named t.tok.unwrapMath = true)
    (h : Does cfg k (fun n => (parser n).seqLoop .anyEndToken prev [] none) ts { l with style := st } (t :: fol) (seqRes [] F)) :
    Does cfg k (fun n => (parser n).parseArm ⟨.style st, sp⟩ .sequence prev nx) ts l (t :: fol)
      (asParsed (F >>= fun r => .ok ((.default, .row r.1 { style := some st }), { r.2 with style := l.style }))) := by
  unfold Rec.parseArm
  refine Does.get_bind fun s _ => ?_
  show Does cfg k (fun n => (parser n).parseStyle st sp .sequence prev) _ _ _ _
  unfold Rec.parseStyle
  refine Does.get_bind fun s0 hs0 => ?_
  refine Does.modify_bind (fun s => rfl) (l' := { l with style := st }) (fun s hs => at_style hs) ?_
  rw [asParsed_bind]
  have hseq := does_sequence (keep := true) hw hn h
  refine Does.seq (m := fun n => (parser n).parseSequenceIfInSequence .sequence sp .anyEndToken prev true)
    hseq (fun e he => ?_) (fun ns l1 he => ?_)
  · cases F with
    | ok p => cases he
    | error e' => cases he; rfl
  cases F with
  | error e' => cases he
  | ok q =>
  obtain ⟨ns', l2⟩ := q
  cases he
  exact Does.modify_bind (fun s => rfl) (l' := { l2 with style := l.style })
    (fun s hs => by rw [ctx_style hs0]; exact at_style (l := { l2 with style := st }) hs) Does.pure

/-- An attempt which succeeds -/
theorem Does.attempt_bind {α β : Type} {m : P α} {Q : α → Prop} {ts1 : List Tk} {r : Except LatexErrKind (β × Loc)}
    {f : Nat → Except LatexError α → P β}
    (hm : ∀ s, Is cfg s ts (k.at l) → ∃ a s', m cfg s = .ok a s' ∧ Is cfg s' ts1 (k.at l) ∧ Q a)
    (hf : ∀ a, Q a → Does cfg k (fun n => f n (.ok a)) ts1 l fol r) :
    Does cfg k (fun n => St.attempt m >>= f n) ts l fol r := by
  have e : ∀ n s a s', m cfg s = .ok a s' → (St.attempt m >>= f n) cfg s = f n (.ok a) cfg s' := by
    intro n s a s' h
    show St.bind (St.attempt m) (f n) cfg s = _
    unfold St.bind St.attempt
    rw [h]
  cases r with
  | error x =>
    intro s hs
    obtain ⟨a, s', h1, h2, h3⟩ := hm s hs
    obtain ⟨n0, x, s2, h4, h5⟩ := hf a h3 s' h2
    exact ⟨n0, x, s2, fun n hn => (e n s a s' h1).trans (h4 n hn), h5⟩
  | ok p =>
    intro s hs
    obtain ⟨a, s', h1, h2, h3⟩ := hm s hs
    obtain ⟨n0, s2, h4, h5⟩ := hf a h3 s' h2
    exact ⟨n0, s2, fun n hn => (e n s a s' h1).trans (h4 n hn), h5⟩

theorem Does.attempt_next {β : Type} {r : Except LatexErrKind (β × Loc)} {f : Nat → Except LatexError TokSpan → P β}
    (hw : t.tok.isWs = false) (hn : Named t.tok.unwrapMath = true)
    (h : ∀ sp, Does cfg k (fun n => f n (.ok ⟨t.tok.unwrapMath, sp⟩)) ts l fol r) :
    Does cfg k (fun n => St.attempt P.next >>= f n) (t :: ts) l fol r := by
  refine Does.attempt_bind (Q := fun a => ∃ sp, a = ⟨t.tok.unwrapMath, sp⟩) (ts1 := ts) (fun s hs => ?_) ?_
  · obtain ⟨sp, q', h1, h2⟩ := hs.next hw hn
    exact ⟨_, _, h1, h2, sp, rfl⟩
  · rintro _ ⟨sp, rfl⟩
    exact h sp

/-- The name of a colour model is read. -/
theorem does_modelName : ∀ (m : List Token) {str acc : Str} {F : Nat}, modelName m = some str → m.length + 1 ≤ F →
    Does cfg k (fun _ => colorTypeLoop F acc) (m.map (fun t => (⟨t, false⟩ : Tk)) ++ ⟨.squareBracketClose, false⟩ :: ts) l ts
      (.ok ((true, acc ++ str), l))
  | [], str, acc, F + 1, h, _ => by
    cases h
    unfold colorTypeLoop
    refine Does.attempt_next rfl rfl fun sp => ?_
    rw [List.append_nil]
    exact Does.pure
  | x :: m, str, acc, F + 1, h, hF => by
    cases x <;> first | (cases h; done) | skip
    rename_i c mode
    unfold modelName at h
    cases hm : modelName m with
    | none => rw [hm] at h; cases h
    | some s =>
      rw [hm] at h
      cases h
      unfold colorTypeLoop
      refine Does.attempt_next rfl rfl fun sp => ?_
      rw [← List.append_assoc]
      exact does_modelName m hm (by simp only [List.length_cons] at hF; omega)
  | [], _, _, 0, _, hF | _ :: _, _, _, 0, _, hF => by simp only [List.length_cons, List.length_nil] at hF; omega

theorem modelName_solid : ∀ {m : List Token} {str : Str}, modelName m = some str →
    ∀ t ∈ m.map (fun t => (⟨t, false⟩ : Tk)), solid t.tok = true
  | [], _, _ => nofun
  | x :: m, str, h => by
    cases x <;> first | (cases h; done) | skip
    unfold modelName at h
    cases hm : modelName m with
    | none => rw [hm] at h; cases h
    | some s =>
      intro t ht
      rw [List.map_cons, List.mem_cons] at ht
      rcases ht with rfl | ht
      · rfl
      · exact modelName_solid hm t ht

/-- The arguments of `\\color` are read. -/
theorem does_color {sp : Span} {x : ColorArgs} (hx : x.ok = true) :
    Does cfg k (fun _ => parseColor sp) (x.tokens ++ ts) l ts (x.value >>= fun c => .ok (c, l)) := by
  obtain ⟨model, text⟩ := x
  unfold ColorArgs.ok at hx
  rw [Bool.and_eq_true] at hx
  obtain ⟨hm, hx⟩ := hx
  obtain ⟨str, hstr⟩ := Option.isSome_iff_exists.1 hx
  unfold parseColor ColorArgs.value ColorArgs.tokens
  cases model with
  | none =>
    have e : (modelTokens none ++ ⟨.groupBegin, false⟩ :: tight text ++ [⟨.groupEnd, true⟩]) ++ ts =
        (⟨.groupBegin, false⟩ : Tk) :: tight text ++ ⟨.groupEnd, true⟩ :: ts := by simp [modelTokens]
    simp only [e, hstr, Option.getD_some]
    refine Does.peek_bind (t := ⟨.groupBegin, false⟩) rfl fun sp' => ?_
    show Does cfg k (fun _ => if Token.isSquareOpen .groupBegin then _ else _) _ _ _ _
    simp only [show Token.isSquareOpen .groupBegin = false from rfl, Bool.false_eq_true, if_false]
    refine Does.stringLiteral_bind hstr fun sp' => ?_
    unfold namedColor
    dsimp only
    cases getColor str with
    | none => exact Does.fail
    | some c => exact Does.pure
  | some m =>
    obtain ⟨name, hname⟩ := Option.isSome_iff_exists.1 hm
    have e : (modelTokens (some m) ++ ⟨.groupBegin, false⟩ :: tight text ++ [⟨.groupEnd, true⟩]) ++ ts =
        (⟨.squareBracketOpen, false⟩ : Tk) :: (m.map (fun t => (⟨t, false⟩ : Tk)) ++ ⟨.squareBracketClose, false⟩ ::
          (⟨.groupBegin, false⟩ :: tight text ++ ⟨.groupEnd, true⟩ :: ts)) := by simp [modelTokens]
    simp only [e, hstr, hname, Option.getD_some]
    refine Does.peek_bind (t := ⟨.squareBracketOpen, false⟩) rfl fun sp' => ?_
    show Does cfg k (fun _ => if Token.isSquareOpen .squareBracketOpen then _ else _) _ _ _ _
    simp only [show Token.isSquareOpen .squareBracketOpen = true from rfl, if_true]
    refine Does.next_bind rfl rfl fun sp' => ?_
    refine Does.loopFuel_bind (modelName_solid hname) fun F hF => ?_
    refine Does.after (m := fun _ => colorTypeLoop F []) (does_modelName m hname (by rw [List.length_map] at hF; omega)) ?_
    simp only [Bool.not_true, Bool.false_eq_true, if_false, List.nil_append]
    refine Does.attempt_bind (Q := fun a => ∃ sp, a = (str, sp)) (ts1 := ts) (fun s hs => ?_) ?_
    · obtain ⟨sp, q', h1, h2⟩ := hs.stringLiteral hstr
      exact ⟨_, _, h1, h2, sp, rfl⟩
    · rintro _ ⟨sp', rfl⟩
      unfold modelColor
      dsimp only
      cases colorOfModel name str with
      | none => exact Does.fail
      | some o =>
        cases o with
        | none => exact Does.fail
        | some c => exact Does.pure

theorem arm_color {sp : Span} {x : ColorArgs} {prev nx : Class} {F : Except LatexErrKind (List Node × Loc)}
    (hw : t.tok.isWs = false) (hn : Named t.tok.unwrapMath = true) (hx : x.ok = true)
    (h : Does cfg k (fun n => (parser n).seqLoop .anyEndToken prev [] none) ts l (t :: fol) (seqRes [] F)) :
    Does cfg k (fun n => (parser n).parseArm ⟨.color, sp⟩ .sequence prev nx) (x.tokens ++ ts) l (t :: fol)
      (asParsed (x.value >>= fun c => F >>= fun r =>
        .ok ((.default, .row r.1 { color := some c }), { r.2 with style := l.style }))) := by
  unfold Rec.parseArm
  refine Does.get_bind fun s _ => ?_
  show Does cfg k (fun n => (parser n).parseColorSwitch sp .sequence prev) _ _ _ _
  unfold Rec.parseColorSwitch
  refine Does.seq (does_color (sp := sp) hx) (fun e he => ?_) (fun c l1 he => ?_)
  · cases hc : x.value with
    | error e' => rw [hc] at he; cases he; rfl
    | ok y => rw [hc] at he; cases he
  cases hc : x.value with
  | error e' => rw [hc] at he; cases he
  | ok y =>
  rw [hc] at he
  cases he
  show Does cfg k _ _ _ _ (asParsed (F >>= fun r => .ok ((.default, .row r.1 { color := some c }), { r.2 with style := l.style })))
  rw [asParsed_bind]
  refine Does.seq (m := fun n => (parser n).parseSequenceIfInSequence .sequence sp .anyEndToken prev true)
    (does_sequence (keep := true) hw hn h) (fun e he => ?_) (fun ns l1 he => ?_)
  · cases F with
    | ok p => cases he
    | error e' => cases he; rfl
  cases F with
  | error e' => cases he
  | ok q =>
  obtain ⟨ns', l2⟩ := q
  cases he
  exact Does.pure

theorem arm_amp {sp : Span} {prev nx : Class} :
    Does cfg k (fun n => (parser n).parseArm ⟨.newColumn, sp⟩ .sequence prev nx) ts l ts
      (asParsed (if l.env.allowColumns then .ok ((.closing, .columnSeparator), l)
        else .error (.cannotBeUsedHere .ampersand .tableEnv))) := by
  unfold Rec.parseArm
  refine Does.get_bind fun s hs => ?_
  rw [ctx_env hs]
  cases l.env.allowColumns with
  | true => exact Does.pure
  | false => exact Does.fail

end Verif
